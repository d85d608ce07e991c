import Verif.Proofs.Ezxml

/-
C78: walking through and editing an XML document with ezxml.
-/
open Mx.Spec Mx.Ezxml
namespace Mx.Props

/-- A new document, changed by any sequence of calls for which it is said what they should do: every call returns what it should, and of every element all that can be seen is as it should be. -/
theorem C78_new_document (es : List Edit) (t : Tree) (as : List Answer) (h : wantedAll newTree es = some (t, as)) :
    (edits newDocument es).2 = as ∧
      ∀ id x, t.el id = some x → ∃ n, (edits newDocument es).1.node id = some n ∧ Looks (edits newDocument es).1 t id n x := by
  obtain ⟨h1, h2⟩ := edits_rel es new_rel h
  refine ⟨h1, fun id x hx => ?_⟩
  obtain ⟨n, hn, hr⟩ := h2.get hx
  exact ⟨n, hn, h2.looks hr⟩

/-- The same for a document that has been loaded, if no element in it holds both children and text: there is a tree that looks like it, and it stays so under all sequences of calls. -/
theorem C78_any_document (m : Mem) (hm : Unmixed m) :
    ∃ t₀ : Tree, (∀ id, (t₀.el id).isSome = (m.node id).isSome) ∧ (∀ id x, t₀.el id = some x → ∃ n, m.node id = some n ∧ Looks m t₀ id n x) ∧
      ∀ (es : List Edit) (t : Tree) (as : List Answer), wantedAll t₀ es = some (t, as) →
        (edits m es).2 = as ∧ ∀ id x, t.el id = some x → ∃ n, (edits m es).1.node id = some n ∧ Looks (edits m es).1 t id n x := by
  have h0 := treeOf_rel hm
  refine ⟨treeOf m, fun id => by simp [treeOf], fun id x hx => ?_, fun es t as h => ?_⟩
  · obtain ⟨n, hn, hr⟩ := h0.get hx
    exact ⟨n, hn, h0.looks hr⟩
  · obtain ⟨h1, h2⟩ := edits_rel es h0 h
    refine ⟨h1, fun id x hx => ?_⟩
    obtain ⟨n, hn, hr⟩ := h2.get hx
    exact ⟨n, hn, h2.looks hr⟩

/-- A history: `<a x="1"><c>v</c><b/></a>`, in which some calls are refused and some elements are removed again. -/
def ezxmlHistory : List Edit :=
  [.setName 1 (chars "a"), .appendAttribute 1 (chars "x"), .setAttributeValue 1 2 (chars "1"), .appendChild 1 (chars "b"), .prependChild 1 (chars "c"), .setValue 4 (chars "v"),
    .setValue 1 (chars "no"), .insertSiblingAfter 4 (chars "d"), .removeChild 1 (chars "d"), .removeChild 1 (chars "d"), .appendAttribute 3 (chars "y"), .removeAttribute 3 6]

/-- Said of the history: every call is one of those of which it is said what they should do, and the document is what was meant. -/
example : (wantedAll newTree ezxmlHistory).map (·.2) =
    some [.nothing, .made 2, .nothing, .made 3, .made 4, .nothing, .exception, .made 5, .removed true, .removed false, .made 6, .nothing] := by decide

example : ((edits newDocument ezxmlHistory).1.node 1).bind (children (edits newDocument ezxmlHistory).1) = some [4, 3] := by decide

/-- `<r>`, `<?p q?>`, `<a/>`, `<?p?>`, `<b/>`, `<?p?>`, `</r>`. -/
def ezxmlMixed : Mem :=
  { node := fun n => match n with
      | 0 => some ⟨.document, [], [], [], [.node 1], 0⟩
      | 1 => some ⟨.element, chars "r", [], [], [.node 2, .node 3, .node 4, .node 5, .node 6], 0⟩
      | 2 => some ⟨.pi, chars "p", chars "q", [], [], 1⟩
      | 3 => some ⟨.element, chars "a", [], [], [], 1⟩
      | 4 => some ⟨.pi, chars "p", [], [], [], 1⟩
      | 5 => some ⟨.element, chars "b", [], [], [], 1⟩
      | 6 => some ⟨.pi, chars "p", [], [], [], 1⟩
      | _ => none
    next := 7 }

example : (ezxmlMixed.node 1).bind (children ezxmlMixed) = some [3, 5] ∧ (ezxmlMixed.node 1).bind (childrenBackwards ezxmlMixed) = some [5, 3] ∧
    (ezxmlMixed.node 1).bind (childrenAndInstructions ezxmlMixed) = some [2, 3, 4, 5, 6] := by decide

example : Unmixed ezxmlMixed := by
  intro id n h
  rcases id with _ | _ | _ | _ | _ | _ | _ | id
  · obtain rfl : _ = n := Option.some.inj h
    exact .inl ⟨[1], rfl⟩
  · obtain rfl : _ = n := Option.some.inj h
    exact .inl ⟨[2, 3, 4, 5, 6], rfl⟩
  all_goals first
    | (obtain rfl : _ = n := Option.some.inj h
       exact .inl ⟨[], rfl⟩)
    | exact nomatch h

/-- A child that is added to an element that has a value (be it the empty text) is there, but is never seen: the walk through the children is empty. -/
theorem C78_hidden_child (m : Mem) (e : Nat) (n : Node) (v name : Str) (r : List Kid) (hn : m.node e = some n) (hk : n.kind = .element) (ht : n.kids = .text v :: r)
    (hf : m.node m.next = none) :
    ∃ id n' c, (edit m (.appendChild e name)).2 = .made id ∧
      (edit m (.appendChild e name)).1.node e = some n' ∧ (edit m (.appendChild e name)).1.node id = some c ∧ c.parent = e ∧ Kid.node id ∈ n'.kids ∧
      children (edit m (.appendChild e name)).1 n' = some [] ∧ childrenAndInstructions (edit m (.appendChild e name)).1 n' = some [] := by
  have hne : e ≠ m.next := fun hc => by rw [hc, hf] at hn; exact nomatch hn
  have he : edit m (.appendChild e name) = addNode m e n name (n.kids ++ [.node m.next]) := by
    simp only [edit, hn, hk, if_pos]
  rw [he]
  refine ⟨m.next, { n with kids := n.kids ++ [.node m.next] }, ⟨.element, name, [], [], [], e⟩, rfl, ?_, ?_, rfl, by simp, ?_, ?_⟩
  · simp [addNode, Mem.put, hne]
  · simp [addNode, Mem.put]
  · unfold children
    simp only [ht, List.cons_append]
    rw [beginSkip_text, walkFrom, if_pos rfl]
  · unfold childrenAndInstructions
    simp only [ht, List.cons_append]
    rw [beginAll_text, walkFrom, if_pos rfl]

/-- In this way a new document loses its child. -/
example : (edits newDocument [.setValue 1 [], .appendChild 1 (chars "a")]).2 = [.nothing, .made 2] ∧
    ((edits newDocument [.setValue 1 [], .appendChild 1 (chars "a")]).1.node 1).bind (children (edits newDocument [.setValue 1 [], .appendChild 1 (chars "a")]).1) = some [] := by decide

/-- A processing instruction cannot be given a value: the call does nothing and says nothing. -/
theorem C78_instruction_value_lost (m : Mem) (e : Nat) (n : Node) (v : Str) (hn : m.node e = some n) (hk : n.kind = .pi) (ht : n.kids = []) :
    edit m (.setValue e v) = (m, .nothing) := by
  have hty : getType m n = .empty := by
    unfold getType beginSkip
    simp [ht, textOf, beginAll]
  simp only [edit, hn, hk]
  rw [if_neg (by simp)]
  unfold setValue
  rw [hty]
  simp [hk]

example : (edit ezxmlMixed (.setValue 2 (chars "new"))).2 = .nothing ∧ ((edit ezxmlMixed (.setValue 2 (chars "new"))).1.node 2).map getValue = some (chars "q") := by decide

/-- `<r>`, `<?p q?>`, `old`, `</r>`. -/
def ezxmlNoted : Mem :=
  { node := fun n => match n with
      | 0 => some ⟨.document, [], [], [], [.node 1], 0⟩
      | 1 => some ⟨.element, chars "r", [], [(3, chars "x", chars "1"), (4, chars "x", chars "2")], [.node 2, .text (chars "old")], 0⟩
      | 2 => some ⟨.pi, chars "p", chars "q", [], [], 1⟩
      | _ => none
    next := 5 }

/-- If a processing instruction stands before the text of an element, a new value for the element goes to the instruction. -/
theorem C78_value_goes_to_instruction :
    (edit ezxmlNoted (.setValue 1 (chars "new"))).2 = .nothing ∧ ((edit ezxmlNoted (.setValue 1 (chars "new"))).1.node 1).map getValue = some (chars "old") ∧
      ((edit ezxmlNoted (.setValue 1 (chars "new"))).1.node 2).map getValue = some (chars "new") := by decide

/-- Removing a child by its name may remove a processing instruction and leave the element; the children that are seen are then the same as before. -/
theorem C78_remove_takes_instruction :
    let m := (edits ezxmlMixed [.setName 3 (chars "p"), .removeChild 1 (chars "p")]).1
    (edits ezxmlMixed [.setName 3 (chars "p"), .removeChild 1 (chars "p")]).2 = [.nothing, .removed true] ∧ (m.node 1).bind (children m) = some [3, 5] := by decide

/-- Of two attributes of the same name the first is removed, even if the iterator stands at the second. -/
theorem C78_wrong_attribute : ((edit ezxmlNoted (.removeAttribute 1 4)).1.node 1).map (·.attrs) = some [(4, chars "x", chars "2")] := by decide

end Mx.Props
