import Verif.Proofs.XmlWrite

/-
What is kept of an element is in a normal form; an element in normal form is read from its node, and its node is printed as pieces that stand for it.
-/
open Spec
namespace Mx.XmlDoc
open Mx.Pugi

/-! ### Normal form -/

mutual
def Normal : Elem → Prop
  | .mk n a p v ks =>
    XmlName n ∧ (∀ x ∈ a, XmlName x.1 ∧ '\x00' ∉ x.2) ∧ (∀ i ∈ p, InstrOk i ∧ ∀ c r, i.data = c :: r → ¬ XmlSpace c)
      ∧ p = (p.filter (·.isChild)) ++ p.filter (fun i => !i.isChild) ∧ (ks = [] → p.filter (·.isChild) = [])
      ∧ '\x00' ∉ v ∧ '\r' ∉ v ∧ (v = [] ∨ ((∃ c ∈ v, ¬ XmlSpace c) ∧ ks = [])) ∧ NormalAll ks
def NormalAll : List Elem → Prop
  | [] => True
  | e :: es => Normal e ∧ NormalAll es
end

theorem blanks_no_zero {v : Str} (h : '\x00' ∉ v) : '\x00' ∉ blanks v := by
  match v with
  | [] => simp [blanks]
  | c :: r =>
    have h1 := blanks_no_zero (v := r) (fun hm => h (by simp [hm]))
    by_cases hh : c = '\r' ∧ r.head? = some '\n'
    · obtain ⟨rfl, hh⟩ := hh
      cases r with
      | nil => simp at hh
      | cons d r =>
        simp at hh
        subst hh
        have := blanks_no_zero (v := r) (fun hm => h (by simp [hm]))
        simpa [blanks] using this
    · rw [blanks_other (fun h1 h2 => hh ⟨h1, h2⟩)]
      have h0 : '\x00' ≠ c := by rintro rfl; exact h (by simp)
      simp only [List.mem_cons, not_or]
      refine ⟨?_, h1⟩
      split
      · decide
      · exact h0

theorem lineEnds_spec (v : Str) : '\r' ∉ lineEnds v ∧ ('\x00' ∉ v → '\x00' ∉ lineEnds v) ∧ ((∃ c ∈ v, ¬ XmlSpace c) → ∃ c ∈ lineEnds v, ¬ XmlSpace c) := by
  match v with
  | [] => simp [lineEnds]
  | c :: r =>
    by_cases hcr : c = '\r'
    · subst hcr
      by_cases hh : r.head? = some '\n'
      · cases r with
        | nil => simp at hh
        | cons d r =>
          simp at hh
          subst hh
          obtain ⟨h1, h2, h3⟩ := lineEnds_spec r
          rw [lineEnds]
          refine ⟨by simpa using h1, fun hz => ?_, ?_⟩
          · simpa using h2 (fun hm => hz (by simp [hm]))
          · rintro ⟨x, hx, hs⟩
            simp only [List.mem_cons] at hx
            rcases hx with rfl | rfl | hx
            · exact absurd (show XmlSpace '\r' by decide) hs
            · exact absurd (show XmlSpace '\n' by decide) hs
            · obtain ⟨y, hy, hy'⟩ := h3 ⟨x, hx, hs⟩
              exact ⟨y, by simp [hy], hy'⟩
      · obtain ⟨h1, h2, h3⟩ := lineEnds_spec r
        rw [lineEnds_cr hh]
        refine ⟨by simpa using h1, fun hz => ?_, ?_⟩
        · simpa using h2 (fun hm => hz (by simp [hm]))
        · rintro ⟨x, hx, hs⟩
          rcases List.mem_cons.mp hx with rfl | hx
          · exact absurd (show XmlSpace '\r' by decide) hs
          · obtain ⟨y, hy, hy'⟩ := h3 ⟨x, hx, hs⟩
            exact ⟨y, by simp [hy], hy'⟩
    · obtain ⟨h1, h2, h3⟩ := lineEnds_spec r
      rw [lineEnds_other hcr]
      refine ⟨by simpa [h1] using Ne.symm hcr, fun hz => ?_, ?_⟩
      · simp only [List.mem_cons, not_or] at hz ⊢
        exact ⟨hz.1, h2 hz.2⟩
      · rintro ⟨x, hx, hs⟩
        rcases List.mem_cons.mp hx with rfl | hx
        · exact ⟨x, by simp, hs⟩
        · obtain ⟨y, hy, hy'⟩ := h3 ⟨x, hx, hs⟩
          exact ⟨y, by simp [hy], hy'⟩

theorem keptText_spec {v : Str} (h : '\x00' ∉ v) : '\x00' ∉ keptText v ∧ '\r' ∉ keptText v ∧ (keptText v = [] ∨ ∃ c ∈ keptText v, ¬ XmlSpace c) := by
  obtain ⟨h1, h2, h3⟩ := lineEnds_spec v
  by_cases hm : ∀ c ∈ v, XmlSpace c
  · simp [keptText, if_pos hm]
  · rw [keptText, if_neg hm]
    exact ⟨h2 h, h1, .inr (h3 (by simpa only [not_forall, exists_prop] using hm))⟩

theorem keptInstr_ok {i : Instr} (h : InstrOk i) (b : Bool) : InstrOk (keptInstr b i) ∧ ∀ c r, (keptInstr b i).data = c :: r → ¬ XmlSpace c := by
  obtain ⟨h1, h2, h3, h4⟩ := h
  refine ⟨⟨h1, h2, infix_drop _ h3, fun hm => h4 ((List.dropWhile_suffix _).subset hm)⟩, ?_⟩
  intro c r hr
  have := List.head?_dropWhile_not (fun c => decide (XmlSpace c)) i.data
  have hr' : i.data.dropWhile (fun c => decide (XmlSpace c)) = c :: r := hr
  rw [hr'] at this
  simpa using this

theorem keptInstrs_ok {l : List Instr} (h : ∀ i ∈ l, InstrOk i) (b : Bool) : ∀ i ∈ keptInstrs b l, InstrOk i ∧ ∀ c r, i.data = c :: r → ¬ XmlSpace c := by
  intro i hi
  rw [keptInstrs] at hi
  split at hi
  · rcases List.mem_append.mp hi with hi | hi
    · obtain ⟨j, hj, rfl⟩ := List.mem_map.mp hi
      exact keptInstr_ok (h j (List.mem_of_mem_filter hj)) _
    · obtain ⟨j, hj, rfl⟩ := List.mem_map.mp hi
      exact keptInstr_ok (h j (List.mem_of_mem_filter hj)) _
  · obtain ⟨j, hj, rfl⟩ := List.mem_map.mp hi
    exact keptInstr_ok (h j hj) _

theorem keptInstrs_split (b : Bool) (l : List Instr) : keptInstrs b l = (keptInstrs b l).filter (·.isChild) ++ (keptInstrs b l).filter (fun i => !i.isChild) := by
  cases b with
  | true => rw [kept_filter_child, kept_filter_behind, keptInstrs, if_pos rfl]
  | false => rw [kept_none_child, kept_none_behind, keptInstrs, if_neg (by simp), List.nil_append]

/-- Elements with either a text or children. -/
theorem kept_normal_mk {n : Str} {a : List (Str × Str)} {p : List Instr} {v : Str} {ks : List Elem} (hn : XmlName n) (ha : ∀ x ∈ a, AttrOk x) (hi : ∀ i ∈ p, InstrOk i) (hv : '\x00' ∉ v)
    (hs : v = [] ∨ ks = []) (hk : NormalAll (keptAll ks)) : Normal (kept (.mk n a p v ks)) := by
  obtain ⟨h1, h2, h3⟩ := keptText_spec hv
  refine ⟨hn, ?_, keptInstrs_ok hi _, keptInstrs_split _ _, ?_, h1, h2, ?_, hk⟩
  · intro x hx
    obtain ⟨y, hy, rfl⟩ := List.mem_map.mp hx
    exact ⟨(ha y hy).1, blanks_no_zero (ha y hy).2.2⟩
  · intro h
    have : ks = [] := by cases ks with | nil => rfl | cons e ks => simp [keptAll] at h
    subst this
    exact kept_none_child p
  · rcases hs with rfl | rfl
    · exact .inl rfl
    · rcases h3 with h3 | h3
      · exact .inl h3
      · exact .inr ⟨h3, rfl⟩

mutual
theorem kept_normal (e : CElem) (h : Writable (contents e)) : Normal (kept (contents e)) := by
  cases e with
  | text n a p v full => exact kept_normal_mk h.1 h.2.1 h.2.2.1 h.2.2.2.1 (.inr rfl) trivial
  | node n a p ks o full => exact kept_normal_mk h.1 h.2.1 h.2.2.1 h.2.2.2.1 (.inl rfl) (kept_normal_all ks h.2.2.2.2)
theorem kept_normal_all (ks : CKids) (h : WritableAll (contentsAll ks)) : NormalAll (keptAll (contentsAll ks)) := by
  cases ks with
  | nil l => trivial
  | cons g e r => exact ⟨kept_normal e h.1, kept_normal_all r h.2⟩
end

/-! ### Reading -/

theorem leading_append (b : Bool) (l : List Instr) (h : ∀ i ∈ l, i.isChild = b) (after : List XNode) : leadingInstrs b (l.map piNode ++ after) = l ++ leadingInstrs b after := by
  induction l with
  | nil => rfl
  | cons i l ih =>
    have := h i List.mem_cons_self
    rw [List.map_cons, List.cons_append, piNode, leadingInstrs, ih (fun x hx => h x (List.mem_cons_of_mem i hx))]
    cases i
    simp_all

theorem leading_nodes (b : Bool) (l : List Elem) : leadingInstrs b (Elem.nodes l) = [] := by
  cases l with
  | nil => rfl
  | cons e l =>
    obtain ⟨n, a, k, r, h⟩ := nodes_head e l
    rw [h, leadingInstrs]
    intro n v r hx
    simp at hx

theorem fromNodes_pis (l : List Instr) (after : List XNode) : fromNodes (l.map piNode ++ after) = fromNodes after := by
  induction l with
  | nil => rfl
  | cons i l ih => rw [List.map_cons, List.cons_append, piNode, fromNodes, ih]

theorem begin_nodes (l : List Instr) (e : Elem) (es : List Elem) : (begin (l.map piNode ++ Elem.nodes (e :: es))).isEmpty = false := by
  obtain ⟨n, a, k, r, h⟩ := nodes_head e es
  rw [h]
  cases l with
  | nil => rfl
  | cons i l =>
    rw [List.map_cons, List.cons_append, piNode, begin]
    have : ∀ m : List Instr, ((m.map piNode ++ XNode.elem n a k :: r).dropWhile XNode.isPi).isEmpty = false := by
      intro m
      induction m with
      | nil => rfl
      | cons j m ih => rw [List.map_cons, List.cons_append, List.dropWhile_cons_of_pos (by rfl), ih]
    exact this (i :: l)

theorem filter_child (p : List Instr) (b : Bool) : ∀ i ∈ p.filter (fun i => i.isChild == b), i.isChild = b := by
  intro i hi
  have := (List.mem_filter.mp hi).2
  simpa using this

theorem typeOf_kids (l : List Instr) (e : Elem) (es : List Elem) : typeOf (l.map piNode ++ Elem.nodes (e :: es)) = .element := by
  have h1 : textOf (l.map piNode ++ Elem.nodes (e :: es)) = [] := by
    apply textOf_none
    intro x hx
    rcases List.mem_append.mp hx with hx | hx
    · obtain ⟨i, -, rfl⟩ := List.mem_map.mp hx
      rfl
    · exact nodes_no_text _ x hx
  rw [typeOf, if_neg (by simp [h1]), begin_nodes]
  rfl

mutual
theorem node_read (e : Elem) (h : Normal e) (after : List XNode) (ha : leadingInstrs false after = []) : fromNode (e.behind.map piNode ++ after) e.node = some e := by
  match e, h with
  | .mk n a p v ks, h =>
    obtain ⟨-, -, -, hp, hpk, -, -, hv, hk⟩ := h
    have h1 : leadingInstrs false ((p.filter fun i => !i.isChild).map piNode ++ after) = p.filter fun i => !i.isChild := by
      rw [leading_append false _ _ after, ha, List.append_nil]
      intro i hi
      have := (List.mem_filter.mp hi).2
      simpa using this
    rw [Elem.node, Elem.behind, fromNode]
    by_cases hv0 : v = []
    · subst hv0
      cases ks with
      | nil =>
        have h2 := hpk rfl
        rw [if_neg (by simp), h2, h1]
        rw [h2, List.nil_append] at hp
        rw [← hp]
        rfl
      | cons k ks =>
        rw [if_neg (by simp), typeOf_kids, h1]
        have h2 : leadingInstrs true ((p.filter (·.isChild)).map piNode ++ Elem.nodes (k :: ks)) = p.filter (·.isChild) := by
          rw [leading_append true _ _ _, leading_nodes, List.append_nil]
          intro i hi
          exact (List.mem_filter.mp hi).2
        show (fromNodes _).map _ = _
        rw [fromNodes_pis, nodes_read (k :: ks) hk, h2, ← hp]
        rfl
    · have hks : ks = [] := by
        rcases hv with hv | hv
        · exact absurd hv hv0
        · exact hv.2
      subst hks
      have h2 := hpk rfl
      rw [if_pos hv0, h1]
      rw [h2, List.nil_append] at hp
      rw [← hp, typeOf, show textOf [XNode.pcdata v] = v from rfl, if_pos hv0]
theorem nodes_read (l : List Elem) (h : NormalAll l) : fromNodes (Elem.nodes l) = some l := by
  match l, h with
  | [], _ => rfl
  | e :: es, h =>
    have h1 := node_read e h.1 (Elem.nodes es) (leading_nodes false es)
    have h2 := nodes_read es h.2
    rw [Elem.nodes]
    have h3 : ∃ n a k, e.node = .elem n a k := by
      cases e
      exact ⟨_, _, _, rfl⟩
    obtain ⟨n, a, k, h3⟩ := h3
    rw [h3] at h1 ⊢
    rw [fromNodes, h1, fromNodes_pis, h2]
    · rfl
    · intro n v hx
      simp at hx
end

/-! ### Printing -/

theorem outPiValue_self {d : Str} (h : ¬ ("?>".toList <:+: d)) : outPiValue d = d := by
  induction d with
  | nil => rfl
  | cons c d ih =>
    have h' : ¬ ("?>".toList <:+: d) := fun hx => h (hx.trans (List.infix_cons (List.infix_refl d)))
    rw [outPiValue, ih h']
    intro r hc hd
    subst hc hd
    exact h ⟨[], r, rfl⟩

/-- The indentation of a node. -/
def printIndent (depth : Nat) : Str := (List.replicate depth [' ', ' ']).flatten

theorem printIndent_space (depth : Nat) : ∀ c ∈ '\n' :: printIndent depth, XmlSpace c := by
  intro c hc
  rcases List.mem_cons.mp hc with rfl | hc
  · decide
  · simp only [printIndent, List.mem_flatten, List.mem_replicate] at hc
    obtain ⟨l, ⟨-, rfl⟩, hc⟩ := hc
    simp at hc
    exact .inl hc

theorem pis_printed (depth : Nat) (l : List Instr) (h : ∀ i ∈ l, InstrOk i ∧ ∀ c r, i.data = c :: r → ¬ XmlSpace c) (x : List XNode) :
    ∃ ps, PiecesOk ps ∧ outNodes .line depth (l.map piNode ++ x) = (piecesText ps ++ (outNodes .line depth x).1, (outNodes .line depth x).2) ∧ piecesNodes ps = l.map piNode ∧ ∀ p ∈ ps, p.isMisc = true := by
  induction l with
  | nil => exact ⟨[], trivial, rfl, rfl, by simp⟩
  | cons i l ih =>
    obtain ⟨ps, h1, h2, h3, h4⟩ := ih (fun y hy => h y (List.mem_cons_of_mem i hy))
    obtain ⟨⟨g1, g2, g3, g4⟩, g5⟩ := h i List.mem_cons_self
    refine ⟨.space ('\n' :: printIndent depth) :: .instruction i.name [' '] i.data :: ps, ⟨printIndent_space depth, ⟨g1, g2, by simp, by simp [XmlSpace], g3, g5, g4⟩, h1⟩, ?_, ?_, ?_⟩
    · rw [List.map_cons, List.cons_append, outNodes, piNode, outNode, h2]
      simp [piecesText, XmlPiece.text', outPiValue_self g3, outIndent, printIndent]
    · simp [piecesNodes, XmlPiece.nodes, h3, piNode]
    · intro p hp
      simp only [List.mem_cons] at hp
      rcases hp with rfl | rfl | hp
      · rfl
      · rfl
      · exact h4 p hp

theorem tag_printed {n : Str} {a : List (Str × Str)} {g : Str} (hn : XmlName n) (ha : ∀ x ∈ a, XmlName x.1 ∧ '\x00' ∉ x.2) (hg : ∀ c ∈ g, XmlSpace c) : TagOk n (printedAttrs a) g :=
  ⟨hn, printed_ok ha, hg⟩

/-- What is printed of an element, if its children are printed as pieces. -/
theorem elem_printed (depth : Nat) {n : Str} {a : List (Str × Str)} (hn : XmlName n) (ha : ∀ x ∈ a, XmlName x.1 ∧ '\x00' ∉ x.2) (kids : List XNode) {ps : List XmlPiece} (hp : PiecesOk ps)
    (hk : outNodes .line (depth + 1) kids = (piecesText ps, .line)) (hn' : piecesNodes ps = kids) :
    ∃ p : XmlPiece, p.Ok ∧ outNode .line depth (.elem n a kids) = ('\n' :: printIndent depth ++ p.text', .line) ∧ p.nodes = [.elem n a kids] := by
  cases kids with
  | nil =>
    refine ⟨.empty n (printedAttrs a) [' '], tag_printed hn ha (by simp [XmlSpace]), ?_, ?_⟩
    · rw [outNode]
      simp [XmlPiece.text', tagText, printed_text, outIndent, printIndent]
    · simp [XmlPiece.nodes, printed_values]
  | cons k ks =>
    refine ⟨.node n (printedAttrs a) [] (ps ++ [.space ('\n' :: printIndent depth)]) [], ⟨tag_printed hn ha (by simp), by simp, pieces_ok_append hp ⟨show (XmlPiece.space ('\n' :: printIndent depth)).Ok from printIndent_space depth, trivial⟩⟩, ?_, ?_⟩
    · rw [outNode, hk]
      simp [XmlPiece.text', tagText, printed_text, outIndent, printIndent, endTagText, pieces_append, piecesText]
    · simp [XmlPiece.nodes, printed_values, pieces_nodes_append, piecesNodes, hn']

mutual
theorem node_printed (e : Elem) (h : Normal e) (depth : Nat) :
    ∃ p : XmlPiece, p.Ok ∧ outNode .line depth e.node = ('\n' :: printIndent depth ++ p.text', .line) ∧ p.nodes = [e.node] := by
  match e, h with
  | .mk n a p v ks, h =>
    obtain ⟨hn, ha, hi, -, -, hz, hr, hv, hk⟩ := h
    rw [Elem.node]
    by_cases hv0 : v = []
    · subst hv0
      rw [if_neg (by simp)]
      obtain ⟨ps, p1, p2, p3⟩ := nodes_printed ks hk (depth + 1)
      obtain ⟨qs, q1, q2, q3, -⟩ := pis_printed (depth + 1) (p.filter (·.isChild)) (fun i hx => hi i (List.mem_of_mem_filter hx)) (Elem.nodes ks)
      exact elem_printed depth hn ha _ (pieces_ok_append q1 p1) (by rw [q2, p2, pieces_append]) (by rw [pieces_nodes_append, q3, p3])
    · rw [if_pos hv0]
      have hm : ∃ c ∈ v, ¬ XmlSpace c := by
        rcases hv with hv | hv
        · exact absurd hv hv0
        · exact hv.1
      refine ⟨.text n (printedAttrs a) [] (outEscaped 0 v) v [], ⟨tag_printed hn ha (by simp), by simp, text_printed v hz hr, outEscaped_mark hm⟩, ?_, ?_⟩
      · rw [outNode, outNodes, outNodes, outNode]
        simp [XmlPiece.text', tagText, printed_text, outIndent, printIndent, endTagText]
      · simp [XmlPiece.nodes, printed_values]
theorem nodes_printed (l : List Elem) (h : NormalAll l) (depth : Nat) :
    ∃ ps, PiecesOk ps ∧ outNodes .line depth (Elem.nodes l) = (piecesText ps, .line) ∧ piecesNodes ps = Elem.nodes l := by
  match l, h with
  | [], _ => exact ⟨[], trivial, rfl, rfl⟩
  | e :: es, h =>
    obtain ⟨p, p1, p2, p3⟩ := node_printed e h.1 depth
    obtain ⟨ps, q1, q2, q3⟩ := nodes_printed es h.2 depth
    have hi : ∀ i ∈ e.behind, InstrOk i ∧ ∀ c r, i.data = c :: r → ¬ XmlSpace c := by
      cases e with
      | mk n a p v ks => exact fun i hx => h.1.2.2.1 i (List.mem_of_mem_filter hx)
    obtain ⟨is, i1, i2, i3, -⟩ := pis_printed depth e.behind hi (Elem.nodes es)
    refine ⟨.space ('\n' :: printIndent depth) :: p :: (is ++ ps), ⟨printIndent_space depth, p1, pieces_ok_append i1 q1⟩, ?_, ?_⟩
    · rw [Elem.nodes, outNodes, p2, i2, q2]
      simp [piecesText, XmlPiece.text', pieces_append]
    · simp [piecesNodes, XmlPiece.nodes, p3, pieces_nodes_append, i3, q3, Elem.nodes]
end

end Mx.XmlDoc
