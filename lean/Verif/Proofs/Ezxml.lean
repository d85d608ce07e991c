import Verif.Spec.Ezxml

open Mx.Spec
namespace Mx.Ezxml

/-! ## Walking -/

theorem piAt_map {m : Mem} {e : Nat → Bool} (h : ∀ id, m.isPi id = !e id) {l : List Nat} {p : Nat} (hp : p < l.length) :
    piAt m (l.map Kid.node) p = !e l[p] := by
  simp [piAt, hp, piKid, h]

theorem deref_map {l : List Nat} {p : Nat} (hp : p < l.length) : deref (l.map Kid.node) p = some l[p] := by
  simp [deref, hp]

theorem skipUp_spec {m : Mem} {e : Nat → Bool} (h : ∀ id, m.isPi id = !e id) (l : List Nat) :
    ∀ (fuel p : Nat), p ≤ l.length → l.length - p ≤ fuel →
      p ≤ skipUp m (l.map Kid.node) fuel p ∧ skipUp m (l.map Kid.node) fuel p ≤ l.length ∧
      (l.drop (skipUp m (l.map Kid.node) fuel p)).filter e = (l.drop p).filter e ∧
      (∀ hq : skipUp m (l.map Kid.node) fuel p < l.length, e l[skipUp m (l.map Kid.node) fuel p] = true)
  | 0, p, hp, hf => by
    have : p = l.length := by omega
    subst this
    simp [skipUp]
  | fuel + 1, p, hp, hf => by
    by_cases hl : p < l.length
    · rw [skipUp]
      by_cases he : e l[p] = true
      · rw [if_neg (by rw [piAt_map h hl, he]; simp)]
        exact ⟨Nat.le_refl _, hp, rfl, fun _ => he⟩
      · have he' : e l[p] = false := by simpa using he
        rw [if_pos ⟨by simp; omega, by rw [piAt_map h hl, he']; rfl⟩]
        obtain ⟨h1, h2, h3, h4⟩ := skipUp_spec h l fuel (p + 1) (by omega) (by omega)
        refine ⟨by omega, h2, ?_, h4⟩
        rw [h3, List.drop_eq_getElem_cons hl, List.filter_cons_of_neg (by simp [he'])]
    · have : p = l.length := by omega
      subst this
      rw [skipUp, if_neg (by simp)]
      simp

theorem walkFrom_spec {m : Mem} {e : Nat → Bool} (h : ∀ id, m.isPi id = !e id) (l : List Nat) :
    ∀ (fuel p : Nat), p ≤ l.length → l.length - p < fuel → (∀ hq : p < l.length, e l[p] = true) →
      walkFrom m (l.map Kid.node) true fuel p = some ((l.drop p).filter e)
  | 0, p, hp, hf, he => by omega
  | fuel + 1, p, hp, hf, he => by
    rw [walkFrom]
    by_cases hl : p < l.length
    · rw [if_neg (by simp; omega), deref_map hl]
      obtain ⟨h1, h2, h3, h4⟩ := skipUp_spec h l l.length (p + 1) (by omega) (by omega)
      have hi : increment m (l.map Kid.node) true p = skipUp m (l.map Kid.node) l.length (p + 1) := by simp [increment]
      rw [hi, walkFrom_spec h l fuel _ h2 (by omega) h4, h3, List.drop_eq_getElem_cons hl, List.filter_cons_of_pos (he hl)]
      rfl
    · have : p = l.length := by omega
      subst this
      simp

theorem walkAll_spec {m : Mem} (l : List Nat) :
    ∀ (fuel p : Nat), p ≤ l.length → l.length - p < fuel → walkFrom m (l.map Kid.node) false fuel p = some (l.drop p)
  | 0, p, hp, hf => by omega
  | fuel + 1, p, hp, hf => by
    rw [walkFrom]
    by_cases hl : p < l.length
    · rw [if_neg (by simp; omega), deref_map hl]
      have hi : increment m (l.map Kid.node) false p = p + 1 := by simp [increment]
      rw [hi, walkAll_spec l fuel _ (by omega) (by omega), List.drop_eq_getElem_cons hl]
      rfl
    · have : p = l.length := by omega
      subst this
      simp

theorem beginAll_map (l : List Nat) : beginAll (l.map Kid.node) = 0 := by cases l <;> simp [beginAll]

theorem begin_spec {m : Mem} {e : Nat → Bool} (h : ∀ id, m.isPi id = !e id) (l : List Nat) :
    beginSkip m (l.map Kid.node) ≤ l.length ∧
      (l.drop (beginSkip m (l.map Kid.node))).filter e = l.filter e ∧
      (∀ hq : beginSkip m (l.map Kid.node) < l.length, e l[beginSkip m (l.map Kid.node)] = true) := by
  unfold beginSkip
  rw [beginAll_map]
  cases l with
  | nil => simp
  | cons a r =>
    by_cases ha : e a = true
    · rw [if_neg (by rw [piAt_map h (by simp)]; simp [ha])]
      exact ⟨by simp, by simp, fun _ => by simpa using ha⟩
    · have ha' : e a = false := by simpa using ha
      rw [if_pos ⟨by simp, by rw [piAt_map h (by simp)]; simp [ha']⟩]
      obtain ⟨h1, h2, h3, h4⟩ := skipUp_spec h (a :: r) (a :: r).length 1 (by simp) (by omega)
      have hi : increment m ((a :: r).map Kid.node) true 0 = skipUp m ((a :: r).map Kid.node) (a :: r).length 1 := by simp [increment]
      rw [hi]
      refine ⟨h2, ?_, h4⟩
      rw [h3]
      simp [ha']

theorem take_filter_nil {l : List Nat} {e : Nat → Bool} {b : Nat} (h : (l.drop b).filter e = l.filter e) : (l.take b).filter e = [] := by
  have := List.take_append_drop b l
  have h2 : l.filter e = (l.take b).filter e ++ (l.drop b).filter e := by rw [← List.filter_append, this]
  rw [h] at h2
  exact List.self_eq_append_left.mp h2

theorem skipDown_spec {m : Mem} {e : Nat → Bool} (h : ∀ id, m.isPi id = !e id) (l : List Nat) :
    ∀ (p : Nat), p < l.length →
      skipDown m (l.map Kid.node) p ≤ p ∧
      (∀ r (hr : r < l.length), r ≤ p → e l[r] = true → r ≤ skipDown m (l.map Kid.node) p) ∧
      (∀ hq : skipDown m (l.map Kid.node) p < l.length, skipDown m (l.map Kid.node) p = 0 ∨ e l[skipDown m (l.map Kid.node) p] = true) ∧
      (l.take (skipDown m (l.map Kid.node) p + 1)).filter e = (l.take (p + 1)).filter e
  | 0, hp => by
    refine ⟨Nat.le_refl _, fun r _ h _ => h, fun _ => Or.inl rfl, rfl⟩
  | p + 1, hp => by
    rw [skipDown]
    by_cases he : e l[p + 1] = true
    · rw [if_neg (by rw [piAt_map h hp, he]; simp)]
      exact ⟨Nat.le_refl _, fun r _ h _ => h, fun _ => Or.inr he, rfl⟩
    · have he' : e l[p + 1] = false := by simpa using he
      rw [if_pos (by rw [piAt_map h hp, he']; rfl)]
      obtain ⟨h1, h2, h3, h4⟩ := skipDown_spec h l p (by omega)
      refine ⟨by omega, ?_, h3, ?_⟩
      · intro r hr hle her
        by_cases hrp : r = p + 1
        · subst hrp; exact absurd her he
        · exact h2 r hr (by omega) her
      · rw [h4, List.take_add_one (l := l) (i := p + 1), List.filter_append, List.getElem?_eq_getElem hp]
        simp [he']

theorem walkDown_spec {m : Mem} {e : Nat → Bool} (h : ∀ id, m.isPi id = !e id) (l : List Nat) :
    ∀ (fuel p : Nat), p ≤ l.length → beginSkip m (l.map Kid.node) ≤ p → p < fuel →
      walkDown m (l.map Kid.node) fuel p = some ((l.take p).filter e).reverse
  | 0, p, hp, hb, hf => by omega
  | fuel + 1, p, hp, hb, hf => by
    obtain ⟨b1, b2, b3⟩ := begin_spec h l
    rw [walkDown]
    by_cases hl : p = beginSkip m (l.map Kid.node)
    · rw [if_pos hl, hl, take_filter_nil b2]
      rfl
    · rw [if_neg hl]
      have hd : decrement m (l.map Kid.node) p = skipDown m (l.map Kid.node) (p - 1) := rfl
      obtain ⟨h1, h2, h3, h4⟩ := skipDown_spec h l (p - 1) (by omega)
      have hbl : beginSkip m (l.map Kid.node) < l.length := by omega
      have hbq := h2 _ hbl (by omega) (b3 hbl)
      have hq : skipDown m (l.map Kid.node) (p - 1) < l.length := by omega
      have heq : e l[skipDown m (l.map Kid.node) (p - 1)] = true := by
        rcases h3 hq with h0 | h0
        · have hb0 : beginSkip m (l.map Kid.node) = 0 := by omega
          have := b3 hbl
          simp only [hb0] at this
          simp only [h0]
          exact this
        · exact h0
      rw [hd, deref_map hq, walkDown_spec h l fuel _ (by omega) hbq (by omega)]
      have hp1 : p - 1 + 1 = p := by omega
      rw [hp1] at h4
      rw [← h4, List.take_add_one, List.filter_append, List.getElem?_eq_getElem hq]
      simp [heq]

theorem begin_end_iff {m : Mem} {e : Nat → Bool} (h : ∀ id, m.isPi id = !e id) (l : List Nat) :
    beginSkip m (l.map Kid.node) = l.length ↔ l.any e = false := by
  obtain ⟨b1, b2, b3⟩ := begin_spec h l
  constructor
  · intro hb
    rw [hb] at b2
    simp at b2
    simpa using b2
  · intro ha
    rcases Nat.lt_or_ge (beginSkip m (l.map Kid.node)) l.length with hl | hl
    · have := b3 hl
      simp only [List.any_eq_false] at ha
      exact absurd this (ha _ (List.getElem_mem _))
    · omega

theorem textOf_map : ∀ l : List Nat, textOf (l.map Kid.node) = []
  | [] => rfl
  | _ :: r => textOf_map r

theorem beginAll_text (s : Str) (r : List Kid) : beginAll (.text s :: r) = (Kid.text s :: r).length := rfl

theorem beginSkip_text (m : Mem) (s : Str) (r : List Kid) : beginSkip m (.text s :: r) = (Kid.text s :: r).length := by
  unfold beginSkip
  rw [beginAll_text, if_neg (by simp)]

theorem kidAfter_map (id : Nat) : ∀ l : List Nat, kidAfter id (l.map Kid.node) = (nextIn id l).map Kid.node
  | [] => rfl
  | k :: r => by
    by_cases h : k = id
    · subst h; simp [kidAfter, nextIn]
    · simp [kidAfter, nextIn, h, kidAfter_map id r]

/-! ## The relation between the document and the tree -/

def InsideRel (kind : NodeKind) (kids : List Kid) : Inside → Prop
  | .kids l => kids = l.map Kid.node
  | .value s => kind = .element ∧ ∃ rest : List Str, kids = .text s :: rest.map Kid.text

structure NodeRel (n : Node) (x : El) : Prop where
  kind : n.kind = x.kind
  name : n.name = x.name
  value : n.value = x.instruction
  attrs : n.attrs = x.attrs
  parent : n.parent = x.parent
  inside : InsideRel n.kind n.kids x.inside

def OptRel : Option Node → Option El → Prop
  | some n, some x => NodeRel n x
  | none, none => True
  | _, _ => False

structure Rel (m : Mem) (t : Tree) : Prop where
  next : m.next = t.next
  at_ : ∀ id, OptRel (m.node id) (t.el id)

theorem Rel.get {m : Mem} {t : Tree} (h : Rel m t) {id : Nat} {x : El} (hx : t.el id = some x) : ∃ n, m.node id = some n ∧ NodeRel n x := by
  have := h.at_ id
  rw [hx] at this
  cases hn : m.node id with
  | none => rw [hn] at this; exact this.elim
  | some n => rw [hn] at this; exact ⟨n, rfl, this⟩

theorem Rel.get' {m : Mem} {t : Tree} (h : Rel m t) {id : Nat} {n : Node} (hn : m.node id = some n) : ∃ x, t.el id = some x ∧ NodeRel n x := by
  have := h.at_ id
  rw [hn] at this
  cases hx : t.el id with
  | none => rw [hx] at this; exact this.elim
  | some x => rw [hx] at this; exact ⟨x, rfl, this⟩

theorem Rel.none {m : Mem} {t : Tree} (h : Rel m t) {id : Nat} (hx : t.el id = none) : m.node id = none := by
  have := h.at_ id
  rw [hx] at this
  cases hn : m.node id with
  | none => rfl
  | some n => rw [hn] at this; exact this.elim

theorem Rel.isPi {m : Mem} {t : Tree} (h : Rel m t) (id : Nat) : m.isPi id = !t.isElement id := by
  unfold Mem.isPi Tree.isElement
  cases hx : t.el id with
  | none => rw [h.none hx]; rfl
  | some x =>
    obtain ⟨n, hn, hr⟩ := h.get hx
    rw [hn]
    simp [hr.kind]

theorem Rel.put {m : Mem} {t : Tree} (h : Rel m t) (id : Nat) {n : Node} {x : El} (hr : NodeRel n x) : Rel (m.put id n) (t.put id x) := by
  refine ⟨h.next, fun k => ?_⟩
  show OptRel (if k = id then some n else m.node k) (if k = id then some x else t.el k)
  by_cases hk : k = id
  · rw [if_pos hk, if_pos hk]; exact hr
  · rw [if_neg hk, if_neg hk]; exact h.at_ k

theorem Rel.looks {m : Mem} {t : Tree} (h : Rel m t) {id : Nat} {n : Node} {x : El} (hr : NodeRel n x) : Looks m t id n x := by
  have hpar : getParent m n = match t.el x.parent with
      | some p => if p.kind = .document then Option.none else some x.parent
      | Option.none => Option.none := by
    unfold getParent
    rw [hr.parent]
    cases hx : t.el x.parent with
    | none => rw [h.none hx]
    | some p =>
      obtain ⟨q, hq, hpq⟩ := h.get hx
      rw [hq]
      simp [hpq.kind]
  have hsib : ∀ p l, t.el x.parent = some p → p.inside = .kids l → getNextSibling m id n = nextIn id l := by
    intro p l hp hl
    obtain ⟨q, hq, hpq⟩ := h.get hp
    have hin := hpq.inside
    rw [hl] at hin
    have hin' : q.kids = l.map Kid.node := hin
    unfold getNextSibling
    rw [hr.parent, hq]
    simp only [hin', kidAfter_map]
    cases nextIn id l <;> rfl
  have hin := hr.inside
  cases hi : x.inside with
  | kids l =>
    rw [hi] at hin
    have hk : n.kids = l.map Kid.node := hin
    obtain ⟨b1, b2, b3⟩ := begin_spec h.isPi l
    have hbe := begin_end_iff h.isPi l
    refine ⟨hr.kind, hr.name, hr.attrs, ?_, ?_, ?_, ?_, ?_, hpar, hsib⟩
    · unfold getValue
      simp only [hr.kind, hr.value, hk, textOf_map, hi]
    · unfold getType
      rw [hk, textOf_map, if_neg (by simp), hi]
      simp only [List.length_map]
      by_cases ha : l.any t.isElement = true
      · rw [if_neg (fun hc => by rw [hbe.mp hc] at ha; simp at ha), if_pos ha]
      · rw [if_pos (hbe.mpr (by simpa using ha)), if_neg ha]
    · unfold children
      rw [hk, List.length_map, walkFrom_spec h.isPi l _ _ b1 (by omega) b3, b2, hi]
    · unfold childrenBackwards
      rw [hk, List.length_map, walkDown_spec h.isPi l _ _ (Nat.le_refl _) b1 (by omega), hi, List.take_length]
    · unfold childrenAndInstructions
      rw [hk, List.length_map, beginAll_map, walkAll_spec l _ _ (by omega) (by omega), hi, List.drop_zero]
  | value s =>
    rw [hi] at hin
    obtain ⟨hke, rest, hk⟩ : n.kind = .element ∧ ∃ rest : List Str, n.kids = .text s :: rest.map Kid.text := hin
    refine ⟨hr.kind, hr.name, hr.attrs, ?_, ?_, ?_, ?_, ?_, hpar, hsib⟩
    · unfold getValue
      have : x.kind = .element := by rw [← hr.kind, hke]
      simp [hke, this, hk, textOf, hi]
    · unfold getType
      rw [hk, beginSkip_text, hi]
      simp only [textOf]
      by_cases hs : s = [] <;> simp [hs]
    · unfold children
      rw [hk, beginSkip_text, hi, walkFrom, if_pos rfl]
    · unfold childrenBackwards
      rw [hk, hi, walkDown, beginSkip_text, if_pos rfl]
    · unfold childrenAndInstructions
      rw [hk, beginAll_text, hi, walkFrom, if_pos rfl]

/-! ## Editing -/

theorem insertAfter_map (e new : Nat) : ∀ l : List Nat, insertAfterKid e new (l.map Kid.node) = (behind e new l).map Kid.node
  | [] => rfl
  | k :: r => by
    by_cases h : k = e
    · subst h; simp [insertAfterKid, behind]
    · simp [insertAfterKid, behind, h, insertAfter_map e new r]

theorem Rel.nameOf {m : Mem} {t : Tree} (h : Rel m t) (id : Nat) : (m.node id).map (·.name) = (t.el id).map (·.name) := by
  cases hx : t.el id with
  | none => rw [h.none hx]; rfl
  | some x =>
    obtain ⟨n, hn, hr⟩ := h.get hx
    rw [hn]
    simp [hr.name]

theorem removeNamed_map {m : Mem} {t : Tree} (h : Rel m t) (name : Str) :
    ∀ l : List Nat, removeNamed m name (l.map Kid.node) = (without t name l).map fun r => r.map Kid.node
  | [] => rfl
  | k :: r => by
    have ih := removeNamed_map h name r
    simp only [List.map_cons, removeNamed, without, h.nameOf]
    split
    · rfl
    · rw [ih]
      cases without t name r <;> rfl

theorem removeNamed_texts (m : Mem) (name : Str) : ∀ l : List Str, removeNamed m name (l.map Kid.text) = none
  | [] => rfl
  | s :: r => by simp [removeNamed, removeNamed_texts m name r]

theorem attrName_mem {a : Nat} {n : Str} : ∀ {l : List (Nat × Str × Str)}, attrName? a l = some n → ∃ q ∈ l, q.1 = a ∧ q.2.1 = n
  | [], h => by simp [attrName?] at h
  | (b, k, v) :: r, h => by
    rw [attrName?] at h
    split at h
    · next hb => exact ⟨(b, k, v), by simp, hb, by simpa using h⟩
    · obtain ⟨q, hq, h1, h2⟩ := attrName_mem h
      exact ⟨q, by simp [hq], h1, h2⟩

theorem firstOfName_spec {a : Nat} : ∀ {l : List (Nat × Str × Str)}, firstOfName a l = true →
    ∃ n, attrName? a l = some n ∧ removeNamedAttr n l = l.eraseP fun p => decide (p.1 = a)
  | [], h => by simp [firstOfName] at h
  | (b, k, v) :: r, h => by
    by_cases hb : b = a
    · exact ⟨k, by simp [attrName?, hb], by simp [removeNamedAttr, hb]⟩
    · have h' : firstOfName a r = true ∧ (r.all fun q => decide (q.1 = a → q.2.1 ≠ k)) = true := by
        simpa [firstOfName, hb] using h
      obtain ⟨n, h1, h2⟩ := firstOfName_spec h'.1
      obtain ⟨q, hq, hq1, hq2⟩ := attrName_mem h1
      have hne : q.2.1 ≠ k := by
        have := List.all_eq_true.mp h'.2 q hq
        exact (of_decide_eq_true this) hq1
      have hkn : k ≠ n := fun hc => hne (by rw [hq2, hc])
      exact ⟨n, by simp [attrName?, hb, h1], by simp [removeNamedAttr, hkn, hb, h2]⟩

theorem mapAttr_eq (a : Nat) (f : Str × Str → Str × Str) : ∀ l, mapAttr a f l = changeAttr a f l
  | [] => rfl
  | (b, n, v) :: r => by
    have := mapAttr_eq a f r
    simp only [mapAttr, changeAttr, List.map_cons] at *
    rw [this]

theorem add_rel {m : Mem} {t : Tree} (h : Rel m t) (p : Nat) {n : Node} {x : El} (hr : NodeRel n x) (name : Str) {kids : List Kid} {l : List Nat} (hk : kids = l.map Kid.node) :
    Rel (addNode m p n name kids).1 (add t p x name l).1 ∧ (addNode m p n name kids).2 = (add t p x name l).2 := by
  have h1 : NodeRel { n with kids := kids } { x with inside := .kids l } := ⟨hr.kind, hr.name, hr.value, hr.attrs, hr.parent, hk⟩
  have h2 : NodeRel ⟨.element, name, [], [], [], p⟩ ⟨.element, name, [], [], .kids [], p⟩ := ⟨rfl, rfl, rfl, rfl, rfl, rfl⟩
  have h3 := ((h.put p h1).put m.next h2)
  unfold addNode add
  refine ⟨⟨by show m.next + 1 = t.next + 1; rw [h.next], fun id => ?_⟩, by rw [h.next]⟩
  have := h3.at_ id
  rw [h.next] at this ⊢
  exact this

theorem edit_rel {m : Mem} {t t' : Tree} {a : Answer} (h : Rel m t) (e : Edit) (hw : wanted t e = some (t', a)) :
    (edit m e).2 = a ∧ Rel (edit m e).1 t' := by
  cases e with
  | appendChild e name =>
    simp only [wanted] at hw
    cases hx : t.el e with
    | none => simp [hx] at hw
    | some x =>
      obtain ⟨n, hn, hr⟩ := h.get hx
      rw [hx] at hw
      simp only [edit, hn]
      by_cases hk : x.kind = .element
      · rw [if_pos (hr.kind.trans hk)]
        cases hi : x.inside with
        | value s => simp [hk, hi] at hw
        | kids l =>
          have hin := hr.inside
          rw [hi] at hin
          have hin' : n.kids = l.map Kid.node := hin
          simp [hk, hi] at hw
          have := add_rel h e hr name (kids := n.kids ++ [.node m.next]) (l := l ++ [t.next]) (by simp [hin', h.next])
          rw [hw] at this
          exact ⟨this.2, this.1⟩
      · rw [if_neg (by rw [hr.kind]; exact hk)]
        simp [hk] at hw
        exact ⟨hw.2, hw.1 ▸ h⟩
  | prependChild e name =>
    simp only [wanted] at hw
    cases hx : t.el e with
    | none => simp [hx] at hw
    | some x =>
      obtain ⟨n, hn, hr⟩ := h.get hx
      rw [hx] at hw
      simp only [edit, hn]
      by_cases hk : x.kind = .element
      · rw [if_pos (hr.kind.trans hk)]
        cases hi : x.inside with
        | value s => simp [hk, hi] at hw
        | kids l =>
          have hin := hr.inside
          rw [hi] at hin
          have hin' : n.kids = l.map Kid.node := hin
          simp [hk, hi] at hw
          have := add_rel h e hr name (kids := .node m.next :: n.kids) (l := t.next :: l) (by simp [hin', h.next])
          rw [hw] at this
          exact ⟨this.2, this.1⟩
      · rw [if_neg (by rw [hr.kind]; exact hk)]
        simp [hk] at hw
        exact ⟨hw.2, hw.1 ▸ h⟩
  | insertSiblingAfter e name =>
    simp only [wanted] at hw
    cases hx : t.el e with
    | none => simp [hx] at hw
    | some x =>
      obtain ⟨n, hn, hr⟩ := h.get hx
      rw [hx] at hw
      simp only [edit, hn]
      by_cases hk : x.kind = .document
      · simp [hk] at hw
      · cases hp : t.el x.parent with
        | none => simp [hk, hp] at hw
        | some p =>
          obtain ⟨q, hq, hpq⟩ := h.get hp
          cases hi : p.inside with
          | value s => simp [hk, hp, hi] at hw
          | kids l =>
            have hin := hpq.inside
            rw [hi] at hin
            have hin' : q.kids = l.map Kid.node := hin
            simp [hk, hp, hi] at hw
            rw [hr.parent, hq]
            simp only
            rw [if_neg (by rw [hr.kind]; exact hk)]
            have := add_rel h x.parent hpq name (kids := insertAfterKid e m.next q.kids) (l := behind e t.next l) (by rw [hin', insertAfter_map, h.next])
            rw [hw] at this
            exact ⟨this.2, this.1⟩
  | removeChild e name =>
    simp only [wanted] at hw
    cases hx : t.el e with
    | none => simp [hx] at hw
    | some x =>
      obtain ⟨n, hn, hr⟩ := h.get hx
      rw [hx] at hw
      simp only [edit, hn]
      have hin := hr.inside
      cases hi : x.inside with
      | value s =>
        rw [hi] at hin
        obtain ⟨hke, rest, hk⟩ : n.kind = .element ∧ ∃ rest : List Str, n.kids = .text s :: rest.map Kid.text := hin
        have hno : removeNamed m name n.kids = none := by
          rw [hk]
          exact removeNamed_texts m name (s :: rest)
        rw [hno]
        simp [hi] at hw
        exact ⟨hw.2, hw.1 ▸ h⟩
      | kids l =>
        rw [hi] at hin
        have hin' : n.kids = l.map Kid.node := hin
        rw [hin', removeNamed_map h]
        cases hwo : without t name l with
        | none =>
          simp [hi, hwo] at hw
          exact ⟨hw.2, hw.1 ▸ h⟩
        | some l' =>
          simp [hi, hwo] at hw
          refine ⟨hw.2, ?_⟩
          rw [← hw.1]
          exact h.put e ⟨hr.kind, hr.name, hr.value, hr.attrs, hr.parent, rfl⟩
  | setName e name =>
    simp only [wanted] at hw
    cases hx : t.el e with
    | none => simp [hx] at hw
    | some x =>
      obtain ⟨n, hn, hr⟩ := h.get hx
      rw [hx] at hw
      simp only [edit, hn]
      by_cases hk : x.kind = .document
      · simp [hk] at hw
      · simp [hk] at hw
        rw [if_neg (by rw [hr.kind]; exact hk)]
        refine ⟨hw.2, ?_⟩
        rw [← hw.1]
        exact h.put e ⟨hr.kind, rfl, hr.value, hr.attrs, hr.parent, hr.inside⟩
  | setValue e v =>
    simp only [wanted] at hw
    cases hx : t.el e with
    | none => simp [hx] at hw
    | some x =>
      obtain ⟨n, hn, hr⟩ := h.get hx
      rw [hx] at hw
      simp only [edit, hn]
      by_cases hk : x.kind = .element
      · have hnk : n.kind = .element := hr.kind.trans hk
        rw [if_neg (by rw [hnk]; simp)]
        have hty := (h.looks (id := e) hr).type
        unfold setValue
        rw [hty]
        have hin := hr.inside
        cases hi : x.inside with
        | value s =>
          rw [hi] at hin
          obtain ⟨hke, rest, hkd⟩ : n.kind = .element ∧ ∃ rest : List Str, n.kids = .text s :: rest.map Kid.text := hin
          simp [hk, hi] at hw
          by_cases hs : s = []
          · simp only [hs, if_pos]
            rw [if_neg (by rw [hnk]; simp)]
            refine ⟨hw.2, ?_⟩
            rw [← hw.1]
            exact h.put e ⟨hnk, hr.name, hr.value, hr.attrs, hr.parent, hke, s :: rest, by simp [hkd]⟩
          · simp only [hs, if_false, hkd]
            refine ⟨hw.2, ?_⟩
            rw [← hw.1]
            exact h.put e ⟨hnk, hr.name, hr.value, hr.attrs, hr.parent, hke, rest, rfl⟩
        | kids l =>
          rw [hi] at hin
          have hin' : n.kids = l.map Kid.node := hin
          cases l with
          | nil =>
            simp [hk, hi] at hw
            simp only [List.any_nil, Bool.false_eq_true, if_false]
            rw [if_neg (by rw [hnk]; simp)]
            refine ⟨hw.2, ?_⟩
            rw [← hw.1]
            exact h.put e ⟨hnk, hr.name, hr.value, hr.attrs, hr.parent, hnk, [], by simp [hin']⟩
          | cons c r =>
            by_cases ha : (c :: r).any t.isElement = true
            · simp only [hk, hi, ha, if_true, ne_eq, not_true_eq_false, if_false, Option.some.injEq, Prod.mk.injEq] at hw
              simp only [ha, if_true]
              exact ⟨hw.2, hw.1 ▸ h⟩
            · simp only [hk, hi, ha, ne_eq, not_true_eq_false, if_false] at hw
              simp at hw
      · simp [hk] at hw
  | appendAttribute e name =>
    simp only [wanted] at hw
    cases hx : t.el e with
    | none => simp [hx] at hw
    | some x =>
      obtain ⟨n, hn, hr⟩ := h.get hx
      rw [hx] at hw
      simp only [edit, hn]
      by_cases hk : x.kind = .element
      · rw [if_pos (hr.kind.trans hk)]
        simp [hk] at hw
        have h1 : NodeRel { n with attrs := n.attrs ++ [(m.next, name, [])] } { x with attrs := x.attrs ++ [(t.next, name, [])] } :=
          ⟨hr.kind, hr.name, hr.value, by simp [hr.attrs, h.next], hr.parent, hr.inside⟩
        refine ⟨by rw [← hw.2, h.next], ?_⟩
        rw [← hw.1]
        exact ⟨by show m.next + 1 = t.next + 1; rw [h.next], by simpa [hk] using (h.put e h1).at_⟩
      · simp [hk] at hw
  | prependAttribute e name =>
    simp only [wanted] at hw
    cases hx : t.el e with
    | none => simp [hx] at hw
    | some x =>
      obtain ⟨n, hn, hr⟩ := h.get hx
      rw [hx] at hw
      simp only [edit, hn]
      by_cases hk : x.kind = .element
      · rw [if_pos (hr.kind.trans hk)]
        simp [hk] at hw
        have h1 : NodeRel { n with attrs := (m.next, name, []) :: n.attrs } { x with attrs := (t.next, name, []) :: x.attrs } :=
          ⟨hr.kind, hr.name, hr.value, by simp [hr.attrs, h.next], hr.parent, hr.inside⟩
        refine ⟨by rw [← hw.2, h.next], ?_⟩
        rw [← hw.1]
        exact ⟨by show m.next + 1 = t.next + 1; rw [h.next], by simpa [hk] using (h.put e h1).at_⟩
      · simp [hk] at hw
  | removeAttribute e a' =>
    simp only [wanted] at hw
    cases hx : t.el e with
    | none => simp [hx] at hw
    | some x =>
      obtain ⟨n, hn, hr⟩ := h.get hx
      rw [hx] at hw
      simp only [edit, hn]
      by_cases hf : firstOfName a' x.attrs = true
      · obtain ⟨nm, h1, h2⟩ := firstOfName_spec hf
        simp only [hf, if_true, Option.some.injEq, Prod.mk.injEq] at hw
        rw [hr.attrs, h1]
        simp only
        refine ⟨hw.2, ?_⟩
        rw [← hw.1, h2]
        exact h.put e ⟨hr.kind, hr.name, hr.value, rfl, hr.parent, hr.inside⟩
      · simp [hf] at hw
  | setAttributeName e a' nm =>
    simp only [wanted] at hw
    cases hx : t.el e with
    | none => simp [hx] at hw
    | some x =>
      obtain ⟨n, hn, hr⟩ := h.get hx
      rw [hx] at hw
      simp only [Option.some.injEq, Prod.mk.injEq] at hw
      simp only [edit, hn]
      refine ⟨hw.2, ?_⟩
      rw [← hw.1, mapAttr_eq, hr.attrs]
      exact h.put e ⟨hr.kind, hr.name, hr.value, rfl, hr.parent, hr.inside⟩
  | setAttributeValue e a' v =>
    simp only [wanted] at hw
    cases hx : t.el e with
    | none => simp [hx] at hw
    | some x =>
      obtain ⟨n, hn, hr⟩ := h.get hx
      rw [hx] at hw
      simp only [Option.some.injEq, Prod.mk.injEq] at hw
      simp only [edit, hn]
      refine ⟨hw.2, ?_⟩
      rw [← hw.1, mapAttr_eq, hr.attrs]
      exact h.put e ⟨hr.kind, hr.name, hr.value, rfl, hr.parent, hr.inside⟩

theorem edits_rel : ∀ (es : List Edit) {m : Mem} {t t' : Tree} {as : List Answer}, Rel m t → wantedAll t es = some (t', as) →
    (edits m es).2 = as ∧ Rel (edits m es).1 t'
  | [], m, t, t', as, h, hw => by
    simp [wantedAll] at hw
    exact ⟨hw.2.symm, hw.1 ▸ h⟩
  | e :: es, m, t, t', as, h, hw => by
    rw [wantedAll] at hw
    cases h1 : wanted t e with
    | none => simp [h1] at hw
    | some r =>
      obtain ⟨t1, a1⟩ := r
      cases h2 : wantedAll t1 es with
      | none => simp [h1, h2] at hw
      | some s =>
        obtain ⟨t2, as2⟩ := s
        simp [h1, h2] at hw
        obtain ⟨e1, e2⟩ := edit_rel h e h1
        obtain ⟨f1, f2⟩ := edits_rel es e2 h2
        refine ⟨?_, hw.1 ▸ f2⟩
        show (edit m e).2 :: (edits (edit m e).1 es).2 = as
        rw [e1, f1, ← hw.2]

theorem new_rel : Rel newDocument newTree := by
  refine ⟨rfl, fun id => ?_⟩
  unfold newDocument newTree
  simp only
  split
  · exact ⟨rfl, rfl, rfl, rfl, rfl, rfl⟩
  · split
    · exact ⟨rfl, rfl, rfl, rfl, rfl, rfl⟩
    · trivial

/-- The elements and processing instructions among the children. -/
def nodesIn : List Kid → List Nat
  | [] => []
  | .node k :: r => k :: nodesIn r
  | .text _ :: r => nodesIn r

theorem nodesIn_map : ∀ l : List Nat, nodesIn (l.map Kid.node) = l
  | [] => rfl
  | k :: r => by simp [nodesIn, nodesIn_map r]

/-- The tree that is in a document. -/
def treeOf (m : Mem) : Tree :=
  { el := fun id => (m.node id).map fun n =>
      { kind := n.kind, name := n.name, instruction := n.value, attrs := n.attrs, parent := n.parent
        inside := match n.kids with
          | .text s :: _ => .value s
          | kids => .kids (nodesIn kids) }
    next := m.next }

theorem treeOf_rel {m : Mem} (h : Unmixed m) : Rel m (treeOf m) := by
  refine ⟨rfl, fun id => ?_⟩
  unfold treeOf
  cases hn : m.node id with
  | none => simp [hn, OptRel]
  | some n =>
    simp only [hn, Option.map_some]
    refine ⟨rfl, rfl, rfl, rfl, rfl, ?_⟩
    rcases h id n hn with ⟨l, hl⟩ | ⟨⟨l, hl⟩, hk⟩
    · cases l with
      | nil => simp [hl, InsideRel, nodesIn]
      | cons c r => simp [hl, InsideRel, nodesIn, nodesIn_map]
    · cases l with
      | nil => simp [hl, InsideRel, nodesIn]
      | cons s r => simp only [hl, List.map_cons]; exact ⟨hk, r, rfl⟩

end Mx.Ezxml
