import Verif.Model.DocumentContent
import Verif.Proofs.ContentSamples

/-
What is read, from any element whatever, is an object that a program could have made but for the limits of some vectors.
-/
open Mx.Spec
namespace Mx.Content

/-- Bounds that hold after reading. -/
def loaded : Limits where
  lo c i := min 1 (memberSet c i).start
  hi c i := match c with
    | .GraceNoteGroup => (memberSet c i).most
    | .NormalNoteGroup => (memberSet c i).most
    | _ => none
  choice _ _ := true

inductive Sane : Node → Prop where
  | leaf (t : Nat) (h : Bool) (d : Str) : t ∈ leafNames → Sane (.leaf t h d)
  | comp (c : Cls) (d : Str) (k : Nat) (ss : List Slot) : Shape loaded c k ss → (∀ s ∈ ss, ∀ n ∈ s.kids, Sane n) → Sane (.comp c d k ss)

theorem sane_tree : Tree loaded noOver Sane where
  leaf h := by cases h; assumption
  kids h := by cases h; assumption
  shape h := by cases h; assumption
  over h := by simp [noOver] at h

/-- An object of the kind. -/
def Is (kd : Kind) (n : Node) : Prop := Sane n ∧ n.kind = kd

/-- A child that can be read by any object. -/
def Steady (x : Child) : Prop := ∀ kd n, Is kd n → Is kd (x.read n).1

theorem is_comp {c : Cls} {o : Node} (h : Is (.comp c) o) : ∃ d k ss, o = .comp c d k ss ∧ Shape loaded c k ss ∧ ∀ s ∈ ss, ∀ n ∈ s.kids, Sane n := by
  obtain ⟨h1, h2⟩ := h
  cases o with
  | leaf => simp [Node.kind] at h2
  | comp c' d k ss =>
    simp only [Node.kind, Kind.comp.injEq] at h2
    subst h2
    cases h1 with
    | comp _ _ _ _ hs hk => exact ⟨d, k, ss, rfl, hs, hk⟩

/-- A change of one slot. -/
theorem is_change {c : Cls} {d : Str} {k : Nat} {ss : List Slot} (hs : Shape loaded c k ss) (hk : ∀ s ∈ ss, ∀ n ∈ s.kids, Sane n) {i : Nat} {f : Slot → Slot}
    (hf : ∀ m s, c.info.members[i]? = some m → ss[i]? = some s → SlotOk loaded c i m s → (∀ n ∈ s.kids, Is m.kind n) →
      SlotOk loaded c i m (f s) ∧ ∀ n ∈ (f s).kids, Sane n) :
    Is (.comp c) (.comp c d k (changeSlot ss i f)) := by
  have hmem : ∀ s, ss[i]? = some s → ∃ m, c.info.members[i]? = some m := by
    intro s h
    have h1 := (List.getElem?_eq_some_iff.mp h).1
    rw [hs.length] at h1
    exact ⟨_, List.getElem?_eq_getElem h1⟩
  have hall : ∀ m s, c.info.members[i]? = some m → ss[i]? = some s → ∀ n ∈ s.kids, Is m.kind n := by
    intro m s hm h n hn
    exact ⟨hk s (List.mem_of_getElem? h) n hn, (hs.slots i m s hm h).1 n hn⟩
  refine ⟨.comp _ _ _ _ ?_ ?_, rfl⟩
  · refine shape_change hs i f ?_
    intro m s hm h
    exact (hf m s hm h (hs.slots i m s hm h) (hall m s hm h)).1
  · refine kids_change hk i f ?_
    intro s h n hn
    obtain ⟨m, hm⟩ := hmem s h
    exact (hf m s hm h (hs.slots i m s hm h) (hall m s hm h)).2 n hn

/-! ## New objects -/

mutual
def saneB : Node → Bool
  | .leaf t _ _ => leafNames.any (Nat.beq t)
  | .comp c _ k ss => (Nat.beq c.info.choices 0 || (Nat.blt k c.info.choices && loaded.choice c k)) && saneSlots c 0 c.info.members ss
def saneSlots (c : Cls) (i : Nat) : List Member → List Slot → Bool
  | [], [] => true
  | m :: ms, .mk _ ks :: ss => (match m.mult with
      | .set _ => Nat.ble (loaded.lo c i) ks.length && (match loaded.hi c i with | none => true | some h => Nat.ble ks.length h)
      | _ => Nat.beq ks.length 1) && saneKids m.kind ks && saneSlots c (i + 1) ms ss
  | _, _ => false
def saneKids (kd : Kind) : List Node → Bool
  | [] => true
  | k :: ks => kindB k.kind kd && saneB k && saneKids kd ks
end

mutual
theorem saneB_sane : ∀ (n : Node), saneB n = true → Sane n
  | .leaf t h d, e => by
    simp only [saneB, List.any_eq_true] at e
    obtain ⟨x, hx, hb⟩ := e
    rw [← Nat.eq_of_beq_eq_true hb] at hx
    exact .leaf t h d hx
  | .comp c d k ss, e => by
    simp only [saneB, Bool.and_eq_true, Bool.or_eq_true] at e
    obtain ⟨h1, h2, h3⟩ := saneSlots_sane c 0 _ ss e.2
    refine .comp c d k ss ⟨h1, ?_, ?_⟩ h3
    · intro i m s hm hs
      have := h2 i m s hm hs
      rwa [Nat.zero_add] at this
    · rcases e.1 with h | h
      · exact .inl (Nat.eq_of_beq_eq_true h)
      · exact .inr ⟨by simpa [Nat.blt_eq] using h.1, h.2⟩
theorem saneSlots_sane (c : Cls) : ∀ (j : Nat) (ms : List Member) (ss : List Slot), saneSlots c j ms ss = true → ss.length = ms.length ∧
    (∀ (i : Nat) (m : Member) (s : Slot), ms[i]? = some m → ss[i]? = some s → SlotOk loaded c (j + i) m s) ∧
    ∀ s ∈ ss, ∀ n ∈ s.kids, Sane n
  | j, [], [], _ => by simp
  | j, m :: ms, .mk b ks :: ss, e => by
    simp only [saneSlots, Bool.and_eq_true] at e
    obtain ⟨h1, h2, h3⟩ := saneSlots_sane c (j + 1) ms ss e.2
    have g := saneKids_sane m.kind ks e.1.2
    refine ⟨by simp [h1], ?_, ?_⟩
    · intro i m' s hm hs
      cases i with
      | zero =>
        simp at hm hs
        subst hm hs
        refine ⟨fun k hk => (g k hk).2, ?_⟩
        have e1 := e.1.1
        cases hmu : m.mult with
        | one => rw [hmu] at e1; exact Nat.eq_of_beq_eq_true e1
        | opt => rw [hmu] at e1; exact Nat.eq_of_beq_eq_true e1
        | set sc =>
          rw [hmu] at e1
          simp only [Bool.and_eq_true, Nat.ble_eq] at e1
          refine ⟨e1.1, ?_⟩
          intro h hh
          have e2 := e1.2
          rw [Nat.add_zero] at hh
          rw [hh] at e2
          exact Nat.ble_eq.mp e2
      | succ i =>
        have := h2 i m' s (by simpa using hm) (by simpa using hs)
        rwa [Nat.add_assoc, Nat.add_comm 1 i] at this
    · intro s hs n hn
      rcases List.mem_cons.mp hs with rfl | hs
      · exact (g n hn).1
      · exact h3 s hs n hn
  | _, [], _ :: _, e => by simp [saneSlots] at e
  | _, _ :: _, [], e => by simp [saneSlots] at e
theorem saneKids_sane (kd : Kind) : ∀ (ks : List Node), saneKids kd ks = true → ∀ k ∈ ks, Is kd k
  | [], _ => by simp
  | k :: ks, e => by
    simp only [saneKids, Bool.and_eq_true] at e
    have h2 := saneKids_sane kd ks e.2
    have hk := saneB_sane k e.1.2
    intro x hx
    rcases List.mem_cons.mp hx with rfl | hx
    · exact ⟨hk, kindB_eq e.1.1⟩
    · exact h2 x hx
end

set_option maxRecDepth 100000 in
theorem make_check : allCls.all (fun c => saneB (make (.comp c)) && c.info.members.all fun m => match m.kind with | .leaf t _ => leafNames.any (Nat.beq t) | _ => true) = true := by decide +kernel

theorem kind_make (kd : Kind) : (make kd).kind = kd := by
  cases kd <;> rfl

theorem is_make_comp (c : Cls) : Is (.comp c) (make (.comp c)) := by
  have h := List.all_eq_true.mp make_check c (mem_allCls c)
  rw [Bool.and_eq_true] at h
  exact ⟨saneB_sane _ h.1, kind_make _⟩

theorem is_make {c : Cls} {i : Nat} {m : Member} (hm : c.info.members[i]? = some m) : Is m.kind (make m.kind) := by
  have h := List.all_eq_true.mp make_check c (mem_allCls c)
  rw [Bool.and_eq_true] at h
  have h2 := List.all_eq_true.mp h.2 m (List.mem_of_getElem? hm)
  cases hk : m.kind with
  | comp c' => exact is_make_comp c'
  | leaf t hh =>
    rw [hk] at h2
    refine ⟨saneB_sane _ h2, rfl⟩

theorem is_newItem {c : Cls} {o : Node} (h : Is (.comp c) o) {i : Nat} {m : Member} (hm : c.info.members[i]? = some m) : Is m.kind (o.newItem i) := by
  obtain ⟨d, k, ss, rfl, _, _⟩ := is_comp h
  simp only [Node.newItem, hm]
  exact is_make hm

/-! ## The changes -/

theorem slot_same {L : Limits} {c : Cls} {i : Nat} {m : Member} {s s' : Slot} (h : SlotOk L c i m s) (hk : ∀ n ∈ s'.kids, n.kind = m.kind) (hl : s'.kids.length = s.kids.length) : SlotOk L c i m s' := by
  refine ⟨hk, ?_⟩
  have h2 := h.2
  cases hm : m.mult with
  | one => rw [hm] at h2; simp only at h2 ⊢; omega
  | opt => rw [hm] at h2; simp only at h2 ⊢; omega
  | set sc => rw [hm] at h2; simp only at h2 ⊢; rw [hl]; exact h2

theorem kid_of {c : Cls} {d : Str} {k : Nat} {ss : List Slot} {i : Nat} {x : Node} (h : Node.kid? i (.comp c d k ss) = some x) : ∃ s, ss[i]? = some s ∧ s.kids.head? = some x := by
  simp only [Node.kid?] at h
  cases hs : ss[i]? with
  | none => rw [hs] at h; simp at h
  | some s => rw [hs] at h; exact ⟨s, rfl, h⟩

theorem is_kid {c : Cls} {o x : Node} (h : Is (.comp c) o) {i : Nat} (hx : Node.kid? i o = some x) : ∃ m, c.info.members[i]? = some m ∧ Is m.kind x := by
  obtain ⟨d, k, ss, rfl, hs, hk⟩ := is_comp h
  obtain ⟨s, h1, h2⟩ := kid_of hx
  have hl := (List.getElem?_eq_some_iff.mp h1).1
  rw [hs.length] at hl
  have hm := List.getElem?_eq_getElem hl
  have hmem : x ∈ s.kids := List.mem_of_head? h2
  exact ⟨_, hm, hk s (List.mem_of_getElem? h1) x hmem, (hs.slots i _ s hm h1).1 x hmem⟩

theorem is_setKid {c : Cls} {o x y : Node} (h : Is (.comp c) o) {i : Nat} (hy : Node.kid? i o = some y) (hx : ∀ m, c.info.members[i]? = some m → Is m.kind x) : Is (.comp c) (o.setKid i x) := by
  obtain ⟨d, k, ss, rfl, hs, hk⟩ := is_comp h
  obtain ⟨s, h1, h2⟩ := kid_of hy
  refine is_change hs hk ?_
  intro m s' hm hs' hok hkids
  rw [h1] at hs'
  cases hs'
  have hall : ∀ n ∈ x :: s.kids.tail, Is m.kind n := by
    intro n hn
    rcases List.mem_cons.mp hn with rfl | hn
    · exact hx m hm
    · exact hkids n (List.mem_of_mem_tail hn)
  refine ⟨slot_same hok (fun n hn => (hall n hn).2) ?_, fun n hn => (hall n hn).1⟩
  cases hc : s.kids with
  | nil => rw [hc] at h2; simp at h2
  | cons a l => simp [Slot.kids]

theorem is_inner {c : Cls} {o : Node} (h : Is (.comp c) o) {i : Nat} {f : Node → Node × Bool} (hf : ∀ m, c.info.members[i]? = some m → ∀ n, Is m.kind n → Is m.kind (f n).1) :
    Is (.comp c) (o.inner i f).1 := by
  simp only [Node.inner]
  cases hk : o.kid? i with
  | none => exact h
  | some x =>
    refine is_setKid h hk ?_
    intro m hm
    obtain ⟨m', h1, h2⟩ := is_kid h hk
    rw [hm] at h1
    cases h1
    exact hf m hm x h2

theorem is_innerGot {c : Cls} {o : Node} (h : Is (.comp c) o) {i : Nat} {f : Node → Got} (hf : ∀ m, c.info.members[i]? = some m → ∀ n, Is m.kind n → Is m.kind (f n).obj) :
    Is (.comp c) (o.innerGot i f).obj := by
  simp only [Node.innerGot]
  cases hk : o.kid? i with
  | none => exact h
  | some x =>
    refine is_setKid h hk ?_
    intro m hm
    obtain ⟨m', h1, h2⟩ := is_kid h hk
    rw [hm] at h1
    cases h1
    exact hf m hm x h2

/-- The value may be given to `myChoice`. -/
def chooseB (c : Cls) : Option Nat → Bool
  | none => true
  | some k => Nat.beq c.info.choices 0 || (Nat.blt k c.info.choices && loaded.choice c k)

theorem is_choose {c : Cls} {o : Node} (h : Is (.comp c) o) {k : Option Nat} (hk : chooseB c k = true) : Is (.comp c) (o.choose k) := by
  obtain ⟨d, k', ss, rfl, hs, hkids⟩ := is_comp h
  refine ⟨.comp _ _ _ _ ⟨hs.length, hs.slots, ?_⟩ hkids, rfl⟩
  cases k with
  | none => exact hs.choice
  | some k =>
    simp only [chooseB, Bool.or_eq_true, Bool.and_eq_true] at hk
    rcases hk with hk | hk
    · exact .inl (Nat.eq_of_beq_eq_true hk)
    · exact .inr ⟨by simpa [Nat.blt_eq] using hk.1, hk.2⟩

theorem isSetB_mult {c : Cls} {i : Nat} (h : isSetB c i = true) : ∃ kd s, c.info.members[i]? = some ⟨kd, .set s⟩ := by
  unfold isSetB at h
  split at h
  · rename_i kd s hm; exact ⟨kd, s, hm⟩
  · cases h

/-- The vector `i` of the class may get any number of objects. -/
def openB (c : Cls) (i : Nat) : Bool := isSetB c i && (loaded.hi c i).isNone

/-- More objects in a vector. -/
theorem is_items {c : Cls} {o : Node} (h : Is (.comp c) o) {i : Nat} (hb : openB c i = true) {f : Slot → Slot}
    (hf : ∀ m s, c.info.members[i]? = some m → (∀ n ∈ s.kids, Is m.kind n) → (∀ n ∈ (f s).kids, Is m.kind n) ∧ (1 ≤ s.kids.length → 1 ≤ (f s).kids.length)) :
    Is (.comp c) (o.changeItems i f) := by
  obtain ⟨d, k, ss, rfl, hs, hk⟩ := is_comp h
  refine is_change hs hk ?_
  intro m s hm _ hok hkids
  obtain ⟨h1, h2⟩ := hf m s hm hkids
  rw [openB, Bool.and_eq_true] at hb
  refine ⟨⟨fun n hn => (h1 n hn).2, ?_⟩, fun n hn => (h1 n hn).1⟩
  obtain ⟨kd, sc, hm'⟩ := isSetB_mult hb.1
  rw [hm] at hm'
  cases hm'
  have h3 := hok.2
  simp only at h3 ⊢
  refine ⟨?_, ?_⟩
  · have hlo : loaded.lo c i ≤ 1 := Nat.min_le_left _ _
    by_cases hz : 1 ≤ s.kids.length
    · exact Nat.le_trans hlo (h2 hz)
    · have : loaded.lo c i = 0 := by omega
      omega
  · intro hh e
    rw [e] at hb
    cases hb.2

theorem is_addRun {c : Cls} {o : Node} (h : Is (.comp c) o) {i : Nat} (hb : openB c i = true) {new : List Node} (hne : new ≠ []) (hnew : ∀ m, c.info.members[i]? = some m → ∀ n ∈ new, Is m.kind n) :
    Is (.comp c) (o.addRun i new) := by
  refine is_items h hb ?_
  intro m s hm hk
  refine ⟨?_, ?_⟩
  · intro n hn
    have hn : n ∈ (if s.kids.length = 1 then [] else s.kids) ++ new := hn
    rw [List.mem_append] at hn
    rcases hn with hn | hn
    · by_cases h1 : s.kids.length = 1
      · rw [if_pos h1] at hn; cases hn
      · rw [if_neg h1] at hn; exact hk n hn
    · exact hnew m hm n hn
  · intro _
    have : 1 ≤ new.length := List.length_pos_iff.mpr hne
    simp only [Slot.kids, List.length_append]
    omega

theorem is_addItem {c : Cls} {o : Node} (h : Is (.comp c) o) {i : Nat} (hb : openB c i = true) {new : Node} (hnew : ∀ m, c.info.members[i]? = some m → Is m.kind new) :
    Is (.comp c) (o.addItem i new) := by
  refine is_items h hb ?_
  intro m s hm hk
  refine ⟨?_, ?_⟩
  · intro n hn
    have hn : n ∈ (if s.kids.length = 1 ∧ s.on = false then [] else s.kids) ++ [new] := hn
    rw [List.mem_append, List.mem_singleton] at hn
    rcases hn with hn | rfl
    · by_cases h1 : s.kids.length = 1 ∧ s.on = false
      · rw [if_pos h1] at hn; cases hn
      · rw [if_neg h1] at hn; exact hk n hn
    · exact hnew m hm
  · intro _
    simp [Slot.kids]

/-- A flag. -/
theorem is_flag {c : Cls} {o : Node} (h : Is (.comp c) o) {i : Nat} (b : Bool) : Is (.comp c) (o.changeItems i fun s => .mk b s.kids) := by
  obtain ⟨d, k, ss, rfl, hs, hk⟩ := is_comp h
  refine is_change hs hk ?_
  intro m s hm _ hok hkids
  exact ⟨slot_same hok (fun n hn => (hkids n hn).2) rfl, fun n hn => (hkids n hn).1⟩

theorem is_push {c : Cls} {o : Node} (h : Is (.comp c) o) {i : Nat} (hb : isSetB c i = true) {new : Node} (hnew : ∀ m, c.info.members[i]? = some m → Is m.kind new) :
    Is (.comp c) (o.push i new) := by
  obtain ⟨d, k, ss, rfl, hs, hk⟩ := is_comp h
  refine is_change hs hk ?_
  intro m s hm _ hok hkids
  have hall : ∀ n ∈ (memberSet c i).add new s.kids, Is m.kind n := by
    intro n hn
    have : n ∈ s.kids ∨ n = new := by
      unfold SetCode.add at hn
      split at hn
      · simpa using hn
      · split at hn
        · simpa using hn
        · exact .inl hn
    rcases this with hn | rfl
    · exact hkids n hn
    · exact hnew m hm
  have hge : s.kids.length ≤ ((memberSet c i).add new s.kids).length := by
    unfold SetCode.add
    split
    · simp
    · split
      · simp
      · exact Nat.le_refl _
  refine ⟨⟨fun n hn => (hall n hn).2, ?_⟩, fun n hn => (hall n hn).1⟩
  obtain ⟨kd, sc, hm'⟩ := isSetB_mult hb
  rw [hm] at hm'
  cases hm'
  have h3 := hok.2
  simp only at h3 ⊢
  refine ⟨Nat.le_trans h3.1 hge, ?_⟩
  intro hh e
  have hle := h3.2 hh e
  have hmost : (memberSet c i).most = some hh := by
    unfold loaded at e
    simp only at e
    split at e
    · exact e
    · exact e
    · cases e
  show ((memberSet c i).add new s.kids).length ≤ hh
  unfold SetCode.add
  rw [hmost]
  simp only
  split
  · simp only [List.length_append, List.length_singleton]; omega
  · exact hle

theorem is_readField {c : Cls} {g : Node} (h : Is (.comp c) g) {f : Nat × Option Nat} (hf : chooseB c f.2 = true) {x : Child} (hx : Steady x) : Is (.comp c) (g.readField f x).1 :=
  is_choose (is_inner h fun m _ n hn => hx m.kind n hn) hf

end Mx.Content
