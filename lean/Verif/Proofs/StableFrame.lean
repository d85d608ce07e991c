import Verif.Proofs.StableBase

/-
Members that a statement leaves alone, and classes without any conditions.
-/
open Mx.Spec
namespace Mx.Content

/-- The member `j`. -/
def Node.slotAt? (j : Nat) : Node → Option Slot
  | .leaf .. => none
  | .comp _ _ _ ss => ss[j]?

theorem slot_items {o : Node} {i j : Nat} {f : Slot → Slot} (h : i ≠ j) : (o.changeItems i f).slotAt? j = o.slotAt? j := by
  cases o with
  | leaf => rfl
  | comp c d k ss => simp only [Node.changeItems, Node.slotAt?, changeSlot_get, if_neg h]

theorem slot_setKid {o x : Node} {i j : Nat} (h : i ≠ j) : (o.setKid i x).slotAt? j = o.slotAt? j := by
  cases o with
  | leaf => rfl
  | comp c d k ss => simp only [Node.setKid, Node.slotAt?, changeSlot_get, if_neg h]

theorem slot_push {o x : Node} {i j : Nat} (h : i ≠ j) : (o.push i x).slotAt? j = o.slotAt? j := by
  cases o with
  | leaf => rfl
  | comp c d k ss => simp only [Node.push, Node.slotAt?, changeSlot_get, if_neg h]

theorem slot_choose {o : Node} {k : Option Nat} {j : Nat} : (o.choose k).slotAt? j = o.slotAt? j := by
  cases o <;> rfl

theorem slot_inner {o : Node} {i j : Nat} {f : Node → Node × Bool} (h : i ≠ j) : (o.inner i f).1.slotAt? j = o.slotAt? j := by
  simp only [Node.inner]
  cases o.kid? i with
  | none => rfl
  | some x => exact slot_setKid h

theorem slot_innerGot {o : Node} {i j : Nat} {f : Node → Got} (h : i ≠ j) : (o.innerGot i f).obj.slotAt? j = o.slotAt? j := by
  simp only [Node.innerGot]
  cases o.kid? i with
  | none => rfl
  | some x => exact slot_setKid h

theorem slot_pushes {i j : Nat} (h : i ≠ j) : ∀ {new : List Node} {o : Node}, (new.foldl (fun o x => o.push i x) o).slotAt? j = o.slotAt? j
  | [], _ => rfl
  | n :: ns, _ => by rw [List.foldl_cons, slot_pushes h, slot_push h]

/-- The members a statement may change. -/
def RStmt.touch : RStmt → List Nat
  | .elem _ i _ => [i]
  | .set _ i _ => [i]
  | .item _ i => [i]
  | .group i _ _ => [i]
  | .sub i _ _ => [i]
  | .each i _ => [i]
  | .music _ => [0]
  | .subAdd _ i _ => [i]
  | .selfItem _ i _ => [i]
  | .unless _ => []
  | .stop _ => []
  | .midi i => [i]
  | .oldKey => [0]
  | .newKey => [0]
  | .times => [0]
  | .chords => [0]
  | .noteChoice => [0]
  | .syllables => [0]
  | .metronome => [0]
  | .partList => [0, 1, 2]
  | .own fs => fs.map (·.2.1)
  | .ownSet _ i _ => [i]

theorem frame_at {s : RStmt} {j : Nat} (h : j ∉ s.touch) (self : Child) (o : Node) (x : Child) (xs : List Child) : (s.at self o x xs).obj.slotAt? j = o.slotAt? j := by
  cases s with
  | elem n i b =>
    have hi : i ≠ j := fun e => h (by simp [RStmt.touch, e])
    simp only [RStmt.at]
    split
    · exact slot_inner hi
    · rfl
  | set n i b =>
    have hi : i ≠ j := fun e => h (by simp [RStmt.touch, e])
    simp only [RStmt.at]
    split
    · exact slot_items hi
    · rfl
  | item n i =>
    have hi : i ≠ j := fun e => h (by simp [RStmt.touch, e])
    simp only [RStmt.at]
    split
    · exact slot_items hi
    · rfl
  | group i ps b =>
    have hi : i ≠ j := fun e => h (by simp [RStmt.touch, e])
    simp only [RStmt.at]
    cases o.kid? i with
    | none => rfl
    | some g =>
      simp only
      split
      · rfl
      · exact slot_setKid hi
  | sub i fs b =>
    have hi : i ≠ j := fun e => h (by simp [RStmt.touch, e])
    simp only [RStmt.at]
    cases field fs x.name with
    | none => rfl
    | some f => exact slot_inner hi
  | each i fs =>
    have hi : i ≠ j := fun e => h (by simp [RStmt.touch, e])
    simp only [RStmt.at]
    cases field fs x.name with
    | none => rfl
    | some f => exact slot_push hi
  | music fs =>
    have hi : 0 ≠ j := fun e => h (by simp [RStmt.touch, ← e])
    simp only [RStmt.at]
    cases field fs x.name with
    | none => rfl
    | some f => exact slot_inner hi
  | subAdd n i j' =>
    have hi : i ≠ j := fun e => h (by simp [RStmt.touch, e])
    simp only [RStmt.at]
    split
    · exact slot_inner hi
    · rfl
  | selfItem n i f =>
    have hi : i ≠ j := fun e => h (by simp [RStmt.touch, e])
    simp only [RStmt.at]
    split
    · exact slot_items hi
    · rfl
  | «unless» i => rfl
  | stop i => rfl
  | midi i =>
    have hi : i ≠ j := fun e => h (by simp [RStmt.touch, e])
    simp only [RStmt.at]
    split
    · rfl
    · exact slot_items hi
  | oldKey =>
    have hi : 0 ≠ j := fun e => h (by simp [RStmt.touch, ← e])
    simp only [RStmt.at]
    split
    · exact slot_innerGot hi
    · rfl
  | newKey =>
    have hi : 0 ≠ j := fun e => h (by simp [RStmt.touch, ← e])
    simp only [RStmt.at]
    split
    · exact slot_innerGot hi
    · rfl
  | times =>
    have hi : 0 ≠ j := fun e => h (by simp [RStmt.touch, ← e])
    exact slot_innerGot hi
  | chords =>
    have hi : 0 ≠ j := fun e => h (by simp [RStmt.touch, ← e])
    simp only [RStmt.at]
    split
    · exact slot_items hi
    · rfl
  | noteChoice =>
    have hi : 0 ≠ j := fun e => h (by simp [RStmt.touch, ← e])
    simp only [RStmt.at]
    split
    · exact slot_innerGot hi
    · rfl
  | syllables =>
    have hi : 0 ≠ j := fun e => h (by simp [RStmt.touch, ← e])
    exact slot_innerGot hi
  | metronome =>
    have hi : 0 ≠ j := fun e => h (by simp [RStmt.touch, ← e])
    exact slot_innerGot hi
  | partList =>
    have h0 : 0 ≠ j := fun e => h (by simp [RStmt.touch, ← e])
    have h1 : 1 ≠ j := fun e => h (by simp [RStmt.touch, ← e])
    have h2 : 2 ≠ j := fun e => h (by simp [RStmt.touch, ← e])
    simp only [RStmt.at]
    split
    · cases field partNames x.name with
      | none => exact slot_push h2
      | some f => exact slot_push h2
    · split
      · exact slot_push h0
      · split
        · exact slot_inner h1
        · rfl
  | own fs =>
    simp only [RStmt.at]
    cases hf : field fs x.name with
    | none => rfl
    | some f =>
      obtain ⟨p, hp, rfl, _⟩ := field_named hf
      have hi : p.2.1 ≠ j := fun e => h (by simp only [RStmt.touch, List.mem_map]; exact ⟨p, hp, e⟩)
      simp only [Node.readField]
      rw [slot_choose, slot_inner hi]
  | ownSet n i k =>
    have hi : i ≠ j := fun e => h (by simp [RStmt.touch, e])
    simp only [RStmt.at]
    split
    · rw [slot_choose]; exact slot_items hi
    · rfl

/-! ## Classes without conditions -/

/-- There are no conditions on objects of the class, nor on the objects they consist of. -/
def closedAt : Nat → Cls → Bool
  | 0, _ => false
  | f + 1, c => simpleB c && c.info.members.all fun m => match m.kind with
    | .leaf .. => true
    | .comp g => closedAt f g

theorem closed_clear : ∀ (f : Nat) {c : Cls}, closedAt f c = true → ∀ {n : Node}, Is (.comp c) n → Clear n
  | 0, _, h, _, _ => by cases h
  | f + 1, c, h, n, hn => by
    rw [closedAt, Bool.and_eq_true] at h
    obtain ⟨d, k, ss, rfl, hs, hk⟩ := is_comp hn
    refine .comp c d k ss (simple_here h.1 _ _ _) ?_
    intro s hs' x hx
    obtain ⟨i, hi⟩ := List.mem_iff_getElem?.mp hs'
    have hl := (List.getElem?_eq_some_iff.mp hi).1
    rw [hs.length] at hl
    have hm := List.getElem?_eq_getElem hl
    have hkind := (hs.slots i _ s hm hi).1 x hx
    have h2 := List.all_eq_true.mp h.2 _ (List.getElem_mem hl)
    generalize c.info.members[i] = m at hm hkind h2
    obtain ⟨kd, mu⟩ := m
    cases kd with
    | leaf t b => exact clear_kind_leaf hkind
    | comp g => exact closed_clear f h2 ⟨hk s hs' x hx, hkind⟩

/-- The same of the member `i`. -/
def closedM (c : Cls) (i : Nat) : Bool :=
  match c.info.members[i]? with
  | some ⟨.comp g, _⟩ => closedAt 12 g
  | _ => true

theorem closedM_clear {c : Cls} {i : Nat} (h : closedM c i = true) {m : Member} (hm : c.info.members[i]? = some m) {n : Node} (hn : Is m.kind n) : Clear n := by
  unfold closedM at h
  rw [hm] at h
  obtain ⟨kd, mu⟩ := m
  cases kd with
  | leaf t b => exact clear_kind_leaf hn.2
  | comp g => exact closed_clear 12 h hn

/-- What has not been changed, and what has no conditions. -/
theorem deep_frame {c : Cls} {o o' : Node} (h : Is (.comp c) o) (h' : Is (.comp c) o') (hd : Deep o) (hs : ∀ j, closedM c j = false → o'.slotAt? j = o.slotAt? j) : Deep o' := by
  obtain ⟨d, k, ss, rfl, hsh, hk⟩ := is_comp h
  obtain ⟨d', k', ss', rfl, hsh', hk'⟩ := is_comp h'
  intro s hs' n hn
  obtain ⟨i, hi⟩ := List.mem_iff_getElem?.mp hs'
  have hl := (List.getElem?_eq_some_iff.mp hi).1
  rw [hsh'.length] at hl
  have hm := List.getElem?_eq_getElem hl
  cases hc : closedM c i with
  | true => exact closedM_clear hc hm ⟨hk' s hs' n hn, (hsh'.slots i _ s hm hi).1 n hn⟩
  | false =>
    have := hs i hc
    simp only [Node.slotAt?] at this
    rw [hi] at this
    exact hd s (List.mem_of_getElem? this.symm) n hn

end Mx.Content
