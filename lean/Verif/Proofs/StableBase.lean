import Verif.Spec.Reader
import Verif.Proofs.LoadedMain

/-
What is read, from elements in good order and without any complaint, can be written and read again: conditions on all objects, and the changes that keep them.
-/
open Mx.Spec
namespace Mx.Content

def leafData (d : Str) : Node → Bool
  | .leaf _ _ d' => decide (d' = d)
  | .comp .. => false

/-- Conditions on an object. They hold as well where nothing is written. -/
def hereB (c : Cls) (d : Str) (k : Nat) (ss : List Slot) : Bool :=
  match c with
  | .Note => !onAt ss 14
  | .Sound => !onAt ss 2
  | .DirectionType => !Nat.beq k 20
  | .NotationsChoice => !Nat.beq k 13
  | .Arrow => Nat.beq k 0
  | .KeyChoice => !Nat.beq k 1 || !(kidsAt ss 1).isEmpty
  | .Lyric => !flagAt ss 3 0 && !flagAt ss 3 1 && (Nat.beq (choiceAt ss 0) 0 || (!onAt ss 1 && !onAt ss 2))
  | .ElisionSyllabicGroup => !onAt ss 1
  | .MetronomeTuplet => !onAt ss 2
  | .Credit => (kidsAt ss 3).all fun q => (partsAt q 2).all fun g => (partsAt g 0 ++ partsAt g 1).all (leafData d)
  | .FullNoteGroup => (kidsAt ss 0).all (leafData [])
  | .NoteheadText => decide (d = []) && (kidsAt ss 0).all fun g => (partsAt g (choiceOf g)).all (leafData [])
  | _ => true

inductive Clear : Node → Prop where
  | leaf (t : Nat) (h : Bool) (d : Str) : Clear (.leaf t h d)
  | comp (c : Cls) (d : Str) (k : Nat) (ss : List Slot) : hereB c d k ss = true → (∀ s ∈ ss, ∀ n ∈ s.kids, Clear n) → Clear (.comp c d k ss)

/-- The conditions hold for all objects within the object. -/
def Deep : Node → Prop
  | .leaf .. => True
  | .comp _ _ _ ss => ∀ s ∈ ss, ∀ n ∈ s.kids, Clear n

theorem clear_deep {n : Node} (h : Clear n) : Deep n := by
  cases h with
  | leaf => trivial
  | comp _ _ _ _ _ h => exact h

theorem clear_kind_leaf {n : Node} {t : Nat} {h : Bool} (hk : n.kind = .leaf t h) : Clear n := by
  cases n with
  | leaf t h d => exact .leaf t h d
  | comp => cases hk

/-- There are no conditions on objects of this class. -/
def simpleB (c : Cls) : Bool :=
  match c with
  | .Note | .Sound | .DirectionType | .Arrow | .KeyChoice | .Lyric | .ElisionSyllabicGroup | .MetronomeTuplet | .Credit | .FullNoteGroup | .NoteheadText | .NotationsChoice => false
  | _ => true

theorem simple_here {c : Cls} (h : simpleB c = true) (d : Str) (k : Nat) (ss : List Slot) : hereB c d k ss = true := by
  cases c <;> first
    | rfl
    | cases h

theorem clear_of_deep {c : Cls} {o : Node} (h : o.kind = .comp c) (hb : simpleB c = true) (hd : Deep o) : Clear o := by
  cases o with
  | leaf => cases h
  | comp c' d k ss =>
    cases h
    exact .comp _ _ _ _ (simple_here hb _ _ _) hd

/-! ## New objects -/

mutual
def clearB : Node → Bool
  | .leaf .. => true
  | .comp c d k ss => hereB c d k ss && clearSlots ss
def clearSlots : List Slot → Bool
  | [] => true
  | .mk _ ks :: ss => clearKids ks && clearSlots ss
def clearKids : List Node → Bool
  | [] => true
  | k :: ks => clearB k && clearKids ks
end

mutual
theorem clearB_clear : ∀ (n : Node), clearB n = true → Clear n
  | .leaf t h d, _ => .leaf t h d
  | .comp c d k ss, e => by
    rw [clearB, Bool.and_eq_true] at e
    exact .comp c d k ss e.1 (clearSlots_clear ss e.2)
theorem clearSlots_clear : ∀ (ss : List Slot), clearSlots ss = true → ∀ s ∈ ss, ∀ n ∈ s.kids, Clear n
  | [], _ => by simp
  | .mk b ks :: ss, e => by
    rw [clearSlots, Bool.and_eq_true] at e
    have h1 := clearKids_clear ks e.1
    have h2 := clearSlots_clear ss e.2
    intro s hs
    rcases List.mem_cons.mp hs with rfl | hs
    · exact h1
    · exact h2 s hs
theorem clearKids_clear : ∀ (ks : List Node), clearKids ks = true → ∀ n ∈ ks, Clear n
  | [], _ => by simp
  | k :: ks, e => by
    rw [clearKids, Bool.and_eq_true] at e
    have h1 := clearB_clear k e.1
    have h2 := clearKids_clear ks e.2
    intro n hn
    rcases List.mem_cons.mp hn with rfl | hn
    · exact h1
    · exact h2 n hn
end

set_option maxRecDepth 100000 in
theorem clear_check : allCls.all (fun c => clearB (make (.comp c))) = true := by decide +kernel

theorem clear_make (kd : Kind) : Clear (make kd) := by
  cases kd with
  | leaf t h => exact .leaf t h []
  | comp c => exact clearB_clear _ (List.all_eq_true.mp clear_check c (mem_allCls c))

theorem clear_newItem (o : Node) (i : Nat) (hc : ∃ c, o.kind = .comp c) : Clear (o.newItem i) := by
  obtain ⟨c, hc⟩ := hc
  cases o with
  | leaf => cases hc
  | comp c d k ss =>
    simp only [Node.newItem]
    split
    · exact clear_make _
    · exact .leaf _ _ _

/-! ## The changes -/

theorem deep_change {c : Cls} {d d' : Str} {k k' : Nat} {ss : List Slot} (hd : Deep (.comp c d k ss)) {i : Nat} {f : Slot → Slot}
    (hf : ∀ s, ss[i]? = some s → (∀ n ∈ s.kids, Clear n) → ∀ n ∈ (f s).kids, Clear n) : Deep (.comp c d' k' (changeSlot ss i f)) :=
  kids_change hd i f fun s hs n hn => hf s hs (hd s (List.mem_of_getElem? hs)) n hn

theorem deep_items {o : Node} (hd : Deep o) {i : Nat} {f : Slot → Slot} (hf : ∀ s, (∀ n ∈ s.kids, Clear n) → ∀ n ∈ (f s).kids, Clear n) : Deep (o.changeItems i f) := by
  cases o with
  | leaf => trivial
  | comp => exact deep_change hd fun s _ => hf s

theorem deep_flag {o : Node} (hd : Deep o) {i : Nat} (b : Bool) : Deep (o.changeItems i fun s => .mk b s.kids) := deep_items hd fun _ h => h

theorem clear_kid {o x : Node} (hd : Deep o) {i : Nat} (hx : Node.kid? i o = some x) : Clear x := by
  cases o with
  | leaf => cases hx
  | comp c d k ss =>
    obtain ⟨s, h1, h2⟩ := kid_of hx
    exact hd s (List.mem_of_getElem? h1) x (List.mem_of_head? h2)

theorem deep_setKid {o x : Node} (hd : Deep o) {i : Nat} (hx : Clear x) : Deep (o.setKid i x) := by
  cases o with
  | leaf => trivial
  | comp =>
    refine deep_change hd fun s _ hk n hn => ?_
    rcases List.mem_cons.mp hn with rfl | hn
    · exact hx
    · exact hk n (List.mem_of_mem_tail hn)

theorem deep_choose {o : Node} (hd : Deep o) (k : Option Nat) : Deep (o.choose k) := by
  cases o with
  | leaf => trivial
  | comp => exact hd

theorem deep_inner {c : Cls} {o : Node} (h : Is (.comp c) o) (hd : Deep o) {i : Nat} {f : Node → Node × Bool}
    (hf : ∀ m, c.info.members[i]? = some m → ∀ n, Is m.kind n → Clear n → (f n).2 = true → Clear (f n).1) (hok : (o.inner i f).2 = true) : Deep (o.inner i f).1 := by
  revert hok
  simp only [Node.inner]
  cases hk : o.kid? i with
  | none => exact fun _ => hd
  | some x =>
    intro hok
    obtain ⟨m, hm, hx⟩ := is_kid h hk
    exact deep_setKid hd (hf m hm x hx (clear_kid hd hk) hok)

/-- The same if the outcome of `f` is good in any case. -/
theorem deep_inner' {c : Cls} {o : Node} (h : Is (.comp c) o) (hd : Deep o) {i : Nat} {f : Node → Node × Bool}
    (hf : ∀ m, c.info.members[i]? = some m → ∀ n, Is m.kind n → Clear (f n).1) : Deep (o.inner i f).1 := by
  simp only [Node.inner]
  cases hk : o.kid? i with
  | none => exact hd
  | some x =>
    obtain ⟨m, hm, hx⟩ := is_kid h hk
    exact deep_setKid hd (hf m hm x hx)

theorem deep_innerGot {c : Cls} {o : Node} (h : Is (.comp c) o) (hd : Deep o) {i : Nat} {f : Node → Got}
    (hf : ∀ m, c.info.members[i]? = some m → ∀ n, Is m.kind n → Clear n → (f n).ok = true → Clear (f n).obj) (hok : (o.innerGot i f).ok = true) : Deep (o.innerGot i f).obj := by
  revert hok
  simp only [Node.innerGot]
  cases hk : o.kid? i with
  | none => exact fun _ => hd
  | some x =>
    intro hok
    obtain ⟨m, hm, hx⟩ := is_kid h hk
    exact deep_setKid hd (hf m hm x hx (clear_kid hd hk) hok)

theorem deep_addRun {o : Node} (hd : Deep o) {i : Nat} {new : List Node} (hn : ∀ n ∈ new, Clear n) : Deep (o.addRun i new) := by
  refine deep_items hd fun s hk n h => ?_
  have h : n ∈ (if s.kids.length = 1 then [] else s.kids) ++ new := h
  rw [List.mem_append] at h
  rcases h with h | h
  · by_cases h1 : s.kids.length = 1
    · rw [if_pos h1] at h; cases h
    · rw [if_neg h1] at h; exact hk n h
  · exact hn n h

theorem deep_addItem {o : Node} (hd : Deep o) {i : Nat} {new : Node} (hn : Clear new) : Deep (o.addItem i new) := by
  refine deep_items hd fun s hk n h => ?_
  have h : n ∈ (if s.kids.length = 1 ∧ s.on = false then [] else s.kids) ++ [new] := h
  rw [List.mem_append, List.mem_singleton] at h
  rcases h with h | rfl
  · by_cases h1 : s.kids.length = 1 ∧ s.on = false
    · rw [if_pos h1] at h; cases h
    · rw [if_neg h1] at h; exact hk n h
  · exact hn

theorem add_mem {sc : SetCode} {x n : Node} {ks : List Node} (h : n ∈ sc.add x ks) : n ∈ ks ∨ n = x := by
  unfold SetCode.add at h
  split at h
  · simpa using h
  · split at h
    · simpa using h
    · exact .inl h

theorem deep_push {o : Node} (hd : Deep o) {i : Nat} {new : Node} (hn : Clear new) : Deep (o.push i new) := by
  cases o with
  | leaf => trivial
  | comp =>
    refine deep_change hd fun s _ hk n h => ?_
    rcases add_mem h with h | rfl
    · exact hk n h
    · exact hn

theorem deep_pushes {i : Nat} : ∀ {new : List Node} {o : Node}, Deep o → (∀ n ∈ new, Clear n) → Deep (new.foldl (fun o x => o.push i x) o)
  | [], _, h, _ => h
  | n :: ns, _, h, hn => by
    rw [List.foldl_cons]
    exact deep_pushes (deep_push h (hn n (by simp))) fun x hx => hn x (by simp [hx])

/-! ## Children -/

/-- The name of the element goes with the object it is read by; some objects have to be new ones. -/
def Allowed (name : Nat) (n : Node) : Prop :=
  (n.kind = .comp .NoteheadText → name = nm! "notehead-text") ∧ (n.kind = .comp .Lyric → name = nm! "lyric" ∧ n = make (.comp .Lyric)) ∧
    (n.kind = .comp .Credit → n = make (.comp .Credit))

/-- Elements that are never read. -/
def Deaf (name : Nat) (n : Node) : Prop := (n.kind = .comp .Play ∧ name = nm! "play") ∨ (n.kind = .comp .Percussion ∧ name = nm! "percussion")

structure Calm (x : Child) : Prop where
  steady : Steady x
  clear : ∀ kd n, Is kd n → Clear n → Allowed x.name n → (x.read n).2 = true → Clear (x.read n).1
  deaf : ∀ kd n, Is kd n → Deaf x.name n → (x.read n).2 = false
  name : x.name ≠ 0
  known : x.name ≠ nm! "other-notations"

def Calms (l : List Child) : Prop := ∀ x ∈ l, Calm x

theorem calms_steadies {l : List Child} (h : Calms l) : Steadies l := fun x hx => (h x hx).steady
theorem calms_cons {x : Child} {l : List Child} (h : Calms (x :: l)) : Calm x ∧ Calms l := ⟨h x (by simp), fun y hy => h y (by simp [hy])⟩
theorem calms_drop {l : List Child} (h : Calms l) (n : Nat) : Calms (l.drop n) := fun x hx => h x (List.mem_of_mem_drop hx)
theorem calms_run {l : List Child} (h : Calms l) (n : Nat) : Calms (runItems n l) := fun x hx => h x ((List.takeWhile_sublist _).subset hx)

/-- The member `i` may be read from an element of this name. -/
def callB (c : Cls) (i name : Nat) : Bool :=
  match c.info.members[i]? with
  | some ⟨.comp g, _⟩ => (!decide (g = .NoteheadText) || Nat.beq name (nm! "notehead-text")) && !decide (g = .Lyric) && !decide (g = .Credit)
  | _ => true

/-- New objects of the vector `i` may be read from elements of this name. -/
def newB (c : Cls) (i name : Nat) : Bool :=
  match c.info.members[i]? with
  | some ⟨.comp g, _⟩ => (!decide (g = .NoteheadText) || Nat.beq name (nm! "notehead-text")) && (!decide (g = .Lyric) || Nat.beq name (nm! "lyric"))
  | _ => true

theorem allowed_call {c : Cls} {i name : Nat} (hb : callB c i name = true) {m : Member} (hm : c.info.members[i]? = some m) {n : Node} (hn : n.kind = m.kind) : Allowed name n := by
  unfold callB at hb
  rw [hm] at hb
  obtain ⟨kd, mu⟩ := m
  cases kd with
  | leaf t h =>
    refine ⟨?_, ?_, ?_⟩ <;> intro hk <;> rw [hn] at hk <;> cases hk
  | comp g =>
    simp only [Bool.and_eq_true, Bool.or_eq_true, Bool.not_eq_true', decide_eq_false_iff_not] at hb
    refine ⟨?_, ?_, ?_⟩ <;> intro hk <;> rw [hn] at hk <;> injection hk with hk
    · rcases hb.1.1 with h | h
      · exact absurd hk h
      · exact Nat.eq_of_beq_eq_true h
    · exact absurd hk hb.1.2
    · exact absurd hk hb.2

/-- A member that may be read from an element of any name. -/
theorem allowed_any {c : Cls} {i : Nat} (hb : callB c i 0 = true) {m : Member} (hm : c.info.members[i]? = some m) {n : Node} (hn : n.kind = m.kind) (name : Nat) : Allowed name n := by
  obtain ⟨h1, h2, h3⟩ := allowed_call hb hm hn
  refine ⟨fun h => ?_, fun h => ?_, h3⟩
  · exact absurd (h1 h) (by decide)
  · exact absurd (h2 h).1 (by decide)

theorem allowed_new {c : Cls} {i name : Nat} (hb : newB c i name = true) {m : Member} (hm : c.info.members[i]? = some m) : Allowed name (make m.kind) := by
  unfold newB at hb
  rw [hm] at hb
  obtain ⟨kd, mu⟩ := m
  cases kd with
  | leaf t h =>
    refine ⟨?_, ?_, ?_⟩ <;> intro hk <;> cases hk
  | comp g =>
    simp only [Bool.and_eq_true, Bool.or_eq_true, Bool.not_eq_true', decide_eq_false_iff_not] at hb
    refine ⟨?_, ?_, ?_⟩ <;> intro hk <;> rw [kind_make] at hk <;> injection hk with hk
    · rcases hb.1 with h | h
      · exact absurd hk h
      · exact Nat.eq_of_beq_eq_true h
    · refine ⟨?_, by rw [hk]⟩
      rcases hb.2 with h | h
      · exact absurd hk h
      · exact Nat.eq_of_beq_eq_true h
    · rw [hk]

theorem newItem_member {c : Cls} {o : Node} (h : o.kind = .comp c) {i : Nat} {m : Member} (hm : c.info.members[i]? = some m) : o.newItem i = make m.kind := by
  cases o with
  | leaf => cases h
  | comp c' d k ss =>
    cases h
    simp only [Node.newItem, hm]

/-- A member that is read from a child. -/
theorem deep_call {c : Cls} {o : Node} (h : Is (.comp c) o) (hd : Deep o) {i name : Nat} (hb : callB c i name = true) {x : Child} (hx : Calm x) (hn : Nat.beq x.name name = true)
    (hok : (o.inner i x.read).2 = true) : Deep (o.inner i x.read).1 := by
  refine deep_inner h hd ?_ hok
  intro m hm n hi hc he
  refine hx.clear _ n hi hc ?_ he
  rw [Nat.eq_of_beq_eq_true hn]
  exact allowed_call hb hm hi.2

/-- A member that is read from the element itself. -/
theorem deep_self {c : Cls} {o : Node} (h : Is (.comp c) o) (hd : Deep o) {i : Nat} (hb : callB c i 0 = true) {x : Child} (hx : Calm x)
    (hok : (o.inner i x.read).2 = true) : Deep (o.inner i x.read).1 := by
  refine deep_inner h hd ?_ hok
  intro m hm n hi hc he
  exact hx.clear _ n hi hc (allowed_any hb hm hi.2 _) he

/-- A new object that is read from a child. -/
theorem clear_read_new {c : Cls} {o : Node} (h : Is (.comp c) o) {i name : Nat} {m : Member} (hm : c.info.members[i]? = some m) (hb : newB c i name = true) {x : Child} (hx : Calm x) (hn : Nat.beq x.name name = true)
    (hok : (x.read (o.newItem i)).2 = true) : Clear (x.read (o.newItem i)).1 := by
  refine hx.clear _ _ (is_newItem h hm) ?_ ?_ hok
  · rw [newItem_member h.2 hm]; exact clear_make _
  · rw [newItem_member h.2 hm, Nat.eq_of_beq_eq_true hn]; exact allowed_new hb hm

theorem field_named {fs : List Field} {name : Nat} {f : Nat × Option Nat} (h : field fs name = some f) : ∃ p ∈ fs, p.2 = f ∧ p.1 = name := by
  unfold field at h
  cases hf : fs.find? (fun f => Nat.beq f.1 name) with
  | none => rw [hf] at h; simp at h
  | some p =>
    rw [hf] at h
    simp only [Option.map_some, Option.some.injEq] at h
    have := List.find?_some hf
    exact ⟨p, List.mem_of_find?_eq_some hf, h, Nat.eq_of_beq_eq_true this⟩

theorem beq_refl_nat (n : Nat) : Nat.beq n n = true := Nat.beq_refl n

theorem deep_readField {c : Cls} {g : Node} (h : Is (.comp c) g) (hd : Deep g) {f : Nat × Option Nat} {x : Child} (hb : callB c f.1 x.name = true) (hx : Calm x)
    (hok : (g.readField f x).2 = true) : Deep (g.readField f x).1 :=
  deep_choose (deep_call h hd hb hx (beq_refl_nat _) hok) _

def callsB (c : Cls) (fs : List Field) : Bool := fs.all fun f => callB c f.2.1 f.1

theorem deep_fields {c : Cls} {g : Node} (h : Is (.comp c) g) (hd : Deep g) {fs : List Field} (hb : callsB c fs = true) {f : Nat × Option Nat} {x : Child} (hx : Calm x) (hf : field fs x.name = some f)
    (hok : (g.readField f x).2 = true) : Deep (g.readField f x).1 := by
  obtain ⟨p, hp, rfl, hn⟩ := field_named hf
  have := List.all_eq_true.mp hb p hp
  rw [hn] at this
  exact deep_readField h hd this hx hok

end Mx.Content
