import Verif.Spec.Reader
import Verif.Proofs.ContentWhole

/-
Objects as they are before reading, and what it means that a child, a slot or an object has been read.
-/
open Mx.Spec
namespace Mx.Content

def partOf (h : How) (w : Whole) : List Xml := match h with | .element => [w.element] | _ => w.kids

theorem stmtWhole_eq (s : Stmt) (w : Whole) : stmtWhole s w = partOf s.how w := rfl

def Fine (n : Node) : Prop := Wide n ∧ SoundCareful n

/-! ## Objects as the constructors make them -/

def BlankSlotOf (P : Node → Prop) (m : Member) (s : Slot) : Prop :=
  s.on = false ∧ s.kids.length = m.mult.start ∧ ∀ x ∈ s.kids, x.kind = m.kind ∧ P x

inductive Blank : Node → Prop where
  | leaf (t : Nat) (h : Bool) : t ∈ leafNames → Blank (.leaf t h [])
  | comp (c : Cls) (d : Str) (ss : List Slot) : ss.length = c.info.members.length →
      (∀ (i : Nat) (m : Member) (s : Slot), c.info.members[i]? = some m → ss[i]? = some s →
        s.on = false ∧ s.kids.length = m.mult.start ∧ ∀ x ∈ s.kids, x.kind = m.kind) →
      (∀ s ∈ ss, ∀ x ∈ s.kids, Blank x) →
      Blank (.comp c d (initialChoice c) ss)

abbrev BlankSlot (m : Member) (s : Slot) : Prop := BlankSlotOf Blank m s

theorem Blank.slot {c : Cls} {d : Str} {k : Nat} {ss : List Slot} (h : Blank (.comp c d k ss)) : ss.length = c.info.members.length ∧ k = initialChoice c ∧
    ∀ (i : Nat) (m : Member) (s : Slot), c.info.members[i]? = some m → ss[i]? = some s → BlankSlot m s := by
  cases h with
  | comp _ _ _ h1 h2 h3 =>
  exact ⟨h1, rfl, fun i m s hm hs => ⟨(h2 i m s hm hs).1, (h2 i m s hm hs).2.1, fun x hx => ⟨(h2 i m s hm hs).2.2 x hx, h3 s (List.mem_of_getElem? hs) x hx⟩⟩⟩

theorem reachable_initial (c : Cls) : c.info.choices = 0 ∨ initialChoice c < c.info.choices := by
  have h : allCls.all (fun c => Nat.beq c.info.choices 0 || Nat.blt (initialChoice c) c.info.choices) = true := by decide +kernel
  have h' := List.all_eq_true.mp h c (mem_allCls c)
  simp only [Bool.or_eq_true] at h'
  rcases h' with h' | h'
  · exact .inl (Nat.eq_of_beq_eq_true h')
  · exact .inr (by simpa [Nat.blt_eq] using h')

theorem blank_slotOk {c : Cls} {i : Nat} {m : Member} {s : Slot} (hm : c.info.members[i]? = some m) {P : Node → Prop} (h : BlankSlotOf P m s) :
    SlotOk wide c i m s := by
  refine ⟨fun k hk => (h.2.2 k hk).1, ?_⟩
  cases hmult : m.mult with
  | one => simpa [hmult, Mult.start] using h.2.1
  | opt => simpa [hmult, Mult.start] using h.2.1
  | set sc =>
    have e : (memberSet c i) = sc := memberSet_eq hm hmult
    have h1 : wide.lo c i ≤ _ := lo_le_start c i
    have h2 := h.2.1
    rw [hmult, Mult.start] at h2
    rw [e] at h1
    refine ⟨by omega, fun x hx => ?_⟩
    have h3 := start_le_most c i x (wide_hi hx)
    rw [e] at h3
    omega

theorem blank_fine {n : Node} (h : Blank n) : Fine n := by
  induction h with
  | leaf t h ht => exact ⟨.leaf t h [] ht, .leaf t h []⟩
  | comp c d ss hl hs hb ih =>
    have key : ∀ s ∈ ss, s.on = false ∧ ∀ n ∈ s.kids, Fine n := by
      intro s hs'
      obtain ⟨i, hi⟩ := List.getElem?_of_mem hs'
      obtain ⟨m, hm⟩ := getElem?_same_length hl.symm hi
      exact ⟨(hs i m s hm hi).1, fun n hn => ih s hs' n hn⟩
    refine ⟨.comp c d _ ss ⟨hl, ?_, ?_⟩ (fun s hs' n hn => ((key s hs').2 n hn).1), .comp c d _ ss ?_ (fun s hs' n hn => ((key s hs').2 n hn).2)⟩
    · intro i m s hm hi
      exact blank_slotOk (P := Blank) hm ⟨(hs i m s hm hi).1, (hs i m s hm hi).2.1, fun x hx => ⟨(hs i m s hm hi).2.2 x hx, hb s (List.mem_of_getElem? hi) x hx⟩⟩
    · rcases reachable_initial c with h | h
      · exact .inl h
      · exact .inr ⟨h, rfl⟩
    · intro _
      refine .inr ⟨?_, ?_⟩
      · rintro ⟨s, h1, h2⟩
        rw [(key s (List.mem_of_getElem? h1)).1] at h2; cases h2
      · rintro ⟨s, h1, h2⟩
        rw [(key s (List.mem_of_getElem? h1)).1] at h2; cases h2

mutual
def blankB : Node → Bool
  | .leaf t _ d => leafNames.any (Nat.beq t) && d.isEmpty
  | .comp c _ k ss => Nat.beq k (initialChoice c) && blankSlots c.info.members ss
def blankSlots : List Member → List Slot → Bool
  | [], [] => true
  | m :: ms, .mk on ks :: ss => !on && blankKids m.kind m.mult.start ks && blankSlots ms ss
  | _, _ => false
def blankKids (kd : Kind) : Nat → List Node → Bool
  | 0, [] => true
  | n + 1, k :: ks => decide (k.kind = kd) && blankB k && blankKids kd n ks
  | _, _ => false
end

mutual
theorem blankB_blank : ∀ (n : Node), blankB n = true → Blank n
  | .leaf t h d, e => by
    simp only [blankB, Bool.and_eq_true, List.any_eq_true] at e
    obtain ⟨⟨x, hx, hb⟩, hd⟩ := e
    rw [← Nat.eq_of_beq_eq_true hb] at hx
    have : d = [] := by simpa using hd
    subst this
    exact .leaf t h hx
  | .comp c d k ss, e => by
    simp only [blankB, Bool.and_eq_true] at e
    obtain ⟨h1, h2⟩ := blankSlots_blank _ ss e.2
    rw [Nat.eq_of_beq_eq_true e.1]
    refine .comp c d ss h1 (fun i m s hm hs => ⟨(h2 i m s hm hs).1, (h2 i m s hm hs).2.1, fun x hx => ((h2 i m s hm hs).2.2 x hx).1⟩) ?_
    intro s hs x hx
    obtain ⟨i, hi⟩ := List.getElem?_of_mem hs
    obtain ⟨m, hm⟩ := getElem?_same_length h1.symm hi
    exact ((h2 i m s hm hi).2.2 x hx).2
theorem blankSlots_blank : ∀ (ms : List Member) (ss : List Slot), blankSlots ms ss = true → ss.length = ms.length ∧
    (∀ (i : Nat) (m : Member) (s : Slot), ms[i]? = some m → ss[i]? = some s → s.on = false ∧ s.kids.length = m.mult.start ∧ ∀ k ∈ s.kids, k.kind = m.kind ∧ Blank k)
  | [], [], _ => by simp
  | m :: ms, .mk b ks :: ss, e => by
    simp only [blankSlots, Bool.and_eq_true, Bool.not_eq_true'] at e
    obtain ⟨h1, h2⟩ := blankSlots_blank ms ss e.2
    have g := blankKids_blank m.kind m.mult.start ks e.1.2
    refine ⟨by simp [h1], ?_⟩
    intro i m' s hm hs
    cases i with
    | zero =>
      simp at hm hs
      subst hm hs
      exact ⟨e.1.1, g⟩
    | succ i => exact h2 i m' s (by simpa using hm) (by simpa using hs)
  | [], _ :: _, e => by simp [blankSlots] at e
  | _ :: _, [], e => by simp [blankSlots] at e
theorem blankKids_blank (kd : Kind) : ∀ (n : Nat) (ks : List Node), blankKids kd n ks = true → ks.length = n ∧ ∀ k ∈ ks, k.kind = kd ∧ Blank k
  | 0, [], _ => by simp
  | n + 1, k :: ks, e => by
    simp only [blankKids, Bool.and_eq_true, decide_eq_true_eq] at e
    obtain ⟨h1, h2⟩ := blankKids_blank kd n ks e.2
    have hk := blankB_blank k e.1.2
    refine ⟨by simp [h1], ?_⟩
    intro x hx
    rcases List.mem_cons.mp hx with rfl | hx
    · exact ⟨e.1.1, hk⟩
    · exact h2 x hx
  | 0, _ :: _, e => by simp [blankKids] at e
  | _ + 1, [], e => by simp [blankKids] at e
end

theorem create_kind : ∀ (f : Nat) (k : Kind), (create f k).kind = k
  | 0, .leaf _ _ => rfl
  | _ + 1, .leaf _ _ => rfl
  | 0, .comp _ => rfl
  | _ + 1, .comp _ => rfl

theorem make_kind (k : Kind) : (make k).kind = k := create_kind 12 k

set_option maxRecDepth 100000 in
theorem make_blank_table : allCls.all (fun c => blankB (make (.comp c)) && c.info.members.all fun m => blankB (make m.kind)) = true := by decide +kernel

theorem make_blank (c : Cls) : Blank (make (.comp c)) := by
  have h := List.all_eq_true.mp make_blank_table c (mem_allCls c)
  rw [Bool.and_eq_true] at h
  exact blankB_blank _ h.1

theorem make_blank_member {c : Cls} {i : Nat} {m : Member} (h : c.info.members[i]? = some m) : Blank (make m.kind) := by
  have h' := List.all_eq_true.mp make_blank_table c (mem_allCls c)
  rw [Bool.and_eq_true] at h'
  exact blankB_blank _ (List.all_eq_true.mp h'.2 m (List.mem_of_getElem? h))

theorem newItem_eq {c : Cls} {i : Nat} {m : Member} (h : c.info.members[i]? = some m) (d : Str) (k : Nat) (ss : List Slot) :
    (Node.comp c d k ss).newItem i = make m.kind := by
  simp [Node.newItem, h]

/-! ## Names -/

def kindName : Kind → Nat
  | .leaf t _ => t
  | .comp c => c.info.name

def Xml.name : Xml → Nat | .elem n _ _ => n

theorem whole_name (n : Node) : (whole n).element.name = kindName n.kind := by
  cases n <;> simp [whole, Xml.name, kindName, Node.kind]

theorem childList_eq (p : Cls → RProg) : ∀ l : List Xml, childList p l = l.map (Xml.child p)
  | [] => rfl
  | x :: xs => by simp [childList, childList_eq p xs]

theorem child_name (p : Cls → RProg) (x : Xml) : (x.child p).name = x.name := by
  cases x; rfl

/-- The names of the elements a statement writes. -/
def stmtNames (sub : Cls → List Nat) (c : Cls) (w : Stmt) : List Nat :=
  match c.info.members[w.slot]? with
  | none => []
  | some m => match w.how with
    | .element => [kindName m.kind]
    | _ => match m.kind with
      | .comp g => sub g
      | .leaf _ _ => []

def bodyNames : Nat → Cls → List Nat
  | 0, _ => []
  | f + 1, c => c.info.stmts.flatMap (stmtNames (bodyNames f) c)

/-- The groups within groups are no deeper than this. -/
def deep : Nat → Cls → Bool
  | 0, _ => false
  | f + 1, c => c.info.stmts.all fun w => match w.how with
    | .element => true
    | _ => match c.info.members[w.slot]? with
      | some ⟨.comp g, _⟩ => deep f g
      | _ => true

theorem deep_all (c : Cls) : deep 7 c = true := by
  have h : allCls.all (deep 7) = true := by decide +kernel
  exact List.all_eq_true.mp h c (mem_allCls c)

def names (c : Cls) (w : Stmt) : List Nat := stmtNames (bodyNames 7) c w

theorem whole_kids (c : Cls) (d : Str) (k : Nat) (ss : List Slot) :
    (whole (.comp c d k ss)).kids = c.info.stmts.flatMap (wholeStmt c k (wholeSlots ss)) := by
  simp only [whole]
  rfl

theorem wholeStmt_part {c : Cls} {k : Nat} {ss : List Slot} {w : Stmt} {s : Slot} (hs : ss[w.slot]? = some s) :
    wholeStmt c k (wholeSlots ss) w =
      if inChoice k w && inUse c.info.members[w.slot]? s.on then s.kids.flatMap (fun n => partOf w.how (whole n)) else [] := by
  rw [wholeStmt_at hs, List.flatMap_map]
  rfl

theorem bodyNames_of : ∀ (f : Nat) (c : Cls), deep f c = true → ∀ (d : Str) (k : Nat) (ss : List Slot), Wide (.comp c d k ss) →
    ∀ x ∈ (whole (.comp c d k ss)).kids, x.name ∈ bodyNames f c
  | 0, _, hd, _, _, _, _ => by simp [deep] at hd
  | f + 1, c, hd, d, k, ss, hok => by
    intro x hx
    rw [whole_kids] at hx
    obtain ⟨w, hw, hx⟩ := List.mem_flatMap.mp hx
    simp only [bodyNames]
    refine List.mem_flatMap.mpr ⟨w, hw, ?_⟩
    cases hok with
    | comp _ _ _ _ hsh hkids =>
    obtain ⟨m, s, hm, hs, hslot⟩ := slot_at hsh hw
    rw [wholeStmt_part hs] at hx
    split at hx
    · obtain ⟨n, hn, hx⟩ := List.mem_flatMap.mp hx
      have hk := hslot.1 n hn
      simp only [stmtNames, hm]
      have hdw := List.all_eq_true.mp (show (c.info.stmts.all fun w => match w.how with
        | .element => true
        | _ => match c.info.members[w.slot]? with
          | some ⟨.comp g, _⟩ => deep f g
          | _ => true) = true from hd) w hw
      have hgroup : w.how ≠ .element → x ∈ (whole n).kids → x.name ∈ (match m.kind with | .comp g => bodyNames f g | .leaf _ _ => []) := by
        intro hh hx'
        cases n with
        | leaf t h d' => simp [whole] at hx'
        | comp g d' k' ss' =>
          have hmk : m.kind = .comp g := hk.symm
          rw [hmk]
          refine bodyNames_of f g ?_ d' k' ss' (hkids s (List.mem_of_getElem? hs) _ hn) x hx'
          rw [hm] at hdw
          have : m = ⟨.comp g, m.mult⟩ := by cases m; simp only at hmk; rw [hmk]
          rw [this] at hdw
          cases hh' : w.how with
          | element => exact absurd hh' hh
          | body => rw [hh'] at hdw; exact hdw
          | bodyIf => rw [hh'] at hdw; exact hdw
      cases hh : w.how with
      | element =>
        rw [hh] at hx
        simp only [partOf, List.mem_singleton] at hx
        subst hx
        simp only [List.mem_singleton]
        rw [whole_name, hk]
      | body => rw [hh] at hx hgroup; exact hgroup (by simp) hx
      | bodyIf => rw [hh] at hx hgroup; exact hgroup (by simp) hx
    · simp at hx

theorem names_of {c : Cls} {d : Str} {k : Nat} {ss : List Slot} (hok : Wide (.comp c d k ss)) {w : Stmt} (hw : w ∈ c.info.stmts) :
    ∀ x ∈ wholeStmt c k (wholeSlots ss) w, x.name ∈ names c w := by
  intro x hx
  cases hok with
  | comp _ _ _ _ hsh hkids =>
  obtain ⟨m, s, hm, hs, hslot⟩ := slot_at hsh hw
  rw [wholeStmt_part hs] at hx
  split at hx
  · obtain ⟨n, hn, hx⟩ := List.mem_flatMap.mp hx
    have hk := hslot.1 n hn
    simp only [names, stmtNames, hm]
    have hgroup : x ∈ (whole n).kids → x.name ∈ (match m.kind with | .comp g => bodyNames 7 g | .leaf _ _ => []) := by
      intro hx'
      cases n with
      | leaf t h d' => simp [whole] at hx'
      | comp g d' k' ss' =>
        have hmk : m.kind = .comp g := hk.symm
        rw [hmk]
        exact bodyNames_of 7 g (deep_all g) d' k' ss' (hkids s (List.mem_of_getElem? hs) _ hn) x hx'
    cases hh : w.how with
    | element =>
      rw [hh] at hx
      simp only [partOf, List.mem_singleton] at hx
      subst hx
      simp only [List.mem_singleton]
      rw [whole_name, hk]
    | body => rw [hh] at hx; exact hgroup hx
    | bodyIf => rw [hh] at hx; exact hgroup hx
  · simp at hx

/-! ## Reading -/

/-- Reading the child into a new object gives an object that is written in the same way. -/
structure Reads (x : Child) (n : Node) : Prop where
  name : x.name = kindName n.kind
  read : ∀ t, Blank t → t.kind = n.kind → ∃ n', x.read t = (n', true) ∧ n'.kind = n.kind ∧ (whole n').element = (whole n).element ∧ Fine n'

/-- What has been read for a member. -/
structure SlotSame (c : Cls) (i : Nat) (m : Member) (h : How) (s s' : Slot) : Prop where
  ok : SlotOk wide c i m s'
  fine : ∀ x ∈ s'.kids, Fine x
  on : m.mult = .opt → s'.on = s.on
  seen : h = .element → m.mult = .one → s'.on = true
  text : inUse (some m) s.on = true → s'.kids.flatMap (fun n => partOf h (whole n)) = s.kids.flatMap (fun n => partOf h (whole n))

theorem inUse_one {m : Member} (h : m.mult ≠ .opt) (b : Bool) : inUse (some m) b = true := by
  cases m with
  | mk kd mult => cases mult <;> simp_all [inUse]

theorem inUse_opt {m : Member} (h : m.mult = .opt) (b : Bool) : inUse (some m) b = b := by
  cases m with
  | mk kd mult => simp only at h; subst h; rfl

/-- From the members to the object. -/
theorem same_of_slots {c : Cls} {d d' : Str} {k k' : Nat} {ss ss' : List Slot} (hlen : ss'.length = c.info.members.length)
    (hn : Fine (.comp c d k ss)) (hch : k' = initialChoice c ∨ k' = k)
    (hall : ∀ w ∈ c.info.stmts, inChoice k' w = inChoice k w)
    (h : ∀ w ∈ c.info.stmts, ∀ m s s', c.info.members[w.slot]? = some m → ss[w.slot]? = some s → ss'[w.slot]? = some s' →
      (inChoice k w = true → SlotSame c w.slot m w.how s s') ∧ (inChoice k w = false → BlankSlot m s'))
    (hcov : ∀ i < c.info.members.length, ∃ w ∈ c.info.stmts, w.slot = i)
    (hsound : c = .Sound → ∀ w ∈ c.info.stmts, inChoice k w = true ∧ ∀ m, c.info.members[w.slot]? = some m → m.mult = .opt) :
    Fine (.comp c d' k' ss') ∧ (whole (.comp c d' k' ss')).kids = (whole (.comp c d k ss)).kids := by
  obtain ⟨h1, h2⟩ := hn
  cases h1 with
  | comp _ _ _ _ hsh hkids =>
  have key : ∀ i m s', c.info.members[i]? = some m → ss'[i]? = some s' → ∃ w ∈ c.info.stmts, ∃ s, w.slot = i ∧ ss[i]? = some s ∧
      (inChoice k w = true → SlotSame c i m w.how s s') ∧ (inChoice k w = false → BlankSlot m s') := by
    intro i m s' hm hs'
    obtain ⟨w, hw, rfl⟩ := hcov i (List.getElem?_eq_some_iff.mp hm).1
    obtain ⟨s, hs⟩ := getElem?_same_length hsh.length hm
    exact ⟨w, hw, s, rfl, hs, h w hw m s s' hm hs hs'⟩
  have hfine : ∀ s' ∈ ss', ∀ n ∈ s'.kids, Fine n := by
    intro s' hs' n hn
    obtain ⟨i, hi⟩ := List.getElem?_of_mem hs'
    obtain ⟨m, hm⟩ := getElem?_same_length hlen.symm hi
    obtain ⟨w, hw, s, _, _, ha, hb⟩ := key i m s' hm hi
    cases hc : inChoice k w with
    | true => exact (ha hc).fine n hn
    | false => exact blank_fine ((hb hc).2.2 n hn).2
  constructor
  · constructor
    · refine .comp c d' k' ss' ⟨hlen, ?_, ?_⟩ (fun s hs n hn => (hfine s hs n hn).1)
      · intro i m s' hm hs'
        obtain ⟨w, hw, s, _, _, ha, hb⟩ := key i m s' hm hs'
        cases hc : inChoice k w with
        | true => exact (ha hc).ok
        | false => exact blank_slotOk (P := Blank) hm (hb hc)
      · rcases hch with h | h
        · rw [h]
          rcases reachable_initial c with h | h
          · exact .inl h
          · exact .inr ⟨h, rfl⟩
        · rw [h]; exact hsh.choice
    · refine .comp c d' k' ss' ?_ (fun s hs n hn => (hfine s hs n hn).2)
      intro hc
      cases h2 with
      | comp _ _ _ _ hs2 _ =>
      have hflag : ∀ i, HasFlag (.comp c d' k' ss') i ↔ HasFlag (.comp c d k ss) i := by
        intro i
        simp only [HasFlag]
        by_cases hi : i < c.info.members.length
        · obtain ⟨m, hm⟩ : ∃ m, c.info.members[i]? = some m := ⟨_, List.getElem?_eq_getElem hi⟩
          obtain ⟨s', hs'⟩ := getElem?_same_length hlen hm
          obtain ⟨w, hw, s, he, hs, ha, hb⟩ := key i m s' hm hs'
          have ho := hsound hc w hw
          have e := (ha ho.1).on (ho.2 m (by rw [he]; exact hm))
          constructor
          · rintro ⟨s1, h1, h2⟩
            rw [hs'] at h1; cases h1
            exact ⟨s, hs, by rw [← e]; exact h2⟩
          · rintro ⟨s1, h1, h2⟩
            rw [hs] at h1; cases h1
            exact ⟨s', hs', by rw [e]; exact h2⟩
        · have h3 : ss'[i]? = none := List.getElem?_eq_none (by omega)
          have h4 : ss[i]? = none := List.getElem?_eq_none (by have := hsh.length; omega)
          simp [h3, h4]
      rw [hflag, hflag, hflag]
      exact hs2 hc
  · rw [whole_kids, whole_kids]
    have e : ∀ w ∈ c.info.stmts, wholeStmt c k' (wholeSlots ss') w = wholeStmt c k (wholeSlots ss) w := by
      intro w hw
      obtain ⟨m, s, hm, hs, _⟩ := slot_at hsh hw
      obtain ⟨s', hs'⟩ := getElem?_same_length hlen hm
      rw [wholeStmt_part hs', wholeStmt_part hs, hall w hw]
      cases hc : inChoice k w with
      | false => simp
      | true =>
        have hS := (h w hw m s s' hm hs hs').1 hc
        simp only [Bool.true_and, hm]
        by_cases ho : m.mult = .opt
        · rw [inUse_opt ho, inUse_opt ho, hS.on ho]
          by_cases hon : s.on = true
          · rw [if_pos hon, if_pos hon]
            exact hS.text (by rw [inUse_opt ho]; exact hon)
          · rw [if_neg hon, if_neg hon]
        · rw [if_pos (inUse_one ho _), if_pos (inUse_one ho _)]
          exact hS.text (inUse_one ho _)
    rw [List.flatMap_def, List.flatMap_def, List.map_congr_left e]
end Mx.Content
