import Verif.Proofs.StableRead
import Verif.Proofs.ReaderSamples

/-
What has been read can be read again: the conditions for what is written, and sounds with a device but without an instrument.
-/
open Mx.Spec
namespace Mx.Content

/-! ## Conditions for reading -/

/-- Elements that are never read are not written. -/
def quietB (c : Cls) (w : Stmt) : Bool :=
  match c.info.members[w.slot]? with
  | some ⟨.comp g, mu⟩ => (!decide (g = .Play) && !decide (g = .Percussion)) || (decide (c = .Note) && Nat.beq w.slot 14 && (match mu with | .opt => true | _ => false)) ||
      (decide (c = .Sound) && Nat.beq w.slot 2 && (match mu with | .opt => true | _ => false)) || (decide (c = .DirectionType) && w.conds.any fun | .choice j => Nat.beq j 20 | _ => false)
  | _ => true

set_option maxRecDepth 100000 in
theorem quiet_check : allCls.all (fun c => c.info.stmts.all (quietB c)) = true := by decide +kernel

theorem quiet_kid {c : Cls} {d : Str} {k : Nat} {ss : List Slot} (hb : hereB c d k ss = true) {w : Stmt} (hw : w ∈ c.info.stmts) (hk : inChoice k w = true) {s : Slot} (hs : ss[w.slot]? = some s)
    (hu : inUse c.info.members[w.slot]? s.on = true) {m : Member} (hm : c.info.members[w.slot]? = some m) : m.kind ≠ .comp .Play ∧ m.kind ≠ .comp .Percussion := by
  have h := List.all_eq_true.mp (List.all_eq_true.mp quiet_check c (mem_allCls c)) w hw
  unfold quietB at h
  obtain ⟨kd, mu⟩ := m
  rw [hm] at h hu
  cases kd with
  | leaf t b => exact ⟨by simp, by simp⟩
  | comp g =>
    simp only [Bool.or_eq_true, Bool.and_eq_true, Bool.not_eq_true', decide_eq_false_iff_not, decide_eq_true_eq] at h
    rcases h with ((h | h) | h) | h
    · exact ⟨by simp [h.1], by simp [h.2]⟩
    · obtain ⟨⟨rfl, h1⟩, h2⟩ := h
      cases mu with
      | opt =>
        have h1 := Nat.eq_of_beq_eq_true h1
        rw [h1] at hs
        have hb : (!onAt ss 14) = true := hb
        simp only [onAt, hs, Option.map_some, Option.getD_some] at hb
        have hu : s.on = true := hu
        rw [hu] at hb
        cases hb
      | one => cases h2
      | set => cases h2
    · obtain ⟨⟨rfl, h1⟩, h2⟩ := h
      cases mu with
      | opt =>
        have h1 := Nat.eq_of_beq_eq_true h1
        rw [h1] at hs
        have hb : (!onAt ss 2) = true := hb
        simp only [onAt, hs, Option.map_some, Option.getD_some] at hb
        have hu : s.on = true := hu
        rw [hu] at hb
        cases hb
      | one => cases h2
      | set => cases h2
    · obtain ⟨rfl, h1⟩ := h
      rw [List.any_eq_true] at h1
      obtain ⟨cd, hcd, h1⟩ := h1
      have h2 := List.all_eq_true.mp hk cd hcd
      cases cd with
      | choice j =>
        have e1 := Nat.eq_of_beq_eq_true h1
        have e2 := Nat.eq_of_beq_eq_true h2
        subst e1
        subst e2
        cases hb
      | flag => cases h1
      | self => cases h1

theorem hasData_of {d : Str} {n : Node} (h : leafData d n = true) : HasData d n := by
  cases n with
  | leaf t b d' =>
    simp only [leafData, decide_eq_true_eq] at h
    subst h
    exact ⟨t, b, rfl⟩
  | comp => cases h

theorem kidsAt_ne {c : Cls} {k : Nat} {ss : List Slot} (hsh : Shape loaded c k ss) {i : Nat} {kd : Kind} {sc : SetCode} (hm : c.info.members[i]? = some ⟨kd, .set sc⟩) (hlo : loaded.lo c i = 1) : kidsAt ss i ≠ [] := by
  have hlen : i < ss.length := by
    rw [hsh.length]
    exact (List.getElem?_eq_some_iff.mp hm).1
  have hs := List.getElem?_eq_getElem hlen
  have h1 := (hsh.slots i _ _ hm hs).2
  simp only at h1
  rw [hlo] at h1
  unfold kidsAt
  rw [hs]
  simp only [Option.map_some, Option.getD_some]
  intro e
  rw [e] at h1
  simp at h1

theorem readableHere_of {c : Cls} {d : Str} {k : Nat} {ss : List Slot} (hb : hereB c d k ss = true) (hsh : Shape loaded c k ss) (h1 : c ≠ .Play) (h2 : c ≠ .Percussion) : ReadableHere c d k ss := by
  cases c <;> first
    | trivial
    | skip
  case NoteheadText =>
    have hb : (decide (d = []) && (kidsAt ss 0).all fun g => (partsAt g (choiceOf g)).all (leafData [])) = true := hb
    rw [Bool.and_eq_true, decide_eq_true_eq] at hb
    obtain ⟨rfl, hb⟩ := hb
    refine ⟨kidsAt_ne hsh (kd := .comp .NoteheadTextChoice) (sc := ⟨1, none, 0, 1⟩) rfl (by decide +kernel), ?_⟩
    intro g hg n hn
    exact hasData_of (List.all_eq_true.mp (List.all_eq_true.mp hb g hg) n hn)
  case NotationsChoice =>
    intro e
    subst e
    cases hb
  case Arrow => exact Nat.eq_of_beq_eq_true hb
  case KeyChoice =>
    intro e
    subst e
    have hb : (!(kidsAt ss 1).isEmpty) = true := hb
    intro e
    rw [e] at hb
    cases hb
  case TimeChoice =>
    intro _
    exact kidsAt_ne hsh (kd := .comp .TimeSignatureGroup) (sc := ⟨1, none, 0, 1⟩) rfl (by decide +kernel)
  case TimewiseMeasure => exact kidsAt_ne hsh (kd := .comp .TimewisePart) (sc := ⟨1, none, 0, 0⟩) rfl (by decide +kernel)
  case Lyric =>
    have hb : (!flagAt ss 3 0 && !flagAt ss 3 1 && (Nat.beq (choiceAt ss 0) 0 || (!onAt ss 1 && !onAt ss 2))) = true := hb
    simp only [Bool.and_eq_true, Bool.or_eq_true, Bool.not_eq_true'] at hb
    refine ⟨hb.1.1, hb.1.2, ?_⟩
    intro hne
    rcases hb.2 with h | h
    · exact absurd (Nat.eq_of_beq_eq_true h) hne
    · exact h
  case ElisionSyllabicGroup =>
    have hb : (!onAt ss 1) = true := hb
    show onAt ss 1 = false
    simpa using hb
  case MetronomeTuplet =>
    have hb : (!onAt ss 2) = true := hb
    show onAt ss 2 = false
    simpa using hb
  case Credit =>
    have hb : ((kidsAt ss 3).all fun q => (partsAt q 2).all fun g => (partsAt g 0 ++ partsAt g 1).all (leafData d)) = true := hb
    intro q hq _ g hg n hn
    exact hasData_of (List.all_eq_true.mp (List.all_eq_true.mp (List.all_eq_true.mp hb q hq) g hg) n hn)
  case FullNoteGroup =>
    have hb : (kidsAt ss 0).all (leafData []) = true := hb
    intro _ n hn
    exact hasData_of (List.all_eq_true.mp hb n hn)

theorem readable_of_clear {n : Node} (h : Clear n) : Sane n → n.kind ≠ .comp .Play → n.kind ≠ .comp .Percussion → Readable n := by
  induction h with
  | leaf t b d => exact fun _ _ _ => .leaf t b d
  | comp c d k ss hb _ ih =>
    intro hs h1 h2
    have hsh := sane_tree.shape hs
    refine .comp c d k ss (readableHere_of hb hsh (fun e => h1 (by rw [e]; rfl)) (fun e => h2 (by rw [e]; rfl))) ?_
    intro w hw hk s hs' hu n hn
    have hmem := List.mem_of_getElem? hs'
    have hl := (List.getElem?_eq_some_iff.mp hs').1
    rw [hsh.length] at hl
    have hm := List.getElem?_eq_getElem hl
    have hq := quiet_kid hb hw hk hs' hu hm
    have hkind := (hsh.slots _ _ _ hm hs').1 n hn
    refine ih s hmem n hn (sane_tree.kids hs s hmem n hn) ?_ ?_
    · rw [hkind]; exact hq.1
    · rw [hkind]; exact hq.2

/-! ## Bounds -/

def narrowB (c : Cls) : Bool :=
  (List.range c.info.members.length).all fun i => Nat.ble (wide.lo c i) (loaded.lo c i) && (match wide.hi c i with | none => true | some h => match loaded.hi c i with | none => false | some h' => Nat.ble h' h)

set_option maxRecDepth 100000 in
theorem narrow_check : allCls.all narrowB = true := by decide +kernel

theorem sane_wide {n : Node} (h : Sane n) : Wide n := by
  induction h with
  | leaf t h d ht => exact .leaf t h d ht
  | comp c d k ss hsh _ ih =>
    refine .comp c d k ss ⟨hsh.length, ?_, hsh.choice.imp id fun h => ⟨h.1, rfl⟩⟩ ih
    intro i m s hm hs
    have h := hsh.slots i m s hm hs
    have hi := (List.getElem?_eq_some_iff.mp hm).1
    have hc := List.all_eq_true.mp (List.all_eq_true.mp narrow_check c (mem_allCls c)) i (List.mem_range.mpr hi)
    rw [Bool.and_eq_true, Nat.ble_eq] at hc
    refine ⟨h.1, ?_⟩
    have h2 := h.2
    cases hmu : m.mult with
    | one => rw [hmu] at h2; exact h2
    | opt => rw [hmu] at h2; exact h2
    | set sc =>
      rw [hmu] at h2
      refine ⟨Nat.le_trans hc.1 h2.1, ?_⟩
      intro x hx
      have hc2 := hc.2
      rw [hx] at hc2
      simp only at hc2
      cases hl : loaded.hi c i with
      | none => rw [hl] at hc2; cases hc2
      | some y =>
        rw [hl] at hc2
        exact Nat.le_trans (h2.2 y hl) (Nat.ble_eq.mp hc2)

/-! ## Sounds -/

/-- The flag of the instrument is on where the instrument is written. -/
def instrumentOn (ss : List Slot) : List Slot := changeSlot ss 1 fun s => .mk (s.on || onAt ss 0 || onAt ss 2) s.kids

mutual
def mend : Node → Node
  | .leaf t h d => .leaf t h d
  | .comp c d k ss => .comp c d k (if c = .Sound then instrumentOn (mendSlots ss) else mendSlots ss)
def mendSlots : List Slot → List Slot
  | [] => []
  | .mk b ks :: ss => .mk b (mendKids ks) :: mendSlots ss
def mendKids : List Node → List Node
  | [] => []
  | k :: ks => mend k :: mendKids ks
end

def mendSlot (s : Slot) : Slot := .mk s.on (s.kids.map mend)

theorem mendKids_eq : ∀ (ks : List Node), mendKids ks = ks.map mend
  | [] => rfl
  | k :: ks => by rw [mendKids, mendKids_eq ks]; rfl
theorem mendSlots_eq : ∀ (ss : List Slot), mendSlots ss = ss.map mendSlot
  | [] => rfl
  | .mk b ks :: ss => by rw [mendSlots, mendKids_eq, mendSlots_eq ss]; rfl

theorem writeSlots_eq : ∀ (ss : List Slot), writeSlots ss = ss.map writeSlot
  | [] => rfl
  | s :: ss => by rw [writeSlots, writeSlots_eq ss]; rfl

theorem sound_assemble (d : Str) (k : Nat) (ss : List Slot) : assemble .Sound d k (writeSlots (instrumentOn ss)) = assemble .Sound d k (writeSlots ss) := by
  unfold instrumentOn changeSlot
  match ss with
  | [] => rfl
  | [a] => rfl
  | .mk a ka :: .mk b kb :: rest =>
    simp only [List.getElem?_cons_succ, List.getElem?_cons_zero, List.set_cons_succ, List.set_cons_zero, Slot.on, Slot.kids, writeSlots, writeSlot]
    have hh : hasContents Cls.Sound.info k (⟨a, writeKids ka⟩ :: ⟨(b || onAt (.mk a ka :: .mk b kb :: rest) 0 || onAt (.mk a ka :: .mk b kb :: rest) 2), writeKids kb⟩ :: writeSlots rest) =
        hasContents Cls.Sound.info k (⟨a, writeKids ka⟩ :: ⟨b, writeKids kb⟩ :: writeSlots rest) := by
      cases rest with
      | nil => cases a <;> cases b <;> rfl
      | cons r rs =>
        obtain ⟨c, kc⟩ := r
        cases a <;> cases b <;> cases c <;> rfl
    unfold assemble
    rw [hh]
    rfl

mutual
theorem mend_write : ∀ (n : Node), (mend n).write = n.write
  | .leaf .. => rfl
  | .comp c d k ss => by
    rw [mend, Node.write, Node.write]
    split
    · rename_i hc
      subst hc
      rw [sound_assemble, mendSlots_write ss]
    · rw [mendSlots_write ss]
theorem mendSlots_write : ∀ (ss : List Slot), writeSlots (mendSlots ss) = writeSlots ss
  | [] => rfl
  | .mk b ks :: ss => by
    rw [mendSlots, writeSlots, writeSlots, mendSlots_write ss, writeSlot, writeSlot, mendKids_write ks]
theorem mendKids_write : ∀ (ks : List Node), writeKids (mendKids ks) = writeKids ks
  | [] => rfl
  | k :: ks => by rw [mendKids, writeKids, writeKids, mend_write k, mendKids_write ks]
end

theorem mend_xml (n : Node) : (mend n).xml = n.xml := by rw [Node.xml, Node.xml, mend_write]

theorem mend_kind (n : Node) : (mend n).kind = n.kind := by
  cases n <;> rfl

/-- The slots of a mended object. -/
theorem mend_slot {c : Cls} {ss : List Slot} {i : Nat} {s' : Slot} (h : (if c = .Sound then instrumentOn (mendSlots ss) else mendSlots ss)[i]? = some s') :
    ∃ s, ss[i]? = some s ∧ s'.kids = s.kids.map mend := by
  have base : ∀ s', (mendSlots ss)[i]? = some s' → ∃ s, ss[i]? = some s ∧ s'.kids = s.kids.map mend := by
    intro s' h
    rw [mendSlots_eq, List.getElem?_map] at h
    cases hs : ss[i]? with
    | none => rw [hs] at h; cases h
    | some s =>
      rw [hs] at h
      simp only [Option.map_some, Option.some.injEq] at h
      subst h
      exact ⟨s, rfl, rfl⟩
  split at h
  · unfold instrumentOn at h
    rw [changeSlot_get] at h
    split at h
    · cases hs : (mendSlots ss)[i]? with
      | none => rw [hs] at h; cases h
      | some t =>
        rw [hs] at h
        simp only [Option.map_some, Option.some.injEq] at h
        obtain ⟨s, h1, h2⟩ := base t hs
        subst h
        exact ⟨s, h1, h2⟩
    · exact base s' h
  · exact base s' h

theorem mend_length (c : Cls) (ss : List Slot) : (if c = .Sound then instrumentOn (mendSlots ss) else mendSlots ss).length = ss.length := by
  have h : (mendSlots ss).length = ss.length := by rw [mendSlots_eq, List.length_map]
  split
  · unfold instrumentOn changeSlot
    split
    · exact h
    · rw [List.length_set]; exact h
  · exact h

theorem mend_sane {n : Node} (h : Sane n) : Sane (mend n) := by
  induction h with
  | leaf t h d ht => exact .leaf t h d ht
  | comp c d k ss hsh hk ih =>
    rw [mend]
    refine .comp c d k _ ⟨?_, ?_, hsh.choice⟩ ?_
    · rw [mend_length]; exact hsh.length
    · intro i m s' hm hs'
      obtain ⟨s, hs, e⟩ := mend_slot hs'
      have ho := hsh.slots i m s hm hs
      refine ⟨?_, ?_⟩
      · intro n hn
        rw [e] at hn
        obtain ⟨x, hx, rfl⟩ := List.mem_map.mp hn
        rw [mend_kind]
        exact ho.1 x hx
      · rw [e, List.length_map]; exact ho.2
    · intro s' hs' n hn
      obtain ⟨i, hi⟩ := List.mem_iff_getElem?.mp hs'
      obtain ⟨s, hs, e⟩ := mend_slot hi
      rw [e] at hn
      obtain ⟨x, hx, rfl⟩ := List.mem_map.mp hn
      exact ih s (List.mem_of_getElem? hs) x hx

theorem mend_on {ss : List Slot} {i : Nat} : onAt (mendSlots ss) i = onAt ss i := by
  unfold onAt
  rw [mendSlots_eq, List.getElem?_map]
  cases ss[i]? <;> rfl

theorem mend_kids {ss : List Slot} {i : Nat} : kidsAt (mendSlots ss) i = (kidsAt ss i).map mend := by
  unfold kidsAt
  rw [mendSlots_eq, List.getElem?_map]
  cases ss[i]? <;> rfl

theorem mend_parts {n : Node} {i : Nat} : partsAt (mend n) i = (partsAt n i).map mend := by
  cases n with
  | leaf => rfl
  | comp c d k ss =>
    rw [mend]
    simp only [partsAt]
    split
    · rw [← mend_kids]
      unfold kidsAt instrumentOn
      rw [changeSlot_get]
      split
      · cases (mendSlots ss)[i]? <;> rfl
      · rfl
    · exact mend_kids

theorem mend_choice {n : Node} : choiceOf (mend n) = choiceOf n := by cases n <;> rfl

theorem mend_leafData {d : Str} {n : Node} : leafData d (mend n) = leafData d n := by cases n <;> rfl

theorem mend_choiceAt {ss : List Slot} {i : Nat} : choiceAt (mendSlots ss) i = choiceAt ss i := by
  unfold choiceAt
  rw [mend_kids]
  cases kidsAt ss i with
  | nil => rfl
  | cons n ns => cases n <;> rfl

theorem mend_flagAt {ss : List Slot} {i j : Nat} (h : ∀ n ∈ kidsAt ss i, n.kind ≠ .comp .Sound) : flagAt (mendSlots ss) i j = flagAt ss i j := by
  unfold flagAt
  rw [mend_kids]
  cases hk : kidsAt ss i with
  | nil => rfl
  | cons n ns =>
    cases n with
    | leaf => rfl
    | comp c d k ss' =>
      have hc : c ≠ .Sound := fun e => h (.comp c d k ss') (by rw [hk]; simp) (by rw [e]; rfl)
      rw [List.map_cons, mend]
      simp only
      rw [if_neg hc]
      exact mend_on

theorem mend_here {c : Cls} {d : Str} {k : Nat} {ss : List Slot} (hsh : Shape loaded c k ss) (h : hereB c d k ss = true) : hereB c d k (if c = .Sound then instrumentOn (mendSlots ss) else mendSlots ss) = true := by
  cases c <;> first
    | rfl
    | skip
  case Sound =>
    rw [if_pos rfl]
    have h : (!onAt ss 2) = true := h
    show (!onAt (instrumentOn (mendSlots ss)) 2) = true
    have : onAt (instrumentOn (mendSlots ss)) 2 = onAt ss 2 := by
      rw [← mend_on (ss := ss)]
      unfold instrumentOn onAt
      rw [changeSlot_get, if_neg (by decide)]
    rw [this]; exact h
  case Lyric =>
    rw [if_neg (by decide)]
    have hn : ∀ n ∈ kidsAt ss 3, n.kind ≠ .comp .Sound := by
      intro n hn
      unfold kidsAt at hn
      cases hs : ss[3]? with
      | none => rw [hs] at hn; cases hn
      | some s =>
        rw [hs] at hn
        have := (hsh.slots 3 ⟨.comp .EditorialGroup, .one⟩ s rfl hs).1 n hn
        rw [this]
        intro e
        cases e
    have h : (!flagAt ss 3 0 && !flagAt ss 3 1 && (Nat.beq (choiceAt ss 0) 0 || (!onAt ss 1 && !onAt ss 2))) = true := h
    show (!flagAt (mendSlots ss) 3 0 && !flagAt (mendSlots ss) 3 1 && (Nat.beq (choiceAt (mendSlots ss) 0) 0 || (!onAt (mendSlots ss) 1 && !onAt (mendSlots ss) 2))) = true
    rw [mend_flagAt hn, mend_flagAt hn, mend_choiceAt, mend_on, mend_on]
    exact h
  case Credit =>
    rw [if_neg (by decide)]
    have h : ((kidsAt ss 3).all fun q => (partsAt q 2).all fun g => (partsAt g 0 ++ partsAt g 1).all (leafData d)) = true := h
    show ((kidsAt (mendSlots ss) 3).all fun q => (partsAt q 2).all fun g => (partsAt g 0 ++ partsAt g 1).all (leafData d)) = true
    rw [mend_kids, List.all_map]
    rw [← h]
    congr 1
    funext q
    simp only [Function.comp_apply]
    rw [mend_parts, List.all_map]
    congr 1
    funext g
    simp only [Function.comp_apply]
    rw [mend_parts, mend_parts, ← List.map_append, List.all_map]
    congr 1
    funext x
    exact mend_leafData
  case FullNoteGroup =>
    rw [if_neg (by decide)]
    have h : (kidsAt ss 0).all (leafData []) = true := h
    show (kidsAt (mendSlots ss) 0).all (leafData []) = true
    rw [mend_kids, List.all_map, ← h]
    congr 1
    funext x
    exact mend_leafData
  case NoteheadText =>
    rw [if_neg (by decide)]
    have h : (decide (d = []) && (kidsAt ss 0).all fun g => (partsAt g (choiceOf g)).all (leafData [])) = true := h
    show (decide (d = []) && (kidsAt (mendSlots ss) 0).all fun g => (partsAt g (choiceOf g)).all (leafData [])) = true
    rw [mend_kids, List.all_map, ← h]
    congr 2
    funext g
    simp only [Function.comp_apply]
    rw [mend_choice, mend_parts, List.all_map]
    congr 1
    funext x
    exact mend_leafData
  case KeyChoice =>
    rw [if_neg (by decide)]
    have h : (!Nat.beq k 1 || !(kidsAt ss 1).isEmpty) = true := h
    show (!Nat.beq k 1 || !(kidsAt (mendSlots ss) 1).isEmpty) = true
    rw [mend_kids, List.isEmpty_map]
    exact h
  all_goals
    rw [if_neg (by decide)]
    first
      | exact h
      | (simp only [hereB] at h ⊢; rw [mend_on]; exact h)

theorem mend_clear {n : Node} (h : Clear n) : Sane n → Clear (mend n) := by
  induction h with
  | leaf t b d => exact fun _ => .leaf t b d
  | comp c d k ss hb _ ih =>
    intro hs
    rw [mend]
    refine .comp c d k _ (mend_here (sane_tree.shape hs) hb) ?_
    intro s' hs' n hn
    obtain ⟨i, hi⟩ := List.mem_iff_getElem?.mp hs'
    obtain ⟨s, hs2, e⟩ := mend_slot hi
    rw [e] at hn
    obtain ⟨x, hx, rfl⟩ := List.mem_map.mp hn
    exact ih s (List.mem_of_getElem? hs2) x hx (sane_tree.kids hs s (List.mem_of_getElem? hs2) x hx)

theorem hasFlag_on {c : Cls} {d : Str} {k : Nat} {ss : List Slot} {i : Nat} : HasFlag (.comp c d k ss) i ↔ onAt ss i = true := by
  show (∃ s, ss[i]? = some s ∧ s.on = true) ↔ _
  unfold onAt
  cases ss[i]? with
  | none => simp
  | some s => simp

theorem mend_sound {n : Node} (h : Sane n) : SoundCareful (mend n) := by
  induction h with
  | leaf t h d ht => exact .leaf t h d
  | comp c d k ss hsh hk ih =>
    rw [mend]
    refine .comp c d k _ ?_ ?_
    · intro hc
      subst hc
      rw [if_pos rfl, hasFlag_on, hasFlag_on, hasFlag_on]
      have hlen : 1 < (mendSlots ss).length := by
        rw [mendSlots_eq, List.length_map, hsh.length]
        decide
      have h1 := List.getElem?_eq_getElem hlen
      have e0 : onAt (instrumentOn (mendSlots ss)) 0 = onAt (mendSlots ss) 0 := by
        unfold instrumentOn onAt
        rw [changeSlot_get, if_neg (by decide)]
      have e2 : onAt (instrumentOn (mendSlots ss)) 2 = onAt (mendSlots ss) 2 := by
        unfold instrumentOn onAt
        rw [changeSlot_get, if_neg (by decide)]
      have e1 : onAt (instrumentOn (mendSlots ss)) 1 = ((mendSlots ss)[1].on || onAt (mendSlots ss) 0 || onAt (mendSlots ss) 2) := by
        show ((changeSlot (mendSlots ss) 1 _)[1]?.map _).getD false = _
        rw [changeSlot_get, if_pos rfl, h1]
        rfl
      rw [e0, e1, e2]
      cases (mendSlots ss)[1].on <;> cases onAt (mendSlots ss) 0 <;> cases onAt (mendSlots ss) 2 <;> simp
    · intro s' hs' n hn
      obtain ⟨i, hi⟩ := List.mem_iff_getElem?.mp hs'
      obtain ⟨s, hs2, e⟩ := mend_slot hi
      rw [e] at hn
      obtain ⟨x, hx, rfl⟩ := List.mem_map.mp hn
      exact ih s (List.mem_of_getElem? hs2) x hx

/-! ## Once more -/

theorem reads_back_wide {n : Node} (hw : Wide n) (he : n.kind.named = true) (hs : SoundCareful n) (hr : Readable n) :
    ∃ n', (n.xml.child prog).read (make n.kind) = (n', true) ∧ n'.kind = n.kind ∧ n'.xml = n.xml := by
  have hx : n.xml = (whole n).element := (write_whole n hw hs).1 he
  obtain ⟨n', e1, e2, e3, e4, e5⟩ := (read_all (sizeOf n + 1) n ⟨Nat.lt_succ_self _, ⟨hw, hs⟩, hr⟩ he).read (make n.kind) (blank_for hw) (make_kind _)
  refine ⟨n', by rw [hx]; exact e1, e2, ?_⟩
  rw [hx, ← e3]
  exact (write_whole n' e4 e5).1 (by rw [e2]; exact he)

/-- What has been read from an element in good order without any complaint is written so that it can be read again. -/
theorem reads_again {c : Cls} {x : Xml} (hc : c.info.name ≠ 0) (h1 : c ≠ .Play) (h2 : c ≠ .Percussion) (hx : Tidy x) (ha : Allowed (x.child prog).name (make (.comp c)))
    (hok : ((x.child prog).read (make (.comp c))).2 = true) :
    ∃ n', (((x.child prog).read (make (.comp c))).1.xml.child prog).read (make (.comp c)) = (n', true) ∧ n'.kind = .comp c ∧ n'.xml = ((x.child prog).read (make (.comp c))).1.xml ∧
      xmlName (((x.child prog).read (make (.comp c))).1.xml) = c.info.name := by
  have hcl := clear_read hx ha hok
  obtain ⟨hs, hk⟩ := sane_read c x
  generalize ((x.child prog).read (make (.comp c))).1 = n at hcl hs hk
  have hsm := mend_sane hs
  have hkm : (mend n).kind = .comp c := (mend_kind n).trans hk
  have hr := readable_of_clear (mend_clear hcl hs) hsm (by rw [hkm]; intro e; exact h1 (by cases e; rfl)) (by rw [hkm]; intro e; exact h2 (by cases e; rfl))
  have hnm : (mend n).kind.named = true := by rw [hkm]; simp only [Kind.named]; cases hb : Nat.beq c.info.name 0 with | true => exact absurd (Nat.eq_of_beq_eq_true hb) hc | false => rfl
  obtain ⟨n', e1, e2, e3⟩ := reads_back_wide (sane_wide hsm) hnm (mend_sound hs) hr
  have e4 : (mend n).xml = (whole (mend n)).element := (write_whole (mend n) (sane_wide hsm) (mend_sound hs)).1 hnm
  rw [mend_xml, hkm] at e1
  rw [hkm] at e2
  rw [mend_xml] at e3 e4
  refine ⟨n', e1, e2, e3, ?_⟩
  rw [e4]
  obtain ⟨d, k, ss, hm⟩ := kind_comp hkm
  rw [hm]
  rfl

end Mx.Content
