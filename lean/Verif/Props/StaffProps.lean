import Verif.Proofs.PartStaves
import Verif.Props.RoundTripProps
import Verif.Props.ScoreTimeProps
import Mathlib.Data.List.Nodup

/-!
# Properties C48 and C60: the staves of a part, and a whole score written and read
Specification: `Verif/Spec/PartStaves.lean`.
-/
namespace Mx.Props
open Spec Mx.Measure Mx.LcmGcd

variable {P : Type}

/-! ## C48 -/

theorem getPartData_some {G dv : Int} {ms : List (List (Child P))} {out : List (MeasureData P)} {t : Int}
    (h : getPartData G dv ms = some (out, t)) :
    ∃ rs : List (RSt P), out = rs.map (measureOf (partEnv G ms)) ∧ rs.length = ms.length ∧
      ∀ (k : Nat) (m : List (Child P)) (r : RSt P), ms[k]? = some m → rs[k]? = some r →
        ∃ tpq', readElems (partEnv G ms) false (m.map (·.elem)) (initRSt tpq') = some r := by
  unfold getPartData at h
  simp only [Option.map_eq_some_iff, Prod.mk.injEq] at h
  obtain ⟨⟨rs, t'⟩, h1, h2, _⟩ := h
  exact ⟨rs, h2.symm, readMeasures_some h1⟩

/-- **C48** The number of staves that is used for a part is the largest staff number mentioned anywhere in the part (by a note, forward, direction, harmony or
`<staves>`), at least one; and every measure of the part, also one that mentions no staff, gets exactly that many staves. -/
theorem C48_same_staves_in_every_measure (G divisionsValue : Int) (ms : List (List (Child P))) (out : List (MeasureData P)) (t : Int)
    (h : getPartData G divisionsValue ms = some (out, t)) :
    out.length = ms.length ∧ ∃ n : Nat, IsStaffCount (n : Int) ms ∧ ∀ m ∈ out, m.staves.length = n := by
  obtain ⟨rs, rfl, hl, _⟩ := getPartData_some h
  have hs := calculateNumStaves_spec ms
  refine ⟨by simp [hl], (calculateNumStaves ms).toNat, ?_, ?_⟩
  · rw [Int.toNat_of_nonneg (by have := hs.one; omega)]; exact hs
  · intro m hm
    obtain ⟨r, _, rfl⟩ := List.mem_map.mp hm
    simp [measureOf, partEnv]

theorem childOk_of {n : Int} {ms : List (List (Child P))} (hs : IsStaffCount n ms) (hp : NumbersPositive ms) :
    ∀ m ∈ ms, ∀ c ∈ m, ChildOk n c := by
  intro m hm c hc
  obtain ⟨p1, p2, p3⟩ := hp m hm c hc
  exact ⟨fun x hx k hk => ⟨p1 x hx k hk, hs.enough k ⟨m, hm, c, hc, .inl ⟨x, hx, hk⟩⟩⟩,
    fun k o x hx => ⟨p2 k o x hx, hs.enough k ⟨m, hm, c, hc, .inr (.inr (.inl ⟨o, x, hx⟩))⟩⟩,
    fun a ha => (p3 a ha).1, fun a ha => (p3 a ha).2⟩

/-- **C48** Every note of a loaded part is on the staff that the document names (the first one if it names none), and that staff exists: the notes found on a staff are
exactly those of the document with its number, for every measure and every staff; and a staff number that is named has its staff in every measure. -/
theorem C48_notes_on_their_staff (G divisionsValue : Int) (ms : List (List (Child P))) (out : List (MeasureData P)) (t : Int)
    (h : getPartData G divisionsValue ms = some (out, t)) (hp : NumbersPositive ms) (k : Nat) (m : List (Child P)) (m' : MeasureData P)
    (hk : ms[k]? = some m) (hk' : out[k]? = some m') :
    (∀ (i : Nat) (s : StaffData P), m'.staves[i]? = some s →
      (s.voices.flatMap (fun v => v.2.map (·.content))).Perm (noteContents i m)) ∧
    (∀ c ∈ m, ∀ n, c.elem = .note n → 0 ≤ staffIndexOf n.staff ∧ ∀ x ∈ out, staffIndexOf n.staff < x.staves.length) := by
  obtain ⟨rs, rfl, hl, hr⟩ := getPartData_some h
  have hs := calculateNumStaves_spec ms
  have hok := childOk_of hs hp
  have hm := List.mem_of_getElem? hk
  rw [List.getElem?_map, Option.map_eq_some_iff] at hk'
  obtain ⟨r, hr1, rfl⟩ := hk'
  obtain ⟨tpq', hr2⟩ := hr k m r hk hr1
  refine ⟨?_, ?_⟩
  · intro i s hi
    simp only [measureOf, List.getElem?_map, Option.map_eq_some_iff] at hi
    obtain ⟨j, hj, rfl⟩ := hi
    rw [List.getElem?_eq_some_iff] at hj
    obtain ⟨hj1, hj2⟩ := hj
    simp only [List.getElem_range] at hj2
    subst hj2
    obtain ⟨hn, _⟩ := readElems_contents (env := partEnv G ms) hs.one (hok m hm) hr2 (i : Int)
    have hperm := C33_no_note_lost r (i : Int)
    have hperm := hperm.map (fun n : NoteData P => n.content)
    rw [List.map_flatMap, List.map_map] at hperm
    have e : notesOn (i : Int) (initRSt tpq' : RSt P) = [] := rfl
    rw [e, List.nil_append] at hn
    rw [← hn]
    exact hperm
  · intro c hc n hn
    have hst : 0 ≤ staffIndexOf n.staff ∧ staffIndexOf n.staff < calculateNumStaves ms := by
      unfold staffIndexOf
      cases hns : n.staff with
      | none => have := hs.one; simp; omega
      | some k => have := (hok m hm c hc).note n hn k hns; simp; omega
    refine ⟨hst.1, ?_⟩
    intro x hx
    obtain ⟨y, _, rfl⟩ := List.mem_map.mp hx
    simp only [measureOf, partEnv, List.length_map, List.length_range]
    omega

/-- **C48** Every direction of a loaded part is on the staff that the document names (the first one if it names none), with a flag that says whether the document names one, and the
directions of a staff keep their order; a staff number that is named has its staff in every measure. -/
theorem C48_directions_on_their_staff (G divisionsValue : Int) (ms : List (List (Child P))) (out : List (MeasureData P)) (t : Int)
    (h : getPartData G divisionsValue ms = some (out, t)) (hp : NumbersPositive ms) (k : Nat) (m : List (Child P)) (m' : MeasureData P)
    (hk : ms[k]? = some m) (hk' : out[k]? = some m') :
    (∀ (i : Nat) (s : StaffData P), m'.staves[i]? = some s →
      s.directions.map (fun d => (d.isStaffValueSpecified, d.content)) = directionContents i m) ∧
    (∀ c ∈ m, ∀ s o x, c.elem = .direction s o x → 0 ≤ staffIndexOf s ∧ ∀ y ∈ out, staffIndexOf s < y.staves.length) := by
  obtain ⟨rs, rfl, hl, hr⟩ := getPartData_some h
  have hs := calculateNumStaves_spec ms
  have hok := childOk_of hs hp
  have hm := List.mem_of_getElem? hk
  rw [List.getElem?_map, Option.map_eq_some_iff] at hk'
  obtain ⟨r, hr1, rfl⟩ := hk'
  obtain ⟨tpq', hr2⟩ := hr k m r hk hr1
  refine ⟨?_, ?_⟩
  · intro i s hi
    simp only [measureOf, List.getElem?_map, Option.map_eq_some_iff] at hi
    obtain ⟨j, hj, rfl⟩ := hi
    rw [List.getElem?_eq_some_iff] at hj
    obtain ⟨hj1, hj2⟩ := hj
    simp only [List.getElem_range] at hj2
    subst hj2
    obtain ⟨_, hn, _⟩ := readElems_contents (env := partEnv G ms) hs.one (hok m hm) hr2 (i : Int)
    have e : dirsOn (i : Int) (initRSt tpq' : RSt P) = [] := rfl
    rw [e, List.nil_append] at hn
    rw [← hn]
    simp only [staffOf, dirsOn, List.map_map]
    rfl
  · intro c hc s o x hcx
    have hst : 0 ≤ staffIndexOf s ∧ staffIndexOf s < calculateNumStaves ms := by
      unfold staffIndexOf
      cases s with
      | none => have := hs.one; simp; omega
      | some k => have := (hok m hm c hc).direction k o x hcx; simp; omega
    refine ⟨hst.1, ?_⟩
    intro y hy
    obtain ⟨z, _, rfl⟩ := List.mem_map.mp hy
    simp only [measureOf, partEnv, List.length_map, List.length_range]
    omega

/-- **C48** The same for clefs; and a key signature that is read belongs to all staves (−1) or to a staff that exists. -/
theorem C48_clefs_and_keys_on_their_staff (G divisionsValue : Int) (ms : List (List (Child P))) (out : List (MeasureData P)) (t : Int)
    (h : getPartData G divisionsValue ms = some (out, t)) (hp : NumbersPositive ms) (k : Nat) (m : List (Child P)) (m' : MeasureData P)
    (hk : ms[k]? = some m) (hk' : out[k]? = some m') :
    (∀ (i : Nat) (s : StaffData P), m'.staves[i]? = some s → s.clefs.map (·.content) = clefContents i m) ∧
    (∀ x ∈ m'.keys, -1 ≤ x.staffIndex ∧ ∀ y ∈ out, x.staffIndex < y.staves.length) := by
  obtain ⟨rs, rfl, hl, hr⟩ := getPartData_some h
  have hs := calculateNumStaves_spec ms
  have hok := childOk_of hs hp
  have hm := List.mem_of_getElem? hk
  rw [List.getElem?_map, Option.map_eq_some_iff] at hk'
  obtain ⟨r, hr1, rfl⟩ := hk'
  obtain ⟨tpq', hr2⟩ := hr k m r hk hr1
  refine ⟨?_, ?_⟩
  · intro i s hi
    simp only [measureOf, List.getElem?_map, Option.map_eq_some_iff] at hi
    obtain ⟨j, hj, rfl⟩ := hi
    rw [List.getElem?_eq_some_iff] at hj
    obtain ⟨hj1, hj2⟩ := hj
    simp only [List.getElem_range] at hj2
    subst hj2
    obtain ⟨_, _, hn, _⟩ := readElems_contents (env := partEnv G ms) hs.one (hok m hm) hr2 (i : Int)
    have e : clefsOn (i : Int) (initRSt tpq' : RSt P) = [] := rfl
    rw [e, List.nil_append] at hn
    rw [← hn]
    simp only [staffOf, clefsOn, List.map_map]
    rfl
  · intro x hx
    obtain ⟨_, _, _, hn⟩ := readElems_contents (env := partEnv G ms) hs.one (hok m hm) hr2 0
    have h2 := hn (by intro k hk; simp [initRSt] at hk) x hx
    refine ⟨h2.1, ?_⟩
    intro y hy
    obtain ⟨z, _, rfl⟩ := List.mem_map.mp hy
    have h3 := h2.2
    simp only [partEnv] at h3
    simp only [measureOf, partEnv, List.length_map, List.length_range]
    omega

/-- **C48** Whatever staff numbers the notes and directions of a part have, the part is loaded: the only conditions are that clefs are on staves that exist and that no `<divisions>` is
rounded to zero. -/
theorem C48_every_part_loads (G divisionsValue n : Int) (ms : List (List (Child P))) (hG : 0 < G) (hs : IsStaffCount n ms)
    (hp : NumbersPositive ms) (hc : ClefsOnStaves n ms)
    (hd : ∀ m ∈ ms, ∀ c ∈ m, ∀ a, c.elem = .attributes a → ∀ d, a.divisions = some d → roundMicro d ≠ 0) :
    ∃ r, getPartData G divisionsValue ms = some r := by
  have hn : n = calculateNumStaves ms := staffCount_unique hs (calculateNumStaves_spec ms)
  subst hn
  have hok := childOk_of hs hp
  obtain ⟨r, hr, _⟩ := readMeasures_loads (env := partEnv G ms) (tpq := if divisionsValue > 0 then divisionsValue else G) hs.one
    (fun m hm c hcm => ⟨hok m hm c hcm, fun a ha => ⟨hc m hm c hcm a ha, hd m hm c hcm a ha⟩⟩) (by split <;> omega)
  refine ⟨(r.1.map (measureOf (partEnv G ms)), r.2), ?_⟩
  unfold getPartData readPart
  show Option.map _ (readMeasures (partEnv G ms) (if divisionsValue > 0 then divisionsValue else G) (partElems ms)) = _
  rw [hr]
  rfl

/-- a piano part: nothing tells the number of staves but a note in the second measure and a direction in the first one -/
def exPiano : List (List (Child String)) :=
  [[⟨.attributes { divisions := some 4000000, clefs := [⟨some 1, "treble"⟩, ⟨some 2, "bass"⟩] }, none⟩,
    ⟨.direction none 0 "mf", none⟩, ⟨.note ⟨false, .normal, 4000000, none, none, "c"⟩, none⟩, ⟨.direction (some 2) 0 "Ped.", none⟩],
   [⟨.note ⟨false, .normal, 4000000, some 1, none, "d"⟩, none⟩, ⟨.backup 4000000, none⟩, ⟨.note ⟨false, .normal, 4000000, some 2, none, "e"⟩, none⟩]]

/-- It is loaded with two staves in both measures. -/
example : (getPartData 4 (-1) exPiano).map (fun r => r.1.map (fun m => m.staves.map (fun s =>
      (s.voices.flatMap (fun v => v.2.map (·.content)), s.directions.map (·.content), s.clefs.map (·.content))))) =
    some [[(["c"], ["mf"], ["treble"]), ([], ["Ped."], ["bass"])], [(["d"], [], []), (["e"], [], [])]] := by decide +kernel

/-- The number of staves of the example. -/
example : IsStaffCount 2 exPiano := by
  have := calculateNumStaves_spec exPiano
  have e : calculateNumStaves exPiano = 2 := by decide +kernel
  rwa [e] at this

/-- **A clef on a staff that nothing else mentions makes the whole part fail**, though clefs name staves like notes do (the numbers of clefs are not counted). -/
theorem C48_clef_alone_fails :
    getPartData 4 (-1) [[⟨.attributes { divisions := some 4000000, clefs := [⟨some 2, "bass"⟩] }, none⟩, ⟨(.note ⟨false, .normal, 4000000, none, none, "c"⟩ : Elem String), none⟩]] =
      none := by decide +kernel

/-! ## C60 -/

/-- A written measure is read as it was (all facts of C03, C45, C49, C50 together). -/
theorem measure_reread (env : WEnv) (divisionsBefore : Int) (m : MeasureData P) (h : Suits env divisionsBefore m) (hm : MeasureReadable m) :
    ∃ r, readElems ⟨env.numStaves, env.ticksPerQuarter⟩ false (writeMeasure env m) (initRSt divisionsBefore) = some r ∧
      r.ticksPerQuarter = env.ticksPerQuarter ∧ SameMeasure m (measureOf ⟨env.numStaves, env.ticksPerQuarter⟩ r) := by
  have hk : ∀ s ∈ m.staves, ∀ v ∈ s.voices, 0 ≤ v.1 := fun s hs => (hm.staves s hs).keys
  obtain ⟨r, e, h1, _, _, _, _, h6⟩ := read_measure env m divisionsBefore h.scale h.known h.positive (le_of_eq h.staves) hm.ok hk
  refine ⟨r, h1, h6, ?_⟩
  have hw : writeThenRead env divisionsBefore m = some (measureOf ⟨env.numStaves, env.ticksPerQuarter⟩ r) := by
    unfold writeThenRead readMeasure
    rw [h1]
    rfl
  obtain ⟨m1, a1, a2⟩ := C03_measure_round_trip_partial env divisionsBefore m h hm.ok hm.staves
  obtain ⟨m2, b1, b2, b3⟩ := C45_directions_keep_time_partial env divisionsBefore m h hm.ok hk
  obtain ⟨m3, c1, c2⟩ := C50_clefs_of_each_staff_kept_partial env divisionsBefore m h hm.ok hk
  obtain ⟨m4, d1, d2⟩ := C49_no_barline_lost_partial env divisionsBefore m h hm.ok hk hm.barlines
  rw [hw, Option.some.injEq] at a1 b1 c1 d1
  subst a1
  rw [← b1] at b2 b3
  rw [← c1] at c2
  rw [← d1] at d2
  exact ⟨b2, a2, b3, c2, d2⟩

theorem allPairs_cons {A B : Type} {R : A → B → Prop} {a : A} {b : B} {as : List A} {bs : List B} (h : R a b) (hs : AllPairs R as bs) :
    AllPairs R (a :: as) (b :: bs) := by
  refine ⟨by simp [hs.1], ?_⟩
  intro i x y hx hy
  cases i with
  | zero =>
    simp only [List.getElem?_cons_zero, Option.some.injEq] at hx hy
    subst hx hy; exact h
  | succ i => exact hs.2 i x y (by simpa using hx) (by simpa using hy)

theorem allPairs_nil {A B : Type} {R : A → B → Prop} : AllPairs R ([] : List A) ([] : List B) := ⟨rfl, by simp⟩

/-- The measures of a part, one after the other. -/
theorem measures_reread (N : Nat) (tpq : Int) (hN : 1 ≤ N) (ht : 0 < tpq) : ∀ (ms : List (Extras × MeasureData P)) (first : Bool) (d : Int),
    (∀ x ∈ ms, x.2.staves.length = N ∧ MeasureReadable x.2) → (first = false → d = tpq) →
    ∃ rs t, readMeasures ⟨N, tpq⟩ d (writeMeasuresFrom N tpq first ms) = some (rs, t) ∧ (ms ≠ [] → t = tpq) ∧
      AllPairs (fun x r => SameMeasure x.2 (measureOf ⟨N, tpq⟩ r)) ms rs := by
  intro ms
  induction ms with
  | nil => intro _ d _ _; exact ⟨[], d, rfl, fun h => absurd rfl h, allPairs_nil⟩
  | cons x ms ih =>
    intro first d hm hd
    obtain ⟨x, m⟩ := x
    obtain ⟨h1, h2⟩ := hm (x, m) (by simp)
    have hsuit : Suits (x.env N tpq first) d m := ⟨ht, hd, by simp only [Extras.env]; omega, by simp only [Extras.env]; simp only at h1; rw [h1]⟩
    obtain ⟨r, r1, r2, r3⟩ := measure_reread (x.env N tpq first) d m hsuit h2
    have r2' : r.ticksPerQuarter = tpq := r2
    obtain ⟨rs, t, i1, i2, i3⟩ := ih false tpq (fun y hy => hm y (by simp [hy])) (fun _ => rfl)
    refine ⟨r :: rs, t, ?_, ?_, allPairs_cons r3 i3⟩
    · have r1' : readElems ⟨N, tpq⟩ false (writeMeasure (x.env N tpq first) m) (initRSt d) = some r := r1
      simp only [writeMeasuresFrom, readMeasures, Option.bind_eq_bind]
      rw [r1']
      simp only [Option.bind_some]
      rw [r2', i1]
      rfl
    · intro _
      cases ms with
      | nil => simp only [writeMeasuresFrom, readMeasures, Option.some.injEq, Prod.mk.injEq] at i1; exact i1.2.symm
      | cons y ys => exact i2 (by simp)

/-- no number above `N` -/
def Below (N : Int) (b : Attributes P) (o : List (Elem P)) : Prop :=
  (∀ s, b.staves = some s → s ≤ N) ∧ ∀ e ∈ o, ∀ s, (Child.mk e none).staff = some s → s ≤ N

theorem closed_below (N : Int) : Closed N (Below (P := P) N) where
  key := fun _ _ _ _ h => h
  clef := fun _ _ _ _ _ h => h
  full := by
    intro b o _ h
    refine ⟨by simp, ?_⟩
    intro e he s hs
    rcases List.mem_append.mp he with he | he
    · exact h.2 e he s hs
    · simp only [List.mem_singleton] at he
      subst he
      exact h.1 s hs
  empty := fun b o _ h => ⟨by simp, h.2⟩
  forward := by
    intro d b o h
    refine ⟨h.1, ?_⟩
    intro e he s hs
    rcases List.mem_append.mp he with he | he
    · exact h.2 e he s hs
    · simp only [List.mem_singleton] at he; subst he; simp [Child.staff] at hs
  backup := by
    intro d b o h
    refine ⟨h.1, ?_⟩
    intro e he s hs
    rcases List.mem_append.mp he with he | he
    · exact h.2 e he s hs
    · simp only [List.mem_singleton] at he; subst he; simp [Child.staff] at hs
  direction := by
    intro st off c b o hst h
    refine ⟨h.1, ?_⟩
    intro e he s hs
    rcases List.mem_append.mp he with he | he
    · exact h.2 e he s hs
    · simp only [List.mem_singleton] at he; subst he; exact (hst s hs).2
  note := by
    intro n b o hst h
    refine ⟨h.1, ?_⟩
    intro e he s hs
    rcases List.mem_append.mp he with he | he
    · exact h.2 e he s hs
    · simp only [List.mem_singleton] at he; subst he; exact (hst s hs).2

/-- attributes with a certain value are to come or were written -/
def Seen {X : Type} (f : Attributes P → Option X) (x : X) (b : Attributes P) (o : List (Elem P)) : Prop :=
  f b = some x ∨ ∃ a, Elem.attributes a ∈ o ∧ f a = some x

theorem closed_seen {X : Type} (N : Int) (f : Attributes P → Option X) (x : X) (hk : ∀ i k b, f (writeKey i k b) = f b) (hc : ∀ i k b, f (writeClef i k b) = f b)
    (he : ∀ b, b.hasContents = false → f b = none) : Closed N (Seen f x) where
  key := fun i k b o h => by unfold Seen at *; rw [hk]; exact h
  clef := fun i k b o _ h => by unfold Seen at *; rw [hc]; exact h
  full := fun b o _ h => by
    rcases h with h | ⟨a, ha, h⟩
    · exact .inr ⟨b, by simp, h⟩
    · exact .inr ⟨a, by simp [ha], h⟩
  empty := fun b o hb h => by
    rcases h with h | h
    · rw [he b hb] at h; simp at h
    · exact .inr h
  forward := fun d b o h => h.imp id (fun ⟨a, ha, h⟩ => ⟨a, by simp [ha], h⟩)
  backup := fun d b o h => h.imp id (fun ⟨a, ha, h⟩ => ⟨a, by simp [ha], h⟩)
  direction := fun s of c b o _ h => h.imp id (fun ⟨a, ha, h⟩ => ⟨a, by simp [ha], h⟩)
  note := fun n b o _ h => h.imp id (fun ⟨a, ha, h⟩ => ⟨a, by simp [ha], h⟩)

/-- all attributes have a certain value or none -/
def Only {X : Type} (f : Attributes P → Option X) (x : X) (b : Attributes P) (o : List (Elem P)) : Prop :=
  (∀ y, f b = some y → y = x) ∧ ∀ a, Elem.attributes a ∈ o → ∀ y, f a = some y → y = x

theorem closed_only {X : Type} (N : Int) (f : Attributes P → Option X) (x : X) (hk : ∀ i k b, f (writeKey i k b) = f b) (hc : ∀ i k b, f (writeClef i k b) = f b)
    (he : f {} = none) : Closed N (Only f x) where
  key := fun i k b o h => by unfold Only at *; rw [hk]; exact h
  clef := fun i k b o _ h => by unfold Only at *; rw [hc]; exact h
  full := fun b o _ h => by
    refine ⟨by rw [he]; simp, ?_⟩
    intro a ha
    rcases List.mem_append.mp ha with ha | ha
    · exact h.2 a ha
    · simp only [List.mem_singleton, Elem.attributes.injEq] at ha; subst ha; exact h.1
  empty := fun b o _ h => ⟨by rw [he]; simp, h.2⟩
  forward := fun d b o h => ⟨h.1, fun a ha => h.2 a (by simpa using ha)⟩
  backup := fun d b o h => ⟨h.1, fun a ha => h.2 a (by simpa using ha)⟩
  direction := fun s of c b o _ h => ⟨h.1, fun a ha => h.2 a (by simpa using ha)⟩
  note := fun n b o _ h => ⟨h.1, fun a ha => h.2 a (by simpa using ha)⟩

theorem written_below (env : WEnv) (m : MeasureData P) : Below (m.staves.length : Int) {} (writeMeasure env m) := by
  refine closed_measure (closed_below _) env m (le_refl _) ?_ ?_ ?_
  · intro o b _ a h
    refine ⟨h.1, ?_⟩
    intro e he s hs
    rcases List.mem_append.mp he with he | he
    · exact h.2 e he s hs
    · simp only [List.mem_singleton] at he; subst he; simp [Child.staff, barlineElem] at hs
  · intro o a h
    refine ⟨h.1, ?_⟩
    intro e he s hs
    rcases List.mem_append.mp he with he | he
    · exact h.2 e he s hs
    · simp only [List.mem_singleton] at he; subst he; simp [Child.staff] at hs
  · refine ⟨?_, by simp⟩
    intro s hs
    simp only [globalsStart] at hs
    split at hs
    · simp only [Option.some.injEq] at hs; omega
    · simp at hs

theorem written_seen {X : Type} (env : WEnv) (m : MeasureData P) (f : Attributes P → Option X) (x : X) (hk : ∀ i k b, f (writeKey i k b) = f b)
    (hc : ∀ i k b, f (writeClef i k b) = f b) (he : ∀ b, b.hasContents = false → f b = none) (h0 : f (globalsStart env m) = some x) :
    ∃ a, Elem.attributes a ∈ writeMeasure env m ∧ f a = some x := by
  have := closed_measure (closed_seen (m.staves.length : Int) f x hk hc he) env m (le_refl _)
    (fun o b _ a h => h.imp id (fun ⟨a, ha, h⟩ => ⟨a, by simp [ha], h⟩)) (fun o a h => h.imp id (fun ⟨a, ha, h⟩ => ⟨a, by simp [ha], h⟩)) (.inl h0)
  rcases this with h | h
  · rw [he {} rfl] at h; simp at h
  · exact h

theorem written_only {X : Type} (env : WEnv) (m : MeasureData P) (f : Attributes P → Option X) (x : X) (hk : ∀ i k b, f (writeKey i k b) = f b)
    (hc : ∀ i k b, f (writeClef i k b) = f b) (he : f {} = none) (h0 : ∀ y, f (globalsStart env m) = some y → y = x) :
    ∀ a, Elem.attributes a ∈ writeMeasure env m → ∀ y, f a = some y → y = x := by
  have := closed_measure (closed_only (m.staves.length : Int) f x hk hc he) env m (le_refl _)
    (fun o b _ a h => ⟨h.1, fun a ha => h.2 a (by simpa [barlineElem] using ha)⟩) (fun o a h => ⟨h.1, fun a ha => h.2 a (by simpa using ha)⟩)
    ⟨h0, by simp⟩
  exact this.2

theorem mem_writeMeasuresFrom {n tpq : Int} : ∀ {ms : List (Extras × MeasureData P)} {first : Bool} {es : List (Elem P)},
    es ∈ writeMeasuresFrom n tpq first ms → ∃ x ∈ ms, ∃ b, es = writeMeasure (x.1.env n tpq b) x.2 := by
  intro ms
  induction ms with
  | nil => intro first es h; simp [writeMeasuresFrom] at h
  | cons x ms ih =>
    intro first es h
    obtain ⟨x, m⟩ := x
    simp only [writeMeasuresFrom, List.mem_cons] at h
    rcases h with rfl | h
    · exact ⟨(x, m), by simp, first, rfl⟩
    · obtain ⟨y, hy, b, h⟩ := ih h
      exact ⟨y, by simp [hy], b, h⟩

theorem hasContents_staves {a : Attributes P} (h : a.hasContents = false) : a.staves = none := by
  unfold Attributes.hasContents at h
  simp at h
  exact h.1.1.1.1.2

/-- The reader counts as many staves as were written. -/
theorem written_staffCount (N : Nat) (tpq : Int) (hN : 1 ≤ N) (x : Extras) (m : MeasureData P) (ms : List (Extras × MeasureData P))
    (h : ∀ y ∈ (x, m) :: ms, y.2.staves.length = N) :
    calculateNumStaves (asChildren (writeMeasuresFrom N tpq true ((x, m) :: ms))) = N := by
  refine staffCount_unique (calculateNumStaves_spec _) ⟨by omega, ?_, ?_⟩
  · rintro k ⟨es, hes, c, hc, hk⟩
    simp only [asChildren, List.mem_map] at hes
    obtain ⟨es, hes, rfl⟩ := hes
    obtain ⟨e, he, rfl⟩ := List.mem_map.mp hc
    obtain ⟨y, hy, b, rfl⟩ := mem_writeMeasuresFrom hes
    have := (written_below (y.1.env N tpq b) y.2).2 e he k ((Child.staff_iff _ _).mpr hk)
    rw [h y hy] at this
    exact this
  · by_cases h1 : N = 1
    · left; simp [h1]
    · right
      have hl := h (x, m) (by simp)
      simp only at hl
      obtain ⟨a, ha, hs⟩ := written_seen (x.env N tpq true) m (fun a => a.staves) (N : Int) (fun _ _ _ => rfl) (fun _ _ _ => rfl)
        (fun b hb => hasContents_staves hb) (by
          simp only [globalsStart, Extras.env]
          rw [hl]; simp; omega)
      refine ⟨(writeMeasure (x.env N tpq true) m).map (fun e => { elem := e }), ?_, { elem := .attributes a }, ?_, ?_⟩
      · simp [asChildren, writeMeasuresFrom]
      · exact List.mem_map.mpr ⟨_, ha, rfl⟩
      · exact .inr (.inr (.inr ⟨a, rfl, hs⟩))

theorem partElems_asChildren (es : List (List (Elem P))) : partElems (asChildren es) = es := by
  unfold partElems asChildren
  rw [List.map_map]
  have : ∀ m ∈ es, ((fun m : List (Child P) => m.map (·.elem)) ∘ (fun m : List (Elem P) => m.map (fun e => ({ elem := e } : Child P)))) m = m := by
    intro m _
    simp [Function.comp_def]
  rw [List.map_congr_left this, List.map_id'' (fun _ => rfl)]

/-- **C60** A part is loaded as it was written: as many measures in the same order, as many staves, and in each measure the same voices, notes, directions, clefs and barlines
(`Spec.SameMeasure`); the divisions of other parts (`divisionsValue`) do not matter.  Conditions: those of C03 for each measure, and all measures of the part have the
same number of staves. -/
theorem C60_part_round_trip_partial (tpq divisionsValue : Int) (transposition : Option Extras) (ms : List (Extras × MeasureData P)) (ht : 0 < tpq)
    (h : PartReadable ms) :
    ∃ out, getPartData tpq divisionsValue (asChildren (writePart tpq transposition ms)) = some (out, tpq) ∧
      AllPairs (fun x m' => SameMeasure x.2 m') ms out := by
  obtain ⟨hne, ⟨N, hN, hl⟩, hm⟩ := h
  obtain ⟨⟨x, m⟩, rest, rfl⟩ := List.exists_cons_of_ne_nil hne
  have hl0 := hl (x, m) (by simp)
  simp only at hl0
  have hw : writePart tpq transposition ((x, m) :: rest) = writeMeasuresFrom N tpq true ((x, m) :: rest) := by
    unfold writePart
    simp only
    rw [hl0]
  obtain ⟨rs, t, e1, e2, e3⟩ := measures_reread N tpq hN ht ((x, m) :: rest) true
    (if divisionsValue > 0 then divisionsValue else tpq) (fun y hy => ⟨hl y hy, hm y hy⟩) (by simp)
  have e2' := e2 (by simp)
  subst e2'
  refine ⟨rs.map (measureOf ⟨N, t⟩), ?_, ?_⟩
  · unfold getPartData partEnv readPart
    rw [hw, written_staffCount N t hN x m rest hl, partElems_asChildren]
    simp only
    rw [e1]
    rfl
  · refine ⟨by rw [List.length_map]; exact e3.1, ?_⟩
    intro i a b ha hb
    rw [List.getElem?_map, Option.map_eq_some_iff] at hb
    obtain ⟨r, hr, rfl⟩ := hb
    exact e3.2 i a r ha hr

theorem hasContents_divisions {a : Attributes P} (h : a.hasContents = false) : a.divisions = none := (hasContents_false h).1

theorem written_divisions (tpq : Int) (ht : 0 < tpq) (tr : Option Extras) (ms : List (Extras × MeasureData P)) (hne : ms ≠ []) :
    (∃ es ∈ writePart tpq tr ms, ∃ a, Elem.attributes a ∈ es ∧ a.divisions = some (tpq * MICRO)) ∧
    ∀ es ∈ writePart tpq tr ms, ∀ a, Elem.attributes a ∈ es → ∀ d, a.divisions = some d → d = tpq * MICRO := by
  obtain ⟨⟨x, m⟩, rest, rfl⟩ := List.exists_cons_of_ne_nil hne
  unfold writePart
  simp only
  have hdm : durMicro tpq = tpq * MICRO := by unfold durMicro; rw [if_pos ht]
  constructor
  · obtain ⟨a, ha, hs⟩ := written_seen (x.env m.staves.length tpq true) m (fun a => a.divisions) (tpq * MICRO) (fun _ _ _ => rfl) (fun _ _ _ => rfl)
      (fun b hb => hasContents_divisions hb) (by simp only [globalsStart, Extras.env, if_true]; rw [hdm])
    exact ⟨_, by simp only [writeMeasuresFrom]; exact List.mem_cons_self, a, ha, hs⟩
  · intro es hes a ha d hd
    obtain ⟨y, hy, b, rfl⟩ := mem_writeMeasuresFrom hes
    refine written_only (y.1.env m.staves.length tpq b) y.2 (fun a => a.divisions) (tpq * MICRO) (fun _ _ _ => rfl) (fun _ _ _ => rfl) rfl ?_ a ha d hd
    intro z hz
    simp only [globalsStart, Extras.env] at hz
    cases b with
    | true => simp only [if_true, Option.some.injEq] at hz; rw [← hz, hdm]
    | false => simp at hz

/-- The ticks per quarter of a written score are found again. -/
theorem written_scale (tpq : Int) (ht : 0 < tpq) (hm : tpq ≤ INT_MAX) (parts : List (List (List (Elem P)))) (hne : parts ≠ [])
    (h : ∀ p ∈ parts, (∃ es ∈ p, ∃ a, Elem.attributes a ∈ es ∧ a.divisions = some (tpq * MICRO)) ∧
      ∀ es ∈ p, ∀ a, Elem.attributes a ∈ es → ∀ d, a.divisions = some d → d = tpq * MICRO) :
    findMaxDivisionsPerQuarter parts = .ok tpq := by
  have hr : roundMicro (tpq * MICRO) = tpq := roundMicro_mul tpq
  have hall : ∀ d ∈ foundDivisions parts, d = tpq := by
    intro d hd
    obtain ⟨_, p, hp, m, hm, a, ha, x, hx, rfl⟩ := (mem_foundDivisions parts d).mp hd
    rw [(h p hp).2 m hm a ha x hx, hr]
  have hmem : tpq ∈ foundDivisions parts := by
    obtain ⟨p, hp⟩ := List.exists_mem_of_ne_nil _ hne
    obtain ⟨es, hes, a, ha, hx⟩ := (h p hp).1
    exact (mem_foundDivisions parts tpq).mpr ⟨ht, p, hp, es, hes, a, ha, _, hx, hr⟩
  obtain ⟨l, l0, l1, l2, l3⟩ := C06_lcm_set (foundDivisions parts)
    (fun x hx => by rw [hall x hx]; exact ⟨⟨by unfold INT_MAX; omega, hm⟩, by omega⟩) (List.ne_nil_of_mem hmem)
  have e1 : tpq ∣ l := l1 tpq hmem
  have e2 : l ∣ tpq := l2 tpq (fun x hx => by rw [hall x hx])
  have e3 : l = tpq := Int.dvd_antisymm (by omega) (by omega) e2 e1
  unfold findMaxDivisionsPerQuarter
  rw [l3, e3, if_pos hm]

theorem reconcile_same {X : Type} : ∀ (ps : List (Str × X)), (ps.map (·.1)).Nodup → reconcileParts (ps.map (·.1)) ps = ps.map (·.2) := by
  have key : ∀ (ps all : List (Str × X)), (all.map (·.1)).Nodup → (∀ p ∈ ps, p ∈ all) → reconcileParts (ps.map (·.1)) all = ps.map (·.2) := by
    intro ps
    induction ps with
    | nil => intro all _ _; rfl
    | cons p ps ih =>
      intro all hn hsub
      have hf : all.find? (fun q => decide (q.1 = p.1)) = some p := by
        have hp := hsub p (by simp)
        cases hfd : all.find? (fun q => decide (q.1 = p.1)) with
        | none =>
          have := List.find?_eq_none.mp hfd p hp
          simp at this
        | some q =>
          have hq1 := List.mem_of_find?_eq_some hfd
          have hq2 := List.find?_some hfd
          have hq2 := of_decide_eq_true hq2
          have : q = p := List.inj_on_of_nodup_map hn hq1 hp hq2
          rw [this]
      have h2 := ih all hn (fun q hq => hsub q (by simp [hq]))
      unfold reconcileParts at h2 ⊢
      simp only [List.map_cons, List.filterMap_cons]
      rw [hf]
      simp only [Option.map_some]
      rw [h2]
  intro ps hn
  exact key ps ps hn (fun p hp => hp)

theorem getParts_reread (tpq : Int) (ht : 0 < tpq) : ∀ (ps : List (PartData P)) (dv : Int), (∀ p ∈ ps, PartReadable p.measures) →
    ∃ out, getParts tpq dv (ps.map (fun p => asChildren (writePart tpq p.transposition p.measures))) = some out ∧
      AllPairs (fun p o => AllPairs (fun x m' => SameMeasure x.2 m') p.measures o) ps out := by
  intro ps
  induction ps with
  | nil => intro dv _; exact ⟨[], rfl, allPairs_nil⟩
  | cons p ps ih =>
    intro dv h
    obtain ⟨o, a1, a2⟩ := C60_part_round_trip_partial tpq dv p.transposition p.measures ht (h p (by simp))
    obtain ⟨out, b1, b2⟩ := ih tpq (fun q hq => h q (by simp [hq]))
    refine ⟨o :: out, ?_, allPairs_cons a2 b2⟩
    simp only [List.map_cons, getParts, Option.bind_eq_bind]
    rw [a1]
    simp only [Option.bind_some]
    rw [b1]
    rfl

/-- **C60** A whole score is loaded as it was written: the same ticks per quarter, as many parts in the same order, and each part as in the theorem above.  Any number of parts, measures, staves,
voices and notes.

Conditions: the ids of the parts (as XML ids) are different, the parts have measures, all measures of a part have the same number of staves, each measure meets the conditions
of C03.  Without them the property is false, see below. -/
theorem C60_score_round_trip_partial (tpq : Int) (parts : List (PartData P)) (ht : 0 < tpq) (hm : tpq ≤ INT_MAX) (hne : parts ≠ [])
    (hid : (parts.map (fun p => xsID p.uniqueId)).Nodup) (h : ∀ p ∈ parts, PartReadable p.measures) :
    ∃ out, rereadScore tpq parts = some (tpq, out) ∧
      AllPairs (fun p o => AllPairs (fun x m' => SameMeasure x.2 m') p.measures o) parts out := by
  obtain ⟨out, a1, a2⟩ := getParts_reread tpq ht parts (-1) h
  refine ⟨out, ?_, a2⟩
  have hw : writeScore tpq parts = (parts.map (fun q => xsID q.uniqueId), parts.map (fun q => (xsID q.uniqueId, writePart tpq q.transposition q.measures))) := by
    obtain ⟨p, ps, rfl⟩ := List.exists_cons_of_ne_nil hne
    rfl
  unfold rereadScore getScore
  rw [hw]
  simp only [List.map_map]
  have hs : findMaxDivisionsPerQuarter (parts.map ((fun p : Str × List (List (Child P)) => partElems p.2) ∘
      ((fun p : Str × List (List (Elem P)) => (p.1, asChildren p.2)) ∘ fun q : PartData P => (xsID q.uniqueId, writePart tpq q.transposition q.measures)))) = .ok tpq := by
    apply written_scale tpq ht hm
    · simpa using hne
    · intro p hp
      obtain ⟨q, hq, rfl⟩ := List.mem_map.mp hp
      simp only [Function.comp_def, partElems_asChildren]
      exact written_divisions tpq ht q.transposition q.measures (h q hq).nonempty
  rw [hs]
  simp only
  have hr := reconcile_same (parts.map (fun q => (xsID q.uniqueId, asChildren (writePart tpq q.transposition q.measures))))
    (by rw [List.map_map]; exact hid)
  rw [List.map_map, List.map_map] at hr
  have hr' : reconcileParts (parts.map (fun q => xsID q.uniqueId)) (parts.map ((fun p : Str × List (List (Elem P)) => (p.1, asChildren p.2)) ∘
      fun q : PartData P => (xsID q.uniqueId, writePart tpq q.transposition q.measures))) =
      parts.map (fun p => asChildren (writePart tpq p.transposition p.measures)) := hr
  rw [hr', a1]
  rfl

/-- nothing is written before the measure but a time signature -/
def exExtras : Extras := ⟨true, false, 0⟩

/-- a measure with one note on one staff -/
def exOne (s : String) : MeasureData String :=
  { staves := [{ clefs := [], keys := [], voices := [(0, [exNote 0 4 false s])], directions := [] }], keys := [], barlines := [] }

/-- two parts, one of two measures with two staves, one of one measure with one staff -/
def exTwoParts : List (PartData String) :=
  [{ uniqueId := chars "P1", measures := [(exExtras, exMeasure), (⟨false, false, 1⟩, exMeasure)] },
   { uniqueId := chars "P2", measures := [(exExtras, exOne "c")] }]

instance (m : MeasureData P) : Decidable (MeasureReadable m) :=
  decidable_of_iff (MeasureKept m ∧ (∀ s ∈ m.staves, StaffReadable s) ∧ ∀ b ∈ m.barlines, b.tick ≤ TICK_TIME_INFINITY)
    ⟨fun ⟨a, b, c⟩ => ⟨a, b, c⟩, fun ⟨a, b, c⟩ => ⟨a, b, c⟩⟩

/-- The example meets the conditions. -/
example : (exTwoParts.map (fun p => xsID p.uniqueId)).Nodup ∧ ∀ p ∈ exTwoParts, PartReadable p.measures := by
  refine ⟨by decide +kernel, ?_⟩
  intro p hp
  simp only [exTwoParts, List.mem_cons, List.not_mem_nil, or_false] at hp
  rcases hp with rfl | rfl
  · exact ⟨by simp, ⟨2, by decide, by decide⟩, by decide⟩
  · exact ⟨by simp, ⟨1, by decide, by decide⟩, by decide⟩

/-- the notes of each measure of each part, with the staff they are on -/
def rereadNotes (tpq : Int) (parts : List (PartData String)) : Option (Int × List (List (List (List String)))) :=
  (rereadScore tpq parts).map (fun r => (r.1, r.2.map (fun p => p.map (fun m => m.staves.map (fun s => s.voices.flatMap (fun v => v.2.map (·.content)))))))

/-- **C60 is false for parts with the same id**, for example two parts whose `uniqueId` was not set: the music of the second part is lost, the first part appears twice. -/
theorem C60_same_id_loses_part :
    rereadNotes 4 [{ uniqueId := [], measures := [(exExtras, exOne "violin")] }, { uniqueId := [], measures := [(exExtras, exOne "cello")] }] =
      some (4, [[[["violin"]]], [[["violin"]]]]) := by decide +kernel

/-- **C60 is false for different ids which are the same after the characters that an XML id cannot have are replaced.** -/
theorem C60_similar_id_loses_part :
    rereadNotes 4 [{ uniqueId := chars "Violin 1", measures := [(exExtras, exOne "a")] }, { uniqueId := chars "Violin_1", measures := [(exExtras, exOne "b")] }] =
      some (4, [[[["a"]]], [[["a"]]]]) := by decide +kernel

/-- **C60 is false for a part without measures** (it comes back with one) **and for a score without parts** (it comes back with one part; ticks per quarter become 0). -/
theorem C60_empty_not_kept :
    rereadNotes 4 [{ uniqueId := chars "P1", measures := [] }, { uniqueId := chars "P2", measures := [(exExtras, exOne "a")] }] = some (4, [[[[]]], [[["a"]]]]) ∧
    rereadNotes 4 [] = some (0, [[[[]]]]) := ⟨by decide +kernel, by decide +kernel⟩

/-- **C60 is false if a later measure has more staves than the first one**: the notes of the additional staff come back on the first staff. -/
theorem C60_later_staff_lost :
    rereadNotes 4 [{ uniqueId := chars "P1", measures := [(exExtras, exOne "a"), (⟨false, false, 0⟩,
      { staves := [⟨[], [], [(0, [exNote 0 4 false "b"])], []⟩, ⟨[], [], [(0, [exNote 0 4 false "c"])], []⟩], keys := [], barlines := [] })] }] =
      some (4, [[[["a"]], [["b", "c"]]]]) := by decide +kernel

end Mx.Props
