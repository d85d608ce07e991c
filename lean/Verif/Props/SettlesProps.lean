import Verif.Proofs.LoadedSettles
import Verif.Proofs.WrittenForward
import Verif.Props.MeasureCompleteProps

/-
C90: measures settle after one or two round trips.
-/
open Spec
namespace Mx.Props
open _root_.Spec Mx.Measure

variable {P : Type}

/-- Writing and reading a measure `k` times. -/
def roundTrips (env : WEnv) (divisionsBefore : Int) : Nat → MeasureData P → Option (MeasureData P)
  | 0, m => some m
  | k + 1, m => (writeThenRead env divisionsBefore m).bind (roundTrips env divisionsBefore k)

/-- What is known of a measure that has been read. -/
structure Settled (env : WEnv) (divisionsBefore : Int) (m : MeasureData P) : Prop where
  suits : Suits env divisionsBefore m
  ok : MeasureKept m
  readable : ∀ s ∈ m.staves, StaffReadable s
  noEmpty : ∀ s ∈ m.staves, NoEmpty s.voices
  flags : ∀ (i : Nat) (s : StaffData P), m.staves[i]? = some s → i ≠ 0 → ∀ d ∈ s.directions, d.isStaffValueSpecified = true

theorem suits_length {env : WEnv} {divisionsBefore : Int} {m m' : MeasureData P} (h : Suits env divisionsBefore m) (e : m'.staves.length = m.staves.length) :
    Suits env divisionsBefore m' := ⟨h.scale, h.known, h.positive, by rw [e]; exact h.staves⟩

/-- The staff of a measure at the place of a staff of another one. -/
theorem staff_at {m m' : MeasureData P} (e : m'.staves.length = m.staves.length) {i : Nat} {s' : StaffData P} (h : m'.staves[i]? = some s') : ∃ s, m.staves[i]? = some s := by
  have := (List.getElem?_eq_some_iff.mp h).1
  exact ⟨m.staves[i], List.getElem?_eq_getElem (by omega)⟩

theorem flags_after {env : WEnv} {divisionsBefore : Int} {m m' : MeasureData P} (h : Suits env divisionsBefore m) (hm : MeasureKept m)
    (hk : ∀ s ∈ m.staves, ∀ v ∈ s.voices, 0 ≤ v.1) (hr : writeThenRead env divisionsBefore m = some m') (i : Nat) (s' : StaffData P) (hs : m'.staves[i]? = some s') (hi : i ≠ 0) :
    ∀ d ∈ s'.directions, d.isStaffValueSpecified = true := by
  obtain ⟨m'', h1, h2, h3⟩ := C45_directions_keep_time_partial env divisionsBefore m h hm hk
  rw [hr] at h1
  cases h1
  obtain ⟨s, hs0⟩ := staff_at h2 hs
  intro d hd
  rw [h3 i s s' hs0 hs] at hd
  obtain ⟨x, _, rfl⟩ := List.mem_map.mp hd
  simp [hi]

/-- After one round trip a measure has settled. -/
theorem settled_first (env : WEnv) (divisionsBefore : Int) (m : MeasureData P) (h : Suits env divisionsBefore m) (hm : MeasureKept m)
    (hn : ∀ s ∈ m.staves, VoicesNumbered s) :
    ∃ m', writeThenRead env divisionsBefore m = some m' ∧ Settled env divisionsBefore m' := by
  obtain ⟨m', r, e, h1, h2, h3, h4, _⟩ := writeThenRead_staves env divisionsBefore m h hm (fun s hs => (hn s hs).1)
  have key : ∀ s' ∈ m'.staves, StaffReadable s' ∧ (∀ w ∈ s'.voices, VoiceKept w.2) ∧ NoEmpty s'.voices := by
    intro s' hs'
    obtain ⟨i, hi⟩ := List.getElem?_of_mem hs'
    obtain ⟨s, hs⟩ := staff_at h2 hi
    have hx := h3 i s hs
    rw [hi] at hx
    simp only [Option.some.injEq] at hx
    have hmem := List.mem_of_getElem? hs
    obtain ⟨acc, ha⟩ := filter_stavesRead m.staves 0 (0, 0) i s hs
    simp only [zero_add] at ha
    have hv : s'.voices = consolidate ((voicesRead i acc s.voices).foldl (fun m r => insertNote r.voice r.note m) []) := by
      rw [hx]
      show consolidate (voicesOf i r.notes) = _
      unfold voicesOf
      rw [h4, ha]
    have := voices_settle i acc s.voices (hm s hmem) (hn s hmem).1 (hn s hmem).2 s'.clefs s'.keys s'.directions
    rw [← hv] at this
    exact this
  refine ⟨m', h1, suits_length h h2, fun s hs => (key s hs).2.1, fun s hs => (key s hs).1, fun s hs => (key s hs).2.2, ?_⟩
  exact flags_after h hm (fun s hs => (hn s hs).1) h1

/-- Further round trips. -/
theorem settled_next {env : WEnv} {divisionsBefore : Int} {m : MeasureData P} (h : Settled env divisionsBefore m) :
    ∃ m', writeThenRead env divisionsBefore m = some m' ∧ Settled env divisionsBefore m' ∧ m'.staves.map (·.voices) = m.staves.map voicesExpected ∧
      directionsOf m' = directionsOf m := by
  have hk : ∀ s ∈ m.staves, ∀ v ∈ s.voices, 0 ≤ v.1 := fun s hs => (h.readable s hs).keys
  obtain ⟨m', h1, h2⟩ := C03_measure_round_trip_partial env divisionsBefore m h.suits h.ok h.readable
  obtain ⟨m'', g1, g2, g3⟩ := C45_directions_keep_time_partial env divisionsBefore m h.suits h.ok hk
  rw [h1] at g1
  cases g1
  have hv : ∀ s' ∈ m'.staves, ∃ s ∈ m.staves, s'.voices = voicesExpected s := by
    intro s' hs'
    obtain ⟨i, hi⟩ := List.getElem?_of_mem hs'
    obtain ⟨s, hs⟩ := staff_at g2 hi
    refine ⟨s, List.mem_of_getElem? hs, ?_⟩
    have := congrArg (fun l => l[i]?) h2
    simp only [List.getElem?_map, hi, hs, Option.map_some, Option.some.injEq] at this
    exact this
  refine ⟨m', h1, ⟨suits_length h.suits g2, ?_, ?_, ?_, flags_after h.suits h.ok hk h1⟩, h2, ?_⟩
  · intro s' hs'
    obtain ⟨s, hs, e⟩ := hv s' hs'
    exact voiceOk_expected (h.ok s hs) e
  · intro s' hs'
    obtain ⟨s, hs, e⟩ := hv s' hs'
    exact readable_expected (h.readable s hs) e
  · intro s' hs'
    obtain ⟨s, hs, e⟩ := hv s' hs'
    exact noEmpty_expected e
  · unfold directionsOf
    refine staves_ext _ _ g2 (fun i s hi => ?_)
    have hlt := (List.getElem?_eq_some_iff.mp hi).1
    have hs' : m'.staves[i]? = some (m'.staves[i]'(by omega)) := List.getElem?_eq_getElem (by omega)
    refine ⟨_, hs', ?_⟩
    rw [g3 i s _ hi hs']
    conv_rhs => rw [← List.map_id s.directions]
    apply List.map_congr_left
    intro d hd
    by_cases h0 : i = 0
    · subst h0
      cases d; simp
    · have := h.flags i s hi h0 d hd
      cases d
      simp only at this
      subst this
      simp

theorem settled_music {m m' : MeasureData P} (hn : ∀ s ∈ m.staves, NoEmpty s.voices) (h : m'.staves.map (·.voices) = m.staves.map voicesExpected) : music m' = music m := by
  have h1 : music m' = (m'.staves.map (·.voices)).map (fun l => l.map (fun v => (v.1, v.2.map (fun n => { n with userVoice := 0 })))) := by
    unfold music; rw [List.map_map]; rfl
  rw [h1, h, List.map_map]
  unfold music
  apply List.map_congr_left
  intro s hs
  exact expected_music s (hn s hs)

/-- **C90** A measure settles after one round trip: however its voices overlap, go back, have chords of one note, chords of unequal notes or gaps, once it has been written and read, every further
writing and reading gives the same voices with the same notes at the same times and the same directions (voices carry their own numbers; those the notes carry follow them in the second round trip, see
`C90_numbers_once`).  This is so if no time and no length is negative, grace notes have no length, and no chord note that has a length is followed by a note outside the chord at the same time
(`MeasureKept`).  All other measures settle too, but may need two round trips: `C90_any`, `C90_twice_needed`. -/
theorem C90_once (env : WEnv) (divisionsBefore : Int) (m : MeasureData P) (h : Suits env divisionsBefore m) (hm : MeasureKept m)
    (hn : ∀ s ∈ m.staves, VoicesNumbered s) :
    ∃ m1, writeThenRead env divisionsBefore m = some m1 ∧
      ∀ k, ∃ mk, roundTrips env divisionsBefore k m1 = some mk ∧ music mk = music m1 ∧ directionsOf mk = directionsOf m1 := by
  obtain ⟨m1, h1, hs⟩ := settled_first env divisionsBefore m h hm hn
  refine ⟨m1, h1, ?_⟩
  clear h1
  intro k
  induction k generalizing m1 with
  | zero => exact ⟨m1, rfl, rfl, rfl⟩
  | succ k ih =>
    obtain ⟨m2, g1, g2, g3, g4⟩ := settled_next hs
    obtain ⟨mk, e1, e2, e3⟩ := ih m2 g2
    refine ⟨mk, ?_, ?_, ?_⟩
    · rw [roundTrips, g1]; exact e1
    · rw [e2, settled_music hs.noEmpty g3]
    · rw [e3, g4]

/-- **C90** From the second round trip on nothing of the voices changes, not even the voice numbers that the notes carry: they are those of their voices. -/
theorem C90_numbers_once (env : WEnv) (divisionsBefore : Int) (m : MeasureData P) (h : Suits env divisionsBefore m) (hm : MeasureKept m)
    (hn : ∀ s ∈ m.staves, VoicesNumbered s) :
    ∃ m2, roundTrips env divisionsBefore 2 m = some m2 ∧ (∀ s ∈ m2.staves, ∀ v ∈ s.voices, ∀ n ∈ v.2, n.userVoice = v.1 + 1) ∧
      ∀ k, ∃ mk, roundTrips env divisionsBefore k m2 = some mk ∧ mk.staves.map (·.voices) = m2.staves.map (·.voices) := by
  obtain ⟨m1, h1, hs⟩ := settled_first env divisionsBefore m h hm hn
  obtain ⟨m2, g1, g2, g3, g4⟩ := settled_next hs
  clear g4
  have hv : ∀ s' ∈ m2.staves, ∃ s : StaffData P, s'.voices = voicesExpected s := by
    intro s' hs'
    have : s'.voices ∈ m2.staves.map (·.voices) := List.mem_map_of_mem hs'
    rw [g3] at this
    obtain ⟨s, _, e⟩ := List.mem_map.mp this
    exact ⟨s, e.symm⟩
  refine ⟨m2, by rw [roundTrips, h1]; show (writeThenRead env divisionsBefore m1).bind _ = _; rw [g1]; rfl, ?_, ?_⟩
  · intro s' hs' v hv' n hn'
    obtain ⟨s, e⟩ := hv s' hs'
    rw [e] at hv'
    obtain ⟨w, _, rfl⟩ := List.mem_map.mp hv'
    obtain ⟨x, _, rfl⟩ := List.mem_map.mp hn'
    rfl
  · clear h1 g1 g3 hs
    intro k
    induction k generalizing m2 with
    | zero => exact ⟨m2, rfl, rfl⟩
    | succ k ih =>
      obtain ⟨m3, f1, f2, f3, _⟩ := settled_next g2
      have hsame : m3.staves.map (·.voices) = m2.staves.map (·.voices) := by
        rw [f3]
        apply List.map_congr_left
        intro s hs
        obtain ⟨s0, e⟩ := hv s hs
        exact expected_expected e
      obtain ⟨mk, e1, e2⟩ := ih m3 f2 (by
        intro s' hs'
        have : s'.voices ∈ m3.staves.map (·.voices) := List.mem_map_of_mem hs'
        rw [f3] at this
        obtain ⟨s, _, e⟩ := List.mem_map.mp this
        exact ⟨s, e.symm⟩)
      exact ⟨mk, by rw [roundTrips, f1]; exact e1, by rw [e2, hsame]⟩

/-- **C90** The same holds for what is loaded from any file, whether this program has written it or another one: let the notes, backups, forwards, directions and attributes of a measure come in any
order, with any voice numbers and any divisions; once what has been read is saved and loaded, it stays as it is.
For files in which a chord note is on another staff than the note before it see `C90_any`; negative durations are not in any valid file. -/
theorem C90_loaded (env : WEnv) (divisionsBefore divisionsOfFile : Int) (es : List (Elem P)) (m : MeasureData P) (hscale : 0 < env.ticksPerQuarter) (hstaves : 1 ≤ env.numStaves)
    (hknown : env.isFirstMeasureInPart = false → divisionsBefore = env.ticksPerQuarter) (hd : 0 ≤ divisionsOfFile)
    (hr : readMeasure ⟨env.numStaves, env.ticksPerQuarter⟩ divisionsOfFile es = some m) (ht : ∀ e ∈ es, TimesForward e) (hc : ChordsOnOneStaff none es) :
    ∃ m1, writeThenRead env divisionsBefore m = some m1 ∧
      ∀ k, ∃ mk, roundTrips env divisionsBefore k m1 = some mk ∧ music mk = music m1 ∧ directionsOf mk = directionsOf m1 := by
  obtain ⟨h1, h2, h3⟩ := loaded_kept (le_of_lt hscale) hd hr ht hc
  exact C90_once env divisionsBefore m ⟨hscale, hknown, hstaves, by rw [h3]; simp only; omega⟩ h1 h2

/-- A file of another program: two staves, divisions 3, a chord with a direction inside, voices that go back twice, a note without a voice, a chord note at the beginning of a voice. -/
def foreign : List (Elem String) :=
  [.attributes { divisions := some 3000000, staves := some 2 }, .note ⟨false, .normal, 3000000, some 1, some 2, "c"⟩, .direction none 500000 "p", .note ⟨true, .normal, 2000000, some 1, some 2, "e"⟩,
   .note ⟨false, .grace, 0, some 1, some 1, "x"⟩, .note ⟨false, .normal, 1000000, none, none, "g"⟩, .backup 1000000, .backup 1000000, .note ⟨true, .normal, 3000000, some 1, some 1, "d"⟩, .forward 1000000,
   .note ⟨false, .normal, 3000000, some 2, some 5, "b"⟩, .backup 9000000, .note ⟨false, .normal, 6000000, some 2, some 5, "a"⟩]

/-- The example is read and meets the conditions. -/
example : ∃ m, readMeasure ⟨exEnv.numStaves, exEnv.ticksPerQuarter⟩ 1 foreign = some m ∧ (∀ e ∈ foreign, TimesForward e) ∧ ChordsOnOneStaff none foreign := by
  refine ⟨(readMeasure ⟨exEnv.numStaves, exEnv.ticksPerQuarter⟩ 1 foreign).getD ⟨[], [], []⟩, ?_, ?_, ?_⟩
  · decide +kernel
  · intro e he
    simp only [foreign, List.mem_cons, List.not_mem_nil, or_false] at he
    rcases he with rfl | rfl | rfl | rfl | rfl | rfl | rfl | rfl | rfl | rfl | rfl | rfl | rfl <;> simp [TimesForward]
  · simp [foreign, ChordsOnOneStaff, staffNumber]

/-- **C90** Every measure settles after the second round trip at the latest: there is no condition on its notes, which may be at any times, also before the beginning, in any order, with any lengths, also
negative ones or lengths of grace notes, and with any chord flags and voice numbers. -/
theorem C90_any (env : WEnv) (divisionsBefore : Int) (m : MeasureData P) (hd : 0 ≤ divisionsBefore) (h : Suits env divisionsBefore m) :
    ∃ m2, roundTrips env divisionsBefore 2 m = some m2 ∧
      ∀ k, ∃ mk, roundTrips env divisionsBefore k m2 = some mk ∧ music mk = music m2 ∧ directionsOf mk = directionsOf m2 := by
  obtain ⟨m1, h1, _⟩ := C71_notes env divisionsBefore m h
  obtain ⟨w1, w2⟩ := written_forward env m
  obtain ⟨m2, g1, g2⟩ := C90_loaded env divisionsBefore divisionsBefore (writeMeasure env m) m1 h.scale h.positive h.known hd h1 w1 w2
  refine ⟨m2, ?_, g2⟩
  rw [roundTrips, h1]
  show (writeThenRead env divisionsBefore m1).bind _ = _
  rw [g1]; rfl

/-- **C90** From the third round trip on nothing of the voices changes, not even the voice numbers that the notes carry. -/
theorem C90_numbers (env : WEnv) (divisionsBefore : Int) (m : MeasureData P) (hd : 0 ≤ divisionsBefore) (h : Suits env divisionsBefore m) :
    ∃ m3, roundTrips env divisionsBefore 3 m = some m3 ∧ (∀ s ∈ m3.staves, ∀ v ∈ s.voices, ∀ n ∈ v.2, n.userVoice = v.1 + 1) ∧
      ∀ k, ∃ mk, roundTrips env divisionsBefore k m3 = some mk ∧ mk.staves.map (·.voices) = m3.staves.map (·.voices) := by
  obtain ⟨m1, h1, h2, _⟩ := C71_notes env divisionsBefore m h
  obtain ⟨w1, w2⟩ := written_forward env m
  obtain ⟨k1, k2, _⟩ := loaded_kept (le_of_lt h.scale) hd h1 w1 w2
  obtain ⟨m3, g1, g2⟩ := C90_numbers_once env divisionsBefore m1 (suits_length h h2) k1 k2
  refine ⟨m3, ?_, g2⟩
  rw [roundTrips, h1]
  exact g1

/-- two staves; on the first, a voice that overlaps and goes back, with a chord of one note and one of two, and a voice that begins at its end; a grace note -/
def tangled : MeasureData String :=
  { staves :=
      [{ clefs := [], keys := [], directions := [⟨-2, false, "p"⟩, ⟨3, true, "f"⟩]
         voices := [(0, [exNote 4 4 true "c", exNote 2 4 false "d", { exGrace 6 "x" with isChord := false }, exNote 0 2 true "e", exNote 0 2 true "g"]), (2, [exNote 2 2 false "a"]), (3, [])] },
       { clefs := [], keys := [], directions := [⟨0, false, "ped"⟩], voices := [(1, [exNote 6 1 false "b", exNote 6 1 false "h"])] }]
    keys := [], barlines := [] }

/-- The example meets the conditions. -/
example : Suits exEnv 1 tangled ∧ MeasureKept tangled ∧ ∀ s ∈ tangled.staves, VoicesNumbered s := by
  refine ⟨⟨by decide, by decide, by decide, by decide⟩, by decide, ?_⟩
  intro s hs
  simp only [tangled, List.mem_cons, List.not_mem_nil, or_false] at hs
  rcases hs with rfl | rfl <;> refine ⟨by decide, by decide⟩

/-- what is read: voice numbers, and of each note its content, time and whether it is in a chord -/
def heard (m : Option (MeasureData String)) : Option (List (List (Int × List (String × Int × Bool)))) :=
  m.map (fun m => m.staves.map (fun s => s.voices.map (fun v => (v.1, v.2.map (fun n => (n.content, n.tick, n.isChord))))))

instance : DecidableEq (List (String × Int × Bool)) := inferInstance
instance : DecidableEq (Int × List (String × Int × Bool)) := inferInstance
instance : DecidableEq (Option (List (List (Int × List (String × Int × Bool))))) := inferInstance

/-- The first round trip changes the measure. -/
example : heard (roundTrips exEnv 1 1 tangled) =
    some [[(0, [("c", 4, false)]), (1, [("d", 2, false), ("x", 6, false)]), (2, [("e", 0, true), ("g", 0, true), ("a", 2, false)])], [(0, [("b", 6, false)]), (1, [("h", 6, false)])]] := by decide +kernel

/-- The second does not. -/
example : heard (roundTrips exEnv 1 2 tangled) = heard (roundTrips exEnv 1 1 tangled) := by decide +kernel

/-- a grace note that has been given a length, and a voice that begins with it -/
def graceWithLength : MeasureData String :=
  { staves := [{ clefs := [], keys := [], directions := [], voices := [(0, [{ exGrace 0 "x" with ticks := 1 }]), (1, [exNote 0 4 false "b"])] }], keys := [], barlines := [] }

/-- **C90** Two round trips can be needed: a grace note with a length is written without it, and the voices that are two after the first round trip are one after the second. -/
theorem C90_twice_needed : (∀ s ∈ graceWithLength.staves, VoicesNumbered s) ∧ Suits { exEnv with numStaves := 1 } 1 graceWithLength ∧
    heard (roundTrips { exEnv with numStaves := 1 } 1 1 graceWithLength) = some [[(0, [("x", 0, false)]), (1, [("b", 0, false)])]] ∧
    heard (roundTrips { exEnv with numStaves := 1 } 1 2 graceWithLength) = some [[(0, [("x", 0, false), ("b", 0, false)])]] := by
  refine ⟨?_, ⟨by decide, by decide, by decide, by decide⟩, by decide +kernel, by decide +kernel⟩
  intro s hs
  simp only [graceWithLength, List.mem_cons, List.not_mem_nil, or_false] at hs
  rcases hs with rfl
  refine ⟨by decide, by decide⟩

end Mx.Props
