import Verif.Proofs.MeasureRoundTripVoices
import Verif.Props.MeasureProps

/-!
# Properties C03, C45, C49, C50: a measure survives writing and reading
Specification: `Verif/Spec/MeasurePlan.lean` and `Verif/Spec/MeasureRoundTrip.lean`.
-/
namespace Mx.Props
open Spec Mx.Measure

variable {P : Type}

/-- What writing and then reading does to a measure; the writer has the settings `env`, the reader counts as many staves and the same
ticks per quarter. -/
def writeThenRead (env : WEnv) (divisionsBefore : Int) (m : MeasureData P) : Option (MeasureData P) :=
  readMeasure ⟨env.numStaves, env.ticksPerQuarter⟩ divisionsBefore (writeMeasure env m)

/-- The settings suit the measure: positive time scale, known to the reader (from this measure, if it is the first one, or from
an earlier one), at least one staff, and all staves of the part are present. -/
structure Suits (env : WEnv) (divisionsBefore : Int) (m : MeasureData P) : Prop where
  scale : 0 < env.ticksPerQuarter
  known : env.isFirstMeasureInPart = false → divisionsBefore = env.ticksPerQuarter
  positive : 1 ≤ env.numStaves
  staves : (m.staves.length : Int) = env.numStaves

/-- All facts about the result. -/
theorem writeThenRead_staves (env : WEnv) (divisionsBefore : Int) (m : MeasureData P) (h : Suits env divisionsBefore m)
    (hm : MeasureKept m) (hk : ∀ s ∈ m.staves, ∀ v ∈ s.voices, 0 ≤ v.1) :
    ∃ m' r endTick, writeThenRead env divisionsBefore m = some m' ∧ m'.staves.length = m.staves.length ∧
      (∀ (i : Nat) (s : StaffData P), m.staves[i]? = some s → m'.staves[i]? = some (staffOf r i)) ∧
      r.notes = stavesRead 0 (0, 0) m.staves ∧ r.directions = dirsRead 0 m.staves ∧
      r.clefs.map (fun c => (c.1, c.2.content)) = earlyClefs m.staves ++ lateClefs 0 m.staves ∧
      m'.barlines = (m.barlines.takeWhile (fun b => b.tick ≤ 0)).map (barRead 0) ++
        ((m.barlines.dropWhile (fun b => b.tick ≤ 0)).takeWhile (fun b => b.tick ≤ TICK_TIME_INFINITY)).map (barRead endTick) := by
  obtain ⟨r, e, h1, h2, h3, h4, h5, _⟩ := read_measure env m divisionsBefore h.scale h.known h.positive (le_of_eq h.staves) hm hk
  refine ⟨_, r, e, by unfold writeThenRead readMeasure; rw [h1]; rfl, ?_, ?_, h2, h3, h4, h5⟩
  · have := h.staves; simp; omega
  · intro i s hi
    have hlt := (List.getElem?_eq_some_iff.mp hi).1
    have := h.staves
    rw [List.getElem?_map, List.getElem?_range (by simp only; omega)]
    rfl

/-- Two lists agree if they are of the same length and agree at each index. -/
theorem staves_ext {X : Type} {ss ss' : List (StaffData P)} (f g : StaffData P → X) (hl : ss'.length = ss.length)
    (h : ∀ (i : Nat) (s : StaffData P), ss[i]? = some s → ∃ s', ss'[i]? = some s' ∧ f s' = g s) : ss'.map f = ss.map g := by
  apply List.ext_getElem?
  intro i
  simp only [List.getElem?_map]
  cases hs : ss[i]? with
  | none =>
    have : ss'[i]? = none := by
      rw [List.getElem?_eq_none_iff] at hs ⊢; omega
    rw [this]; rfl
  | some s =>
    obtain ⟨s', h1, h2⟩ := h i s hs
    rw [h1]; simp [h2]

theorem takeWhile_all {X : Type} {p : X → Bool} : ∀ {l : List X}, (∀ x ∈ l, p x = true) → l.takeWhile p = l := by
  intro l
  induction l with
  | nil => intro _; rfl
  | cons x l ih =>
    intro h
    rw [List.takeWhile_cons, if_pos (h x (by simp)), ih (fun y hy => h y (by simp [hy]))]

/-! ## C03 -/

/-- **C03** Writing a measure and reading it back gives exactly the same voices with the same notes (time, length, chord membership, kind, content),
in the same order, on the same staff; only voices without notes disappear and the notes know the number of their voice
(`Spec.voicesExpected`).

This needs notes as in `Spec.MeasureKept` (chords may be unequal) and voices as in `Spec.StaffReadable` (no overlap inside a voice, no chord of a single note,
each voice begins before the end of the voice before it); without these conditions the property is false, see below. -/
theorem C03_measure_round_trip_partial (env : WEnv) (divisionsBefore : Int) (m : MeasureData P) (h : Suits env divisionsBefore m)
    (hm : MeasureKept m) (hr : ∀ s ∈ m.staves, StaffReadable s) :
    ∃ m', writeThenRead env divisionsBefore m = some m' ∧ m'.staves.map (·.voices) = m.staves.map voicesExpected := by
  obtain ⟨m', r, e, h1, h2, h3, h4, _⟩ := writeThenRead_staves env divisionsBefore m h hm (fun s hs => (hr s hs).keys)
  refine ⟨m', h1, staves_ext _ _ h2 (fun i s hi => ⟨_, h3 i s hi, ?_⟩)⟩
  obtain ⟨acc, ha⟩ := filter_stavesRead m.staves 0 (0, 0) i s hi
  simp only [zero_add] at ha
  show consolidate (voicesOf i r.notes) = _
  unfold voicesOf
  rw [h4, ha]
  exact consolidate_voicesRead _ _ _ (hr s (List.mem_of_getElem? hi))

/-- **C03** In particular a measure in which the notes already know their voice and all voices have notes is restored as it is. -/
theorem C03_measure_unchanged_partial (env : WEnv) (divisionsBefore : Int) (m : MeasureData P) (h : Suits env divisionsBefore m)
    (hm : MeasureKept m) (hr : ∀ s ∈ m.staves, StaffReadable s)
    (hv : ∀ s ∈ m.staves, ∀ v ∈ s.voices, v.2 ≠ [] ∧ ∀ n ∈ v.2, n.userVoice = v.1 + 1) :
    ∃ m', writeThenRead env divisionsBefore m = some m' ∧ m'.staves.map (·.voices) = m.staves.map (·.voices) := by
  obtain ⟨m', h1, h2⟩ := C03_measure_round_trip_partial env divisionsBefore m h hm hr
  refine ⟨m', h1, ?_⟩
  rw [h2]
  apply List.map_congr_left
  intro s hs
  unfold voicesExpected StaffData.sounding
  have hf : s.voices.filter (fun v => !v.2.isEmpty) = s.voices := by
    rw [List.filter_eq_self]
    intro v hvv
    simpa using (hv s hs v hvv).1
  rw [hf]
  conv_rhs => rw [← List.map_id s.voices]
  apply List.map_congr_left
  intro v hvv
  have : v.2.map (fun n => { n with userVoice := v.1 + 1 }) = v.2 := by
    conv_rhs => rw [← List.map_id v.2]
    apply List.map_congr_left
    intro n hn
    have := (hv s hs v hvv).2 n hn
    cases n; simp only at this; subst this; rfl
  rw [this]; rfl

instance (a b : NoteData P) : Decidable (SameChord a b) := by unfold SameChord; infer_instance
instance (a b : NoteData P) : Decidable (NoOverlap a b) := by unfold NoOverlap; infer_instance
instance decChords : (prev : Option (NoteData P)) → (ns : List (NoteData P)) → Decidable (ChordsComplete prev ns)
  | _, [] => isTrue trivial
  | prev, n :: rest => by
    have := decChords (some n) rest
    unfold ChordsComplete
    infer_instance
instance (s : StaffData P) : Decidable (StaffReadable s) :=
  decidable_of_iff
    ((∀ v ∈ s.voices, 0 ≤ v.1) ∧ s.voices.Pairwise (fun a b => a.1 < b.1) ∧ (∀ v ∈ s.voices, v.2.IsChain NoOverlap) ∧
      (∀ v ∈ s.voices, ChordsComplete none v.2) ∧ (StaffData.sounding s).IsChain (fun v w => voiceStart w.2 < voiceEnd v.2))
    ⟨fun ⟨a, b, c, d, e⟩ => ⟨a, b, c, d, e⟩, fun ⟨a, b, c, d, e⟩ => ⟨a, b, c, d, e⟩⟩

/-- The example of C01 (two staves, three voices, a chord of three, a grace note, a gap) meets the conditions. -/
example : Suits exEnv 1 exMeasure ∧ MeasureKept exMeasure ∧ ∀ s ∈ exMeasure.staves, StaffReadable s :=
  ⟨⟨by decide, by decide, by decide, by decide⟩, by decide, by decide⟩

/-- what is read back of voices on one staff: per voice the notes with time and chord flag -/
def reread (vs : List (Int × List (NoteData String))) : Option (List (Int × List (String × Int × Bool))) :=
  (writeThenRead { exEnv with numStaves := 1 } 1
    { staves := [{ clefs := [], keys := [], voices := vs, directions := [] }], keys := [], barlines := [] }).map
    (fun m => (m.staves.flatMap (·.voices)).map (fun v => (v.1, v.2.map (fun n => (n.content, n.tick, n.isChord)))))

/-- **C03 is false for a chord of one note**: it is read as an ordinary note. -/
theorem C03_single_chord_note_loses_flag :
    reread [(0, [exNote 0 4 true "c", exNote 4 4 false "d"])] = some [(0, [("c", 0, false), ("d", 4, false)])] := by
  decide +kernel

/-- **C03 is false if a voice begins after the end of the voice before**: there is no backup between them, the reader takes
them for one voice with inconsistent numbers, and the note moves to the first voice. -/
theorem C03_consecutive_voices_are_merged :
    reread [(0, [exNote 0 4 false "c"]), (1, [exNote 4 4 false "d"])] = some [(0, [("c", 0, false), ("d", 4, false)])] := by
  decide +kernel

/-- **C03 is false for overlapping notes in one voice**: the backup between them makes the reader start another voice. -/
theorem C03_overlapping_notes_are_separated :
    reread [(0, [exNote 0 4 false "c", exNote 2 4 false "d"])] = some [(0, [("c", 0, false)]), (1, [("d", 2, false)])] := by
  decide +kernel

/-! ## C45 -/

/-- **C45** Every direction of every staff comes back at the same time with the same content, in the same order, on the same
staff, for every measure with notes as in `Spec.MeasureKept` (chords may be unequal); there are no conditions on the directions (any time, also negative, before, between, during or after notes).  Only
the flag whether a staff is given becomes true on all staves but the first. -/
theorem C45_directions_keep_time_partial (env : WEnv) (divisionsBefore : Int) (m : MeasureData P) (h : Suits env divisionsBefore m)
    (hm : MeasureKept m) (hk : ∀ s ∈ m.staves, ∀ v ∈ s.voices, 0 ≤ v.1) :
    ∃ m', writeThenRead env divisionsBefore m = some m' ∧ m'.staves.length = m.staves.length ∧
      ∀ (i : Nat) (s s' : StaffData P), m.staves[i]? = some s → m'.staves[i]? = some s' →
        s'.directions = s.directions.map (fun d => { d with isStaffValueSpecified := d.isStaffValueSpecified || i != 0 }) := by
  obtain ⟨m', r, e, h1, h2, h3, _, h5, _⟩ := writeThenRead_staves env divisionsBefore m h hm hk
  refine ⟨m', h1, h2, ?_⟩
  intro i s s' hi hi'
  rw [h3 i s hi] at hi'
  simp only [Option.some.injEq] at hi'
  rw [← hi']
  show (r.directions.filter _).map _ = _
  rw [h5, dirsRead_eq]
  have := filter_tagged (fun i s => s.directions.map (fun d => (dirRead i d).2)) m.staves 0 i s hi
  simp only [zero_add] at this
  rw [this]
  apply List.map_congr_left
  intro d _
  unfold dirRead
  have : ((i : Int) != 0) = (i != 0) := by
    cases i with
    | zero => rfl
    | succ i => simp [bne]; omega
  simp [this]

/-- directions before, inside, at and after notes -/
example : ((writeThenRead { exEnv with numStaves := 1 } 1
    { staves := [{ clefs := [], keys := [], voices := [(0, [exNote 0 4 false "c", exNote 8 4 false "d"]), (1, [exNote 1 2 false "e"])],
                   directions := [⟨-1, false, "x"⟩, ⟨3, true, "y"⟩, ⟨8, false, "z"⟩, ⟨99, false, "w"⟩] }], keys := [], barlines := [] }).map
      (fun m => m.staves.map (·.directions))) =
    some [[⟨-1, false, "x"⟩, ⟨3, true, "y"⟩, ⟨8, false, "z"⟩, ⟨99, false, "w"⟩]] := by decide +kernel

/-! ## C49 -/

/-- A list of barlines in the form a caller would give it: those at the left (time 0), then those at the right (time "infinity"). -/
def BarlinesOk (bs : List (BarlineData P)) : Prop :=
  ∃ ls rs, bs = ls ++ rs ∧ (∀ b ∈ ls, b.tick = 0 ∧ b.location = .left) ∧ (∀ b ∈ rs, b.tick = TICK_TIME_INFINITY ∧ b.location = .right)

/-- **C49** Barlines at the left (time 0) and the right (end of measure) come back unchanged, in the same order. -/
theorem C49_outer_barlines_unchanged_partial (env : WEnv) (divisionsBefore : Int) (m : MeasureData P) (h : Suits env divisionsBefore m)
    (hm : MeasureKept m) (hk : ∀ s ∈ m.staves, ∀ v ∈ s.voices, 0 ≤ v.1) (hb : BarlinesOk m.barlines) :
    ∃ m', writeThenRead env divisionsBefore m = some m' ∧ m'.barlines = m.barlines := by
  obtain ⟨m', r, e, h1, _, _, _, _, _, h7⟩ := writeThenRead_staves env divisionsBefore m h hm hk
  refine ⟨m', h1, ?_⟩
  obtain ⟨ls, rs, hb, hl, hrs⟩ := hb
  have hl' : ∀ b ∈ ls, (decide (b.tick ≤ 0)) = true := by intro b hb; simp [(hl b hb).1]
  have hr' : ∀ b ∈ rs, (decide (b.tick ≤ TICK_TIME_INFINITY)) = true := by intro b hb; simp [(hrs b hb).1]
  have e1 : rs.takeWhile (fun b => decide (b.tick ≤ 0)) = [] := by
    cases rs with
    | nil => rfl
    | cons b t => simp [List.takeWhile, (hrs b (by simp)).1, TICK_TIME_INFINITY]
  have e2 : rs.dropWhile (fun b => decide (b.tick ≤ 0)) = rs := by
    cases rs with
    | nil => rfl
    | cons b t => simp [List.dropWhile, (hrs b (by simp)).1, TICK_TIME_INFINITY]
  rw [h7, hb, List.takeWhile_append_of_pos hl', List.dropWhile_append_of_pos hl', e1, e2, List.append_nil]
  have e3 : rs.takeWhile (fun b => decide (b.tick ≤ TICK_TIME_INFINITY)) = rs := takeWhile_all hr'
  rw [e3]
  congr 1
  · conv_rhs => rw [← List.map_id ls]
    apply List.map_congr_left
    intro b hb
    obtain ⟨h1, h2⟩ := hl b hb
    unfold barRead barlineLocation
    cases b; simp only at h1 h2; subst h1 h2; rfl
  · conv_rhs => rw [← List.map_id rs]
    apply List.map_congr_left
    intro b hb
    obtain ⟨h1, h2⟩ := hrs b hb
    unfold barRead barlineLocation
    cases b; simp only at h1 h2; subst h1 h2; rfl

/-- a repeated measure -/
example : BarlinesOk [⟨0, .left, "heavy-light"⟩, ⟨TICK_TIME_INFINITY, .right, "light-heavy"⟩] :=
  ⟨[⟨0, .left, "heavy-light"⟩], [⟨TICK_TIME_INFINITY, .right, "light-heavy"⟩], rfl, by simp, by simp⟩

/-- **C49** Whatever times barlines have (up to the largest `int`), if they are in time order none is lost: their contents come back in the same order. -/
theorem C49_no_barline_lost_partial (env : WEnv) (divisionsBefore : Int) (m : MeasureData P) (h : Suits env divisionsBefore m)
    (hm : MeasureKept m) (hk : ∀ s ∈ m.staves, ∀ v ∈ s.voices, 0 ≤ v.1) (hb : ∀ b ∈ m.barlines, b.tick ≤ TICK_TIME_INFINITY) :
    ∃ m', writeThenRead env divisionsBefore m = some m' ∧ m'.barlines.map (·.content) = m.barlines.map (·.content) := by
  obtain ⟨m', r, e, h1, _, _, _, _, _, h7⟩ := writeThenRead_staves env divisionsBefore m h hm hk
  refine ⟨m', h1, ?_⟩
  rw [h7]
  have : (m.barlines.dropWhile (fun b => decide (b.tick ≤ 0))).takeWhile (fun b => decide (b.tick ≤ TICK_TIME_INFINITY)) =
      m.barlines.dropWhile (fun b => decide (b.tick ≤ 0)) := by
    apply takeWhile_all
    intro b hb'
    simpa using hb b (List.dropWhile_subset _ hb')
  rw [this]
  simp only [List.map_append, List.map_map]
  have hc : ∀ t : Int, ((fun x : BarlineData P => x.content) ∘ barRead t) = (fun x => x.content) := fun t => rfl
  rw [hc, hc, ← List.map_append, List.takeWhile_append_dropWhile]

/-- **C49 is false for a barline in the middle of a measure**: it is read at the position of the end of the notes. -/
theorem C49_middle_barline_moves :
    ((writeThenRead { exEnv with numStaves := 1 } 1
      { staves := [{ clefs := [], keys := [], voices := [(0, [exNote 0 4 false "c", exNote 4 4 false "d"])], directions := [] }], keys := []
        barlines := [⟨4, .center, "dashed"⟩] }).map (·.barlines)) = some [⟨8, .center, "dashed"⟩] := by decide +kernel

/-! ## C50 -/

/-- **C50** No clef is lost, duplicated or given to another staff: on each staff the same clefs come back in the same order. -/
theorem C50_clefs_of_each_staff_kept_partial (env : WEnv) (divisionsBefore : Int) (m : MeasureData P) (h : Suits env divisionsBefore m)
    (hm : MeasureKept m) (hk : ∀ s ∈ m.staves, ∀ v ∈ s.voices, 0 ≤ v.1) :
    ∃ m', writeThenRead env divisionsBefore m = some m' ∧
      m'.staves.map (fun s => s.clefs.map (·.content)) = m.staves.map (fun s => s.clefs.map (·.content)) := by
  obtain ⟨m', r, e, h1, h2, h3, _, _, h6, _⟩ := writeThenRead_staves env divisionsBefore m h hm hk
  refine ⟨m', h1, staves_ext _ _ h2 (fun i s hi => ⟨_, h3 i s hi, ?_⟩)⟩
  show ((r.clefs.filter _).map _).map _ = _
  have hswap : ((r.clefs.filter (fun c => decide (c.1 = (i : Int)))).map (·.2)).map (·.content) =
      ((r.clefs.map (fun c => (c.1, c.2.content))).filter (fun c => decide (c.1 = (i : Int)))).map (·.2) := by
    rw [List.filter_map, List.map_map, List.map_map]; rfl
  rw [hswap, h6, lateClefs_eq, List.filter_append, List.map_append]
  have e1 := filter_tagged (fun _ s => (s.clefs.takeWhile (fun x => x.tick = 0)).map (·.content)) m.staves 0 i s hi
  have e2 := filter_tagged (fun _ s => (s.clefs.dropWhile (fun x => x.tick = 0)).map (·.content)) m.staves 0 i s hi
  simp only [zero_add] at e1 e2
  unfold earlyClefs
  rw [e1, e2, ← List.map_append, List.takeWhile_append_dropWhile]

/-- the clefs of the example -/
example : ((writeThenRead exEnv 1 exMeasure).map (fun m => m.staves.map (fun s => s.clefs))) =
    some [[⟨0, "treble"⟩, ⟨8, "bass"⟩], [⟨0, "bass"⟩]] := by decide +kernel

/-- **C50, times**: a clef inside a note is read at the end of that note. -/
theorem C50_clef_inside_note_moves :
    ((writeThenRead { exEnv with numStaves := 1 } 1
      { staves := [{ clefs := [⟨2, "bass"⟩], keys := [], voices := [(0, [exNote 0 4 false "c", exNote 4 4 false "d"])], directions := [] }], keys := []
        barlines := [] }).map (fun m => m.staves.map (·.clefs))) = some [[⟨4, "bass"⟩]] := by decide +kernel

end Mx.Props
