import Verif.Proofs.MeasureReaderClock
import Verif.Proofs.MeasureReaderRounding

/-!
# Properties C01, C02, C04, C33: time in measures
Specification: `Verif/Spec/MusicXMLClock.lean` (how MusicXML itself assigns times) and `Verif/Spec/MeasurePlan.lean`
(what a caller of the writer asks for).
-/
namespace Mx.Props
open Spec Mx.Measure

variable {P : Type}

/-! ## C01 -/

/-- **C01** In the written measure MusicXML finds every note of every staff and voice exactly where the caller put it,
for every measure with non-negative times, positive durations (zero for grace notes), whose chords are proper
(`Spec.PairOk`).  The clock at the beginning runs at any rate if this is the first measure (which writes divisions) and at
the rate of the score otherwise.

Missing from the full property: measures whose chord members have unequal lengths, or where a chord is followed by a note outside the chord at
the same time.  For those the property is false, see below. -/
theorem C01_written_measure_places_notes_partial (env : WEnv) (m : MeasureData P) (divisionsBefore : ℚ)
    (hG : 0 < env.ticksPerQuarter) (hd : env.isFirstMeasureInPart = false → divisionsBefore = env.ticksPerQuarter)
    (hm : MeasureOk m) :
    placedNotes (Clock.init divisionsBefore) (writeMeasure env m) = expectedNotes env.ticksPerQuarter env.numStaves m :=
  clock_measure hG env m divisionsBefore rfl hd hm

/-- a note for the examples; the content is its name -/
def exNote (tick ticks : Int) (isChord : Bool) (name : String) : NoteData String :=
  { tick := tick, ticks := ticks, isChord := isChord, kind := .normal, userVoice := -1, content := name }

def exGrace (tick : Int) (name : String) : NoteData String :=
  { tick := tick, ticks := 0, isChord := false, kind := .grace, userVoice := -1, content := name }

/-- Two staves; overlapping voices, a gap, a grace note, a chord of three, a late direction and a clef change. -/
def exMeasure : MeasureData String :=
  { staves := [
      { clefs := [⟨0, "treble"⟩, ⟨8, "bass"⟩], keys := []
        voices := [(0, [exGrace 0 "g", exNote 0 4 true "c", exNote 0 4 true "e", exNote 0 4 true "g", exNote 8 4 false "a"]),
                   (2, [exNote 2 3 false "f"])]
        directions := [⟨0, false, "p"⟩, ⟨10, false, "ff"⟩] },
      { clefs := [⟨0, "bass"⟩], keys := [], voices := [(0, [exNote 0 12 false "C"])], directions := [] }]
    keys := [⟨0, -1, true, "D major"⟩]
    barlines := [⟨12, .right, "light-heavy"⟩] }

def exEnv : WEnv :=
  { numStaves := 2, ticksPerQuarter := 4, isFirstMeasureInPart := true, writesTime := true, writesTranspose := false
    printElements := 0 }

instance (n : NoteData P) : Decidable (NoteOk n) := by unfold NoteOk; infer_instance
instance (a b : NoteData P) : Decidable (PairOk a b) := by unfold PairOk; infer_instance
instance (ns : List (NoteData P)) : Decidable (VoiceOk ns) := by unfold VoiceOk; infer_instance
instance (m : MeasureData P) : Decidable (MeasureOk m) := by unfold MeasureOk; infer_instance
instance (n : NoteData P) : Decidable (NoteKept n) := by unfold NoteKept; infer_instance
instance (a b : NoteData P) : Decidable (PairKept a b) := by unfold PairKept; infer_instance
instance (ns : List (NoteData P)) : Decidable (VoiceKept ns) := by unfold VoiceKept; infer_instance
instance (m : MeasureData P) : Decidable (MeasureKept m) := by unfold MeasureKept; infer_instance

example : MeasureOk exMeasure ∧ 0 < exEnv.ticksPerQuarter ∧ (expectedNotes 4 2 exMeasure).length = 7 := by decide

/-- The measure of one staff with one voice. -/
def oneVoice (ns : List (NoteData String)) : MeasureData String :=
  { staves := [{ clefs := [], keys := [], voices := [(0, ns)], directions := [] }], keys := [], barlines := [] }

/-- onsets and names found by MusicXML in a written measure of one voice with one tick per quarter -/
def foundOnsets (ns : List (NoteData String)) : List (ℚ × String) :=
  (placedNotes (Clock.init 1) (writeMeasure { exEnv with numStaves := 1, ticksPerQuarter := 1 } (oneVoice ns))).map
    (fun p => (p.onset, p.content))

/-- **C01 is false without the condition on chord lengths**: after a chord whose last member is shorter than its first one
the next note, meant for 4, is found at 6. -/
theorem C01_unequal_chord_misplaces_next_note :
    foundOnsets [exNote 0 4 true "c", exNote 0 2 true "e", exNote 4 4 false "g"] = [(0, "c"), (0, "e"), (6, "g")] := by
  decide +kernel

/-- **C01 is false if a note outside the chord follows at the same time**: that note, meant for 0, is found at 4. -/
theorem C01_note_beside_chord_is_misplaced :
    foundOnsets [exNote 0 4 true "c", exNote 0 4 true "e", exNote 0 4 false "g"] = [(0, "c"), (0, "e"), (4, "g")] := by
  decide +kernel

/-- **C01 is false for a grace chord directly followed by a chord at the same time**: the first note of the second chord is
written as a member of the grace chord; the notes after it are found too early. -/
theorem C01_grace_chord_swallows_chord :
    foundOnsets [{ exGrace 0 "x" with isChord := true }, { exGrace 0 "y" with isChord := true },
      exNote 0 4 true "c", exNote 0 4 true "e", exNote 4 4 false "g"] =
      [(0, "x"), (0, "y"), (0, "c"), (0, "e"), (0, "g")] := by
  decide +kernel

/-- **C01 is false for a normal note without length**: it is written with the smallest positive duration. -/
theorem C01_zero_length_note_shifts_the_rest :
    foundOnsets [exNote 0 0 false "c", exNote 0 4 false "e"] = [(0, "c"), (1 / 1000000, "e")] := by
  decide +kernel

/-! ## C02 -/

/-- **C02** For every sequence of measure children with whole, properly used times (`Spec.WellTimed`) on existing staves,
reading succeeds and the notes, in document order, are at the time and of the length MusicXML assigns them (in ticks of `G` per quarter), on the
staff and with the voice number they name.

Not covered, and false of the code: durations that are no whole number of ticks (they are rounded one by one: `C02_rounding` and
`C02_rounding_adds_up`), chord members of different durations (`C02_unequal_chord`), and backups before the beginning of the measure
(clamped, see C04). -/
theorem C02_read_positions_partial (env : REnv) (divisions : Int) (es : List (Elem P)) (hG : 0 < env.globalTicksPerQuarter)
    (hdiv : 0 < divisions)
    (hw : WellTimed env.globalTicksPerQuarter (Clock.init divisions) none es) (hs : StavesExist env.numStaves es) :
    ∃ r, readElems env false es (initRSt divisions) = some r ∧
      r.notes.map (ReadNote.place env.globalTicksPerQuarter) =
        (placedNotes (Clock.init divisions) es).map Placed.place := by
  obtain ⟨r, h1, h2⟩ := read_follows hG rfl es (Clock.init divisions) none (initRSt divisions) hw hs
    ⟨hdiv, rfl, by simp [initRSt, Clock.init], wellTimed_none hw⟩
  exact ⟨r, h1, by simpa [initRSt] using h2⟩

/-- a note element for the examples -/
def exElem (chord : Bool) (divs : Int) (name : String) : Elem String :=
  .note { chord := chord, kind := .normal, dur := divs * 1000000, staff := none, voice := some 1, content := name }

/-- three divisions in this measure, the score is counted in 12 ticks per quarter -/
def exElems : List (Elem String) :=
  [.attributes { divisions := some 3000000 }, exElem false 3 "c", .direction none 0 "p", exElem true 3 "e", exElem false 1 "f",
   .backup 2000000, exElem false 2 "g", .forward 1000000, exElem false 3 "a"]

example : WellTimed 12 (Clock.init 1) none exElems ∧ StavesExist 1 exElems := by
  constructor
  · have h4 : ∀ (c : Clock) (k t : Int), c.division = 1 / 3 → k * 4 = t → ∃ t : Int, c.quarters (k * 1000000) * (12 : Int) = t := by
      intro c k t hc hk
      exact ⟨t, by unfold Clock.quarters; rw [hc, ← hk]; push_cast; ring⟩
    refine ⟨?_, ⟨h4 _ 3 12 ?_ rfl, by decide, by simp, by simp, ⟨h4 _ 3 12 ?_ rfl, by decide, by simp, ?_,
      ⟨h4 _ 1 4 ?_ rfl, by decide, by simp, by simp, ⟨h4 _ 2 8 ?_ rfl, ?_, ⟨h4 _ 2 8 ?_ rfl, by decide, by simp, by simp,
      ⟨h4 _ 1 4 ?_ rfl, by decide, ⟨h4 _ 3 12 ?_ rfl, by decide, by simp, by simp, trivial⟩⟩⟩⟩⟩⟩⟩⟩
    · intro d hd; exact ⟨3, by decide, by simpa using hd.symm⟩
    all_goals simp [Clock.step, Clock.init, Clock.quarters, nextIsChord]
    all_goals norm_num
  · refine ⟨by decide, ?_, ?_⟩
    · intro n hn s hs
      simp [exElems, exElem] at hn
      rcases hn with rfl | rfl | rfl | rfl | rfl <;> simp at hs
    · intro a ha c hc s hs
      simp [exElems, exElem] at ha
      rw [ha] at hc; simp at hc

/-- the ticks read in the example -/
example : ((readElems ⟨1, 12⟩ false exElems (initRSt 1)).map (fun r => r.notes.map (fun n => (n.note.content, n.note.tick, n.note.ticks)))) =
    some [("c", 0, 12), ("e", 0, 12), ("f", 12, 4), ("g", 8, 8), ("a", 20, 12)] := by decide +kernel

/-- **C02** If times are no whole numbers of ticks, each of them is rounded: a note is at most half a tick per note, backup and forward in front of it away from
where MusicXML has it, its length is at most half a tick wrong, and staff, voice and content are right. -/
theorem C02_rounding (env : REnv) (divisions : Int) (es : List (Elem P)) (hG : 0 < env.globalTicksPerQuarter) (hdiv : 0 < divisions)
    (hw : ProperlyTimed (Clock.init divisions) none es) (hs : StavesExist env.numStaves es) :
    ∃ r, readElems env false es (initRSt divisions) = some r ∧
      List.Forall₂ (fun x p => Near env.globalTicksPerQuarter x.note.tick x.note.ticks x.staff x.note.userVoice x.note.content p.1 p.2) r.notes
        ((placedNotes (Clock.init divisions) es).zip (movesBefore 0 es)) := by
  obtain ⟨r, l, h1, h2, h3⟩ := read_near hG rfl es (Clock.init divisions) none 0 (initRSt divisions) hw hs
    ⟨hdiv, rfl, by simp [initRSt, Clock.init], timed_none hw⟩
  have h2 : r.notes = l := by simpa [initRSt] using h2
  exact ⟨r, h1, by rw [h2]; exact h3⟩

/-- half a division at one tick per quarter note -/
def exHalf (name : String) : Elem String := .note { chord := false, kind := .normal, dur := 500000, staff := none, voice := some 1, content := name }

example : ProperlyTimed (Clock.init 1) none [exHalf "c", .backup 250000, exHalf "d", exHalf "e"] ∧ StavesExist 1 [exHalf "c", .backup 250000, exHalf "d", exHalf "e"] := by
  constructor
  · refine ⟨by decide, by simp, by simp, ⟨?_, ⟨by decide, by simp, by simp, ⟨by decide, by simp, by simp, trivial⟩⟩⟩⟩
    simp [Clock.step, Clock.init, Clock.quarters, exHalf]
    norm_num
  · refine ⟨by decide, ?_, ?_⟩
    · intro n hn s hs
      simp [exHalf] at hn
      rcases hn with rfl | rfl | rfl <;> simp at hs
    · intro a ha
      simp [exHalf] at ha

/-- **C02 is false for times that are no whole numbers of ticks**: of notes of 3/4 of a tick the fifth, which belongs to 3, is read at 4. -/
theorem C02_rounding_adds_up :
    (readElems ⟨1, 1⟩ false (List.replicate 5 (.note { chord := false, kind := .normal, dur := 750000, staff := none, voice := some 1, content := "c" } : Elem String)) (initRSt 1)).map
      (fun r => r.notes.map (fun n => n.note.tick)) = some [0, 1, 2, 3, 4] := by decide +kernel

/-- **C02 is false for chords whose last note is shorter than the first**: the next note, which belongs to 4 (the duration of the first note), is read at 2. -/
theorem C02_unequal_chord :
    (readElems ⟨1, 1⟩ false [exElem false 4 "c", exElem true 2 "e", exElem false 4 "g"] (initRSt 1)).map (fun r => r.notes.map (fun n => (n.note.content, n.note.tick))) = some [("c", 0), ("e", 0), ("g", 2)] ∧
    (placedNotes (Clock.init 1) [exElem false 4 "c", exElem true 2 "e", exElem false 4 "g"]).map (fun p => (p.content, p.onset)) = [("c", 0), ("e", 0), ("g", 4)] := by
  constructor <;> decide +kernel

/-- **C02** All notes of one chord are read at the same time: a note followed by chord notes leaves the position alone. -/
theorem C02_chord_same_position (env : REnv) (la : Bool) (a : NoteElem P) (qs rest : List (Elem P)) (b : NoteElem P) (st st1 st2 : RSt P)
    (hq : ∀ e ∈ qs, e.isQuiet = true) (hb : b.chord = true)
    (h1 : readElems env (nextNoteIsChord la (Elem.note b :: rest)) (Elem.note a :: qs) st = some st1)
    (h2 : parseElem env (nextNoteIsChord la rest) (Elem.note b) st1 = some st2) :
    ∃ x y pre, st1.notes = pre ++ [x] ∧ st2.notes = pre ++ [x, y] ∧ x.note.content = a.content ∧ y.note.content = b.content ∧
      x.note.tick = y.note.tick ∧ x.note.isChord = true ∧ y.note.isChord = true := by
  have hnx : nextNoteIsChord la (Elem.note b :: rest) = true := hb
  rw [hnx] at h1
  simp only [readElems, Option.bind_eq_bind] at h1
  obtain ⟨s, hs, h1⟩ := Option.bind_eq_some_iff.mp h1
  rw [nextNoteIsChord_quiet hq] at hs
  have hquiet : ∀ (qs : List (Elem P)) (s s' : RSt P), (∀ e ∈ qs, e.isQuiet = true) → readElems env true qs s = some s' →
      s'.tick = s.tick ∧ s'.notes = s.notes := by
    intro qs
    induction qs with
    | nil => intro s s' _ h; cases h; exact ⟨rfl, rfl⟩
    | cons e es ih =>
      intro s s' he h
      simp only [readElems, Option.bind_eq_bind] at h
      obtain ⟨u, hu, h⟩ := Option.bind_eq_some_iff.mp h
      obtain ⟨g1, g2⟩ := ih u s' (fun x hx => he x (by simp [hx])) h
      have : u.tick = s.tick ∧ u.notes = s.notes := by
        have he' := he e (by simp)
        cases e with
        | note n => simp [Elem.isQuiet] at he'
        | backup n => simp [Elem.isQuiet] at he'
        | forward n => simp [Elem.isQuiet] at he'
        | direction s o c =>
          simp only [parseElem, parseDirection] at hu
          split at hu
          · cases hu
          · cases hu; exact ⟨rfl, rfl⟩
        | attributes a =>
          simp only [parseElem, parseProperties] at hu
          split at hu
          · cases hu
          · cases hu; exact ⟨rfl, rfl⟩
        | barline l c => cases hu; exact ⟨rfl, rfl⟩
        | other => cases hu; exact ⟨rfl, rfl⟩
      exact ⟨g1.trans this.1, g2.trans this.2⟩
  obtain ⟨q1, q2⟩ := hquiet qs s st1 hq h1
  have hnote : ∀ (n : NoteElem P) (nx : Bool) (s s' : RSt P), parseElem env nx (.note n) s = some s' →
      ∃ x : ReadNote P, s'.notes = s.notes ++ [x] ∧ x.note.content = n.content ∧ x.note.tick = s.tick ∧
        x.note.isChord = (n.chord || nx) ∧ (nx = true → s'.tick = s.tick) := by
    intro n nx s s' h
    simp only [parseElem, parseNote, Option.bind_eq_bind] at h
    obtain ⟨t, _, h⟩ := Option.bind_eq_some_iff.mp h
    split at h
    · cases h
    · cases h
      refine ⟨_, rfl, rfl, rfl, rfl, ?_⟩
      intro hx; subst hx; simp
  obtain ⟨x, x1, x2, x3, x4, x5⟩ := hnote a true st s hs
  obtain ⟨y, y1, y2, y3, y4, _⟩ := hnote b _ st1 st2 h2
  refine ⟨x, y, st.notes, by rw [q2, x1], by rw [y1, q2, x1]; simp, x2, y2, ?_, by rw [x4]; simp, by rw [y4, hb]; simp⟩
  rw [x3, y3, q1, x5 rfl]

/-! ## C04 -/

/-- **C04** Whatever backups a measure contains, no note, clef, key or barline is read at a negative time; a direction is at a
time that is negative at most by its own written offset. -/
theorem C04_read_time_not_negative (env : REnv) (divisions : Int) (es : List (Elem P)) (r : RSt P) (hG : 0 ≤ env.globalTicksPerQuarter)
    (hdiv : 0 ≤ divisions) (hd : ∀ e ∈ es, e.durationsOk (fun o => ∃ s c, Elem.direction s o c ∈ es))
    (h : readElems env false es (initRSt divisions) = some r) :
    0 ≤ r.tick ∧ (∀ n ∈ r.notes, 0 ≤ n.note.tick ∧ 0 ≤ n.note.ticks) ∧ (∀ c ∈ r.clefs, 0 ≤ c.2.tick) ∧
    (∀ k ∈ r.keys, 0 ≤ k.tick) ∧ (∀ b ∈ r.barlines, 0 ≤ b.tick) ∧
    (∀ d ∈ r.directions, ∃ s o c, Elem.direction s o c ∈ es ∧ 0 ≤ d.2.tick - roundMicro o) := by
  have := nonNeg_readElems hG hd (st := initRSt divisions)
    ⟨by simp [initRSt], hdiv, by simp [initRSt], by simp [initRSt], by simp [initRSt], by simp [initRSt], by simp [initRSt]⟩ h
  refine ⟨this.tick, this.notes, this.clefs, this.keys, this.barlines, ?_⟩
  intro d hd
  obtain ⟨o, ⟨s, c, ho⟩, h1⟩ := this.directions d hd
  exact ⟨s, o, c, ho, h1⟩

/-- a measure with an excessive backup -/
example :
    (∀ e ∈ [exElem false 3 "c", .backup 9000000, exElem false 1 "d"],
      e.durationsOk (fun o => ∃ s c, Elem.direction s o c ∈ [exElem false 3 "c", .backup 9000000, exElem false 1 "d"])) ∧
    ((readElems ⟨1, 1⟩ false [exElem false 3 "c", .backup 9000000, exElem false 1 "d"] (initRSt 1)).map
      (fun r => (r.tick, r.notes.map (fun n => n.note.tick)))) = some (1, [0, 0]) := by
  refine ⟨?_, by decide +kernel⟩
  intro e he
  simp [exElem] at he
  rcases he with rfl | rfl | rfl <;> simp [Elem.durationsOk]

/-! ## C33 -/

/-- **C33** Distribution over staves and voices keeps every note exactly once: the notes of the staff with index `i` in the
result are a rearrangement of the notes that were read for this staff. -/
theorem C33_no_note_lost (st : RSt P) (i : Int) :
    ((staffOf st i).voices.flatMap (·.2)).Perm ((st.notes.filter (fun r => r.staff = i)).map (·.note)) := by
  obtain ⟨_, b, _⟩ := consolidate_spec (voicesOf i st.notes)
  obtain ⟨_, _, c, _⟩ := voicesOf_spec i st.notes
  exact b.trans c

/-- **C33** Each voice consists of all notes that were read for one voice of the staff, in the order of the document, and
the voices have different numbers. -/
theorem C33_order_in_voice_kept (st : RSt P) (i : Int) :
    ((staffOf st i).voices.map (·.1)).Pairwise (· < ·) ∧
    ∀ v ∈ (staffOf st i).voices, v.2 ≠ [] ∧
      ∃ k, v.2 = (st.notes.filter (fun r => r.staff = i ∧ r.voice = k)).map (·.note) := by
  obtain ⟨a, _, c⟩ := consolidate_spec (voicesOf i st.notes)
  obtain ⟨a2, b2, _, d2⟩ := voicesOf_spec i st.notes
  refine ⟨List.pairwise_map.mpr a, ?_⟩
  intro v hv
  obtain ⟨w, hw, he⟩ := c v hv
  rw [he]
  refine ⟨b2 w hw, w.1, ?_⟩
  rw [← notesAt_of_mem a2 hw, d2, List.filter_filter]
  congr 1
  apply List.filter_congr
  intro x _
  simp [Bool.and_comm]

/-- **C33** Explicit voice numbers are honoured: if all notes of a staff that are in the same run of the
document name the same voice number ≥ 1, and different runs name different numbers, every note is found in the voice it names. -/
theorem C33_voice_numbers_honoured (st : RSt P) (i : Int)
    (h1 : ∀ r ∈ st.notes, r.staff = i → 1 ≤ r.note.userVoice)
    (h2 : ∀ r ∈ st.notes, ∀ s ∈ st.notes, r.staff = i → s.staff = i → (r.voice = s.voice ↔ r.note.userVoice = s.note.userVoice)) :
    ∀ v ∈ (staffOf st i).voices, ∀ n ∈ v.2, n.userVoice = v.1 + 1 := by
  obtain ⟨a2, b2, _, d2⟩ := voicesOf_spec i st.notes
  have hmem : ∀ v ∈ voicesOf i st.notes, ∀ n ∈ v.2, ∃ r ∈ st.notes, r.staff = i ∧ r.voice = v.1 ∧ r.note = n := by
    intro v hv n hn
    rw [← notesAt_of_mem a2 hv, d2] at hn
    simp only [List.mem_map, List.mem_filter, decide_eq_true_eq] at hn
    obtain ⟨r, ⟨⟨r1, r2⟩, r3⟩, r4⟩ := hn
    exact ⟨r, r1, r2, r3, r4⟩
  have hhead : ∀ v ∈ voicesOf i st.notes, ∃ n ∈ v.2, userVoiceOf v.2 = n.userVoice := by
    intro v hv
    cases hv2 : v.2 with
    | nil => exact absurd hv2 (b2 v hv)
    | cons x xs => exact ⟨x, by simp, rfl⟩
  have hall : ∀ v ∈ voicesOf i st.notes, ∀ n ∈ v.2, n.userVoice = userVoiceOf v.2 := by
    intro v hv n hn
    obtain ⟨m, hm, he⟩ := hhead v hv
    obtain ⟨r, r1, r2, r3, rfl⟩ := hmem v hv n hn
    obtain ⟨s, s1, s2, s3, rfl⟩ := hmem v hv m hm
    rw [he]
    exact (h2 r r1 s s1 r2 s2).mp (r3.trans s3.symm)
  have hcons : allConsistent [] (voicesOf i st.notes) = true := by
    rw [allConsistent_iff]
    refine ⟨?_, ?_⟩
    · intro v hv
      refine ⟨?_, by simp⟩
      rw [isConsistent_iff _ (b2 v hv)]
      refine ⟨?_, hall v hv⟩
      obtain ⟨m, hm, he⟩ := hhead v hv
      obtain ⟨r, r1, r2, _, rfl⟩ := hmem v hv m hm
      rw [he]; exact h1 r r1 r2
    · rw [List.Nodup, List.pairwise_map]
      have a3 : (voicesOf i st.notes).Pairwise (fun a b => (a ∈ voicesOf i st.notes ∧ b ∈ voicesOf i st.notes) ∧ a.1 < b.1) :=
        List.Pairwise.and_mem.mp a2 |>.imp (fun h => ⟨⟨h.1, h.2.1⟩, h.2.2⟩)
      refine a3.imp ?_
      rintro v w ⟨⟨hv, hw⟩, hlt⟩ he
      obtain ⟨m, hm, hm'⟩ := hhead v hv
      obtain ⟨n, hn, hn'⟩ := hhead w hw
      obtain ⟨r, r1, r2, r3, rfl⟩ := hmem v hv m hm
      obtain ⟨s, s1, s2, s3, rfl⟩ := hmem w hw n hn
      have := (h2 r r1 s s1 r2 s2).mpr (by rw [← hm', ← hn', he])
      omega
  intro v hv n hn
  have hv' : v ∈ takeUserVoices (voicesOf i st.notes) := by
    have : (staffOf st i).voices = takeUserVoices (voicesOf i st.notes) := if_pos hcons
    rwa [this] at hv
  obtain ⟨_, _, c⟩ := takeUserVoices_spec _ hcons
  obtain ⟨w, hw, rfl⟩ := (c v).mp hv'
  simp only
  rw [hall w hw n hn]; omega

/-- two runs on the first staff and one on the second, with voice numbers 3, 1 and 7 -/
def exRead : RSt String :=
  { (initRSt 1 : RSt String) with
    notes := [⟨0, 0, { exNote 0 1 false "c" with userVoice := 3 }⟩, ⟨1, 0, { exNote 1 1 false "x" with userVoice := 7 }⟩,
      ⟨0, 0, { exNote 1 1 false "d" with userVoice := 3 }⟩, ⟨0, 1, { exNote 0 1 false "e" with userVoice := 1 }⟩] }

example : (∀ r ∈ exRead.notes, r.staff = 0 → 1 ≤ r.note.userVoice) ∧
    (∀ r ∈ exRead.notes, ∀ s ∈ exRead.notes, r.staff = 0 → s.staff = 0 → (r.voice = s.voice ↔ r.note.userVoice = s.note.userVoice)) ∧
    (staffOf exRead 0).voices.map (fun v => (v.1, v.2.map (·.content))) = [(0, ["e"]), (2, ["c", "d"])] := by decide +kernel

/-- without consistent numbers the runs are numbered from 0 -/
theorem C33_inconsistent_numbers_are_replaced :
    (staffOf { exRead with notes := exRead.notes ++ [⟨0, 1, { exNote 5 1 false "f" with userVoice := 2 }⟩] } 0).voices.map
      (fun v => (v.1, v.2.map (·.content))) = [(0, ["c", "d"]), (1, ["e", "f"])] := by decide +kernel

end Mx.Props
