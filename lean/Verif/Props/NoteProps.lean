import Verif.Proofs.NoteDetails

/-
C30: pitches, C31: beams, C58: the other details of a note.
-/
open Spec
namespace Mx.Props
open Mx.Spec
open Measure (NoteKind)

/-- Writing and reading the details of a note. `siblings` are the notes of its voice and `G`, `duration` the ticks per quarter and the contents of `<duration>` with which
it is read. -/
def noteAgain (tpq : Int) (siblings : List TupletSibling) (index : Nat) (G : Int) (duration : ℚ) (n : NoteDetails) : Option NoteDetails :=
  (writeNote (tupletNormal tpq siblings index) n).bind (readNote G duration)

/-! ### C58 -/

/-- **C58** exactly: what comes back of the details of any note with ordinary numbers. -/
theorem C58_note (tpq : Int) (siblings : List TupletSibling) (index : Nat) (G : Int) (duration : ℚ) (n : NoteDetails) (hn : NoteNumbers n) :
    noteAgain tpq siblings index G duration n = some (keptNote (deriveNoteType G duration) (tupletNormal tpq siblings index) n) :=
  note_back G duration _ (tupletNormal_ne tpq siblings index) n hn

/-- **C58 (partial)** The details that the document can hold come back unchanged.  The full property would be for every note; `C58_*_lost` below show that this is
false. -/
theorem C58_details_partial (tpq : Int) (siblings : List TupletSibling) (index : Nat) (G : Int) (duration : ℚ) (n : NoteDetails)
    (hn : NoteFits (deriveNoteType G duration) (tupletNormal tpq siblings index) n) : noteAgain tpq siblings index G duration n = some n := by
  rw [C58_note _ _ _ _ _ _ hn.numbers, keptNote_of_fits hn]

/-- **C58** Nothing more is lost the second time: what has been written and read once comes back unchanged. -/
theorem C58_second_round (tpq : Int) (siblings : List TupletSibling) (index : Nat) (G : Int) (duration : ℚ) (n m : NoteDetails) (hn : NoteNumbers n)
    (h : noteAgain tpq siblings index G duration n = some m) : noteAgain tpq siblings index G duration m = some m := by
  rw [C58_note _ _ _ _ _ _ hn] at h
  cases h
  rw [C58_note _ _ _ _ _ _ (keptNote_numbers hn), keptNote_idem]

/-- A dotted eighth note B flat 3, 50 cents lower, in a triplet, tied, with an accidental, a cross notehead and two beams. -/
def sampleNote : NoteDetails :=
  { isTieStart := true, isTieStop := true, notehead := .cross, stem := .down
    pitchData := { step := .b, alter := -1, cents := -50, octave := 3, accidental := .flat }
    durationData := { durationName := .eighth, durationDots := 1, actualNotes := 3, normalNotes := 2 }, beams := [.begin, .forwardBroken] }

example : noteAgain 12 [] 0 12 18 sampleNote = some sampleNote := by decide +kernel

theorem sampleNote_fits : NoteFits .quarter none sampleNote :=
  { numbers := by
      refine ⟨by decide, by decide, by decide, by decide, fun _ _ => ⟨?_, ?_, ?_⟩⟩
      · show |(-50 : ℚ)| < 100
        norm_num
      · show (0 : ℚ) ≤ ((-1 : Int) : ℚ) * (-50)
        norm_num
      · exact ⟨-500000, by show (-50 : ℚ) * 10 ^ 4 = ((-500000 : Int) : ℚ); norm_num⟩
    measureRest := fun h => (by cases h), unpitched := fun h => (by cases h), display := rfl
    noPitch := fun h => (by rcases h with h | h <;> cases h), step := by decide, octave := by decide, accidental := by decide
    plain := ⟨rfl, rfl, rfl, rfl⟩, cue := fun h => (by cases h), notehead := by decide, name := fun _ => (by decide), dots := by decide, isTied := rfl
    modification := Or.inl (by decide), normalType := rfl, beams := by decide }

/-- A rest for a whole measure of four quarters. -/
example : noteAgain 12 [] 0 12 48 { isRest := true, isMeasureRest := true, durationData := { durationName := .whole } } =
    some { isRest := true, isMeasureRest := true, durationData := { durationName := .whole } } := by decide +kernel

/-- **C58 is false**: the parentheses, editorial, cautionary and bracket marks of an accidental are never written, whatever the note. -/
theorem C58_accidental_marks_lost (tpq : Int) (siblings : List TupletSibling) (index : Nat) (G : Int) (duration : ℚ) (n m : NoteDetails) (hn : NoteNumbers n)
    (h : noteAgain tpq siblings index G duration n = some m) :
    m.pitchData.isAccidentalParenthetical = false ∧ m.pitchData.isAccidentalCautionary = false ∧ m.pitchData.isAccidentalEditorial = false ∧
    m.pitchData.isAccidentalBracketed = false := by
  rw [C58_note _ _ _ _ _ _ hn] at h
  cases h
  exact ⟨rfl, rfl, rfl, rfl⟩

example : (noteAgain 12 [] 0 12 12 { pitchData := { accidental := .sharp, alter := 1, isAccidentalParenthetical := true } }).map (·.pitchData) =
    some { accidental := .sharp, alter := 1 } := by decide +kernel

/-- **C58 is false**: the position on the staff of a rest or an unpitched note is never written. -/
theorem C58_display_lost (tpq : Int) (siblings : List TupletSibling) (index : Nat) (G : Int) (duration : ℚ) (n m : NoteDetails) (hn : NoteNumbers n)
    (hr : n.isRest = true ∨ n.isUnpitched = true) (h : noteAgain tpq siblings index G duration n = some m) :
    m.isDisplayStepOctaveSpecified = false ∧ m.pitchData.step = .c ∧ m.pitchData.octave = 4 := by
  rw [C58_note _ _ _ _ _ _ hn] at h
  cases h
  have hp : NoteDetails.isPitched n = false := by
    rcases hr with h | h <;> simp [NoteDetails.isPitched, h]
  refine ⟨rfl, ?_, ?_⟩ <;> simp only [keptNote, keptPitch, hp] <;> rfl

example : noteAgain 12 [] 0 12 12 { isRest := true, isDisplayStepOctaveSpecified := true, pitchData := { step := .g, octave := 5 }, durationData := { durationName := .quarter } } =
    some { isRest := true, durationData := { durationName := .quarter } } := by decide +kernel

/-- **C58 is false**: a note whose duration name is unspecified becomes a maxima. -/
theorem C58_unspecified_name_becomes_maxima (tpq : Int) (siblings : List TupletSibling) (index : Nat) (G : Int) (duration : ℚ) (n m : NoteDetails)
    (hn : NoteNumbers n) (hr : n.isMeasureRest = false) (hu : n.durationData.durationName = .unspecified)
    (h : noteAgain tpq siblings index G duration n = some m) : m.durationData.durationName = .maxima := by
  rw [C58_note _ _ _ _ _ _ hn] at h
  cases h
  simp only [keptNote, keptDuration, hr, hu, Bool.and_false]
  rfl

/-- **C58 is false**: `isTied` is never written. -/
theorem C58_is_tied_lost (tpq : Int) (siblings : List TupletSibling) (index : Nat) (G : Int) (duration : ℚ) (n m : NoteDetails) (hn : NoteNumbers n)
    (h : noteAgain tpq siblings index G duration n = some m) : m.durationData.isTied = false := by
  rw [C58_note _ _ _ _ _ _ hn] at h
  cases h
  rfl

/-- **C58 is false**: the note type and dots of a time modification are not written from the note but from its tuplet, and read only if there are dots: a note that
is not in a tuplet with start and stop loses them. -/
theorem C58_normal_type_lost (tpq : Int) (index : Nat) (G : Int) (duration : ℚ) (n m : NoteDetails) (hn : NoteNumbers n)
    (h : noteAgain tpq [] index G duration n = some m) : m.durationData.normalType = .unspecified ∧ m.durationData.normalTypeDots = 0 := by
  rw [C58_note _ _ _ _ _ _ hn] at h
  cases h
  have : tupletNormal tpq [] index = none := by
    have : findTupletStart [] index = none := by
      induction index with
      | zero => rfl
      | succ i ih => rw [findTupletStart, if_neg (by simp)]; exact ih
    rw [tupletNormal, this]; rfl
  rw [this]
  exact ⟨rfl, rfl⟩

/-- **C58 is false**: the fa-up notehead comes back as no notehead at all, and the sharp-sharp accidental as a natural. -/
theorem C58_fa_up_lost (tpq : Int) (siblings : List TupletSibling) (index : Nat) (G : Int) (duration : ℚ) (n m : NoteDetails) (hn : NoteNumbers n)
    (h : noteAgain tpq siblings index G duration n = some m) :
    (n.notehead = .faUp → m.notehead = .none) ∧ (n.pitchData.accidental = .sharpSharp → m.pitchData.accidental = .natural) := by
  rw [C58_note _ _ _ _ _ _ hn] at h
  cases h
  exact ⟨fun e => by simp only [keptNote, e, if_true], fun e => by simp only [keptNote, keptPitch, e, if_true]⟩

/-- **C58** The accidental for an alteration: shown, then hidden. -/
theorem C58_show_accidental (p : PitchData) :
    (p.showAccidental.accidental ≠ .none ↔ -3 ≤ p.alter ∧ p.alter ≤ 3) ∧ p.showAccidental.alter = p.alter ∧ p.showAccidental.step = p.step ∧ p.showAccidental.octave = p.octave ∧
    p.hideAccidental.accidental = .none ∧ p.hideAccidental.alter = p.alter ∧ p.hideAccidental.step = p.step ∧ p.hideAccidental.octave = p.octave ∧
    p.showAccidental.hideAccidental = p.hideAccidental := by
  refine ⟨?_, rfl, rfl, rfl, rfl, rfl, rfl, rfl, rfl⟩
  unfold PitchData.showAccidental
  simp only
  split_ifs <;> simp <;> omega

example : ({ alter := 2 } : PitchData).showAccidental.accidental = .doubleSharp := by decide

/-- The semitones by which the common accidentals alter a note. -/
def accidentalSemitones : Api.Accidental → Option Int
  | .tripleFlat => some (-3)
  | .flatFlat => some (-2)
  | .flat => some (-1)
  | .natural => some 0
  | .sharp => some 1
  | .doubleSharp => some 2
  | .tripleSharp => some 3
  | _ => none

/-- **C58** The accidental shown is that of the alteration of the note; all else is left alone. -/
theorem C58_shown_accidental (p : PitchData) :
    accidentalSemitones p.showAccidental.accidental = (if -3 ≤ p.alter ∧ p.alter ≤ 3 then some p.alter else none) ∧
    p.showAccidental = { p with accidental := p.showAccidental.accidental } := by
  refine ⟨?_, rfl⟩
  by_cases h : -3 ≤ p.alter ∧ p.alter ≤ 3
  · rw [if_pos h]
    have : p.alter = -3 ∨ p.alter = -2 ∨ p.alter = -1 ∨ p.alter = 0 ∨ p.alter = 1 ∨ p.alter = 2 ∨ p.alter = 3 := by omega
    unfold PitchData.showAccidental
    rcases this with e | e | e | e | e | e | e <;> rw [e] <;> rfl
  · rw [if_neg h, ((not_iff_not.mpr (C58_show_accidental p).1).mpr h |> not_not.mp)]
    rfl

/-- **C58** A hidden accidental leaves no mark of an accidental behind. -/
theorem C58_hidden_accidental (p : PitchData) : p.hideAccidental =
    { p with accidental := .none, isAccidentalBracketed := false, isAccidentalCautionary := false, isAccidentalEditorial := false, isAccidentalParenthetical := false } := rfl

/-! ### C30 -/

/-- **C30 (partial)** A pitch survives writing and reading: step, alteration, cents and octave. The octave must be 0..9, and the cents less than a semitone, of the same
sign as the alteration and with at most four decimals. -/
theorem C30_pitch_partial (tpq : Int) (siblings : List TupletSibling) (index : Nat) (G : Int) (duration : ℚ) (n : NoteDetails) (hn : NoteNumbers n)
    (hr : n.isRest = false) (hu : n.isUnpitched = false) (hs : n.pitchData.step ≠ .unspecified) (ho : 0 ≤ n.pitchData.octave ∧ n.pitchData.octave ≤ 9) :
    ∃ m, noteAgain tpq siblings index G duration n = some m ∧ m.isRest = false ∧ m.isUnpitched = false ∧ m.pitchData.step = n.pitchData.step ∧
      m.pitchData.alter = n.pitchData.alter ∧ m.pitchData.cents = n.pitchData.cents ∧ m.pitchData.octave = n.pitchData.octave := by
  refine ⟨_, C58_note _ _ _ _ _ _ hn, ?_⟩
  have hp : NoteDetails.isPitched n = true := by rw [NoteDetails.isPitched, hr, hu]; rfl
  refine ⟨hr, by simp only [keptNote, hr, hu]; rfl, ?_, ?_, ?_, ?_⟩ <;> simp only [keptNote, keptPitch, hp, if_true, if_neg hs]
  omega

example : (noteAgain 12 [] 0 12 12 { pitchData := { step := .f, alter := 1, cents := 25, octave := 9 } }).map (fun m => (m.pitchData.step, m.pitchData.alter, m.pitchData.cents, m.pitchData.octave)) =
    some (.f, 1, 25, 9) := by decide +kernel

/-- **C30** Outside 0..9 the octave is limited. -/
theorem C30_octave_limited (tpq : Int) (siblings : List TupletSibling) (index : Nat) (G : Int) (duration : ℚ) (n m : NoteDetails) (hn : NoteNumbers n)
    (hr : n.isRest = false) (hu : n.isUnpitched = false) (h : noteAgain tpq siblings index G duration n = some m) :
    m.pitchData.octave = max 0 (min 9 n.pitchData.octave) := by
  rw [C58_note _ _ _ _ _ _ hn] at h
  cases h
  have hp : NoteDetails.isPitched n = true := by rw [NoteDetails.isPitched, hr, hu]; rfl
  simp only [keptNote, keptPitch, hp, if_true]

/-- **C30 is false** for cents against the direction of the alteration: one semitone up and 50 cents down comes back as 50 cents up from the natural. -/
theorem C30_opposite_cents_changed : (noteAgain 12 [] 0 12 12 { pitchData := { step := .f, alter := 1, cents := -50 } }).map (fun m => (m.pitchData.alter, m.pitchData.cents)) =
    some (0, 50) := by decide +kernel

/-! ### C31 -/

/-- **C31 (partial)** The beams of a note come back in the same order, if there are at most 8 and none is unspecified. -/
theorem C31_beams_partial (bs : List Api.Beam) (hl : bs.length ≤ 8) (h : ∀ b ∈ bs, b ≠ .unspecified) : readBeams (writeBeams bs) = bs := by
  rw [beams_back, List.take_of_length_le hl]
  exact map_beams h

example : readBeams (writeBeams [.begin, .forwardBroken, .backwardBroken]) = [.begin, .forwardBroken, .backwardBroken] := by decide +kernel

/-- **C31** exactly: the first eight beams come back in order, and an unspecified beam as the beginning of one. -/
theorem C31_beams (bs : List Api.Beam) : readBeams (writeBeams bs) = (bs.take 8).map (fun b => if b = .unspecified then .begin else b) := beams_back bs

/-- **C31** The beams written are numbered 1, 2, 3, … in order, without gaps. -/
theorem C31_numbers (bs : List Api.Beam) (i : Nat) (hi : i < bs.length) (hi8 : i < 8) :
    ((writeBeams bs)[i]?.bind (·.number)) = some (showInt ((i : Int) + 1)) := by
  rw [writeBeams_eq]
  have key : ∀ (l : List Api.Beam) (j i : Nat), i < l.length → j + i < 8 → ((beamXmls j l)[i]?.bind (·.number)) = some (showInt (((j + i : Nat) : Int) + 1)) := by
    intro l
    induction l with
    | nil => intro j i h; exact absurd h (by simp)
    | cons b l ih =>
      intro j i h hb
      cases i with
      | zero =>
        simp only [beamXmls, List.getElem?_cons_zero, Option.bind_some, Nat.add_zero]
        rw [beamLevel_text (by omega)]
      | succ i =>
        simp only [beamXmls, List.getElem?_cons_succ]
        rw [ih (j + 1) i (by simpa using h) (by omega), show j + 1 + i = j + (i + 1) by omega]
  have := key (bs.take 8) 0 i (by rw [List.length_take]; omega) (by omega)
  simpa using this

/-- **C31** Reading does not depend on the order of the `<beam>` elements: eight beams or fewer with different numbers come back in the order of their numbers. -/
theorem C31_any_order (xs : List (Nat × Core.BeamValue)) (h : ∀ x ∈ xs, 1 ≤ x.1 ∧ x.1 ≤ 8) (hd : (xs.map (·.1)).Nodup) (ys : List (Nat × Core.BeamValue))
    (hp : ys.Perm xs) (hy : ys.Pairwise (fun a b => a.1 < b.1)) :
    readBeams (xs.map (fun x => { number := some (showInt x.1), value := StringEnum.toStr x.2 })) = ys.map (fun y => MapName.beamMap.toApi y.2) :=
  readBeams_any_order h hd hp hy

example : readBeams [{ number := some (chars "2"), value := chars "backward hook" }, { number := some (chars "1"), value := chars "end" }] = [.end, .backwardBroken] := by
  decide +kernel

end Mx.Props
