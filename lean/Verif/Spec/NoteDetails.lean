import Verif.Model.NoteDetails
import Verif.Spec.Properties

/-
What becomes of the details of a note when it is written and read again.
-/
open Spec
namespace Mx.Spec

/-- The numbers of a note are ints, and the cents of a pitched note are a fraction of a semitone in the direction of its alteration, with at most four
decimals. -/
def NoteNumbers (n : NoteDetails) : Prop :=
  InInt n.pitchData.octave ∧ InInt n.pitchData.alter ∧ InInt n.durationData.actualNotes ∧ InInt n.durationData.normalNotes ∧
  (n.isRest = false → n.isUnpitched = false → CentsFit n.pitchData.alter n.pitchData.cents)

/-- The note sounds at a pitch. -/
def NoteDetails.isPitched (n : NoteDetails) : Bool := !n.isRest && !n.isUnpitched

/-- The pitch that comes back: that of rests and unpitched notes is replaced by middle C, the octave is limited to 0..9, and the way the accidental is shown is lost. -/
def keptPitch (isPitched : Bool) (p : PitchData) : PitchData :=
  { step := if isPitched then (if p.step = .unspecified then .c else p.step) else .c
    alter := if isPitched then p.alter else 0
    cents := if isPitched then p.cents else 0
    octave := if isPitched then max 0 (min 9 p.octave) else 4
    accidental := if p.accidental = .sharpSharp then .natural else p.accidental }

/-- The normal type of the time modification that comes back, where `shown` is the one in the document (derived from the tuplet of the note). -/
def keptNormal (isModified : Bool) (name : Api.DurationName) (shown : Option (Api.DurationName × Nat)) : Api.DurationName × Int :=
  match shown with
  | some (t, d) => if isModified ∧ 0 < d ∧ t ≠ name then (t, d) else (.unspecified, 0)
  | none => (.unspecified, 0)

/-- There is a time modification worth writing. -/
def isModified (d : DurationNames) : Bool := decide (0 < d.normalNotes ∧ 0 < d.actualNotes ∧ (1 < d.normalNotes ∨ 1 < d.actualNotes))

/-- The names that come back; `derived` is the name derived from the duration, which replaces the name of a rest for a whole measure. -/
def keptDuration (isMeasureRest : Bool) (derived : Api.DurationName) (shown : Option (Api.DurationName × Nat)) (d : DurationNames) : DurationNames :=
  let name := if d.durationName = .unspecified then .maxima else d.durationName
  let normal := keptNormal (isModified d) (if isMeasureRest then .maxima else name) shown
  { durationName := if isMeasureRest then derived else name
    durationDots := max 0 d.durationDots
    isTied := false
    actualNotes := if isModified d then d.actualNotes else 1
    normalNotes := if isModified d then d.normalNotes else 1
    normalType := normal.1
    normalTypeDots := normal.2 }

/-- What comes back of a note. -/
def keptNote (derived : Api.DurationName) (shown : Option (Api.DurationName × Nat)) (n : NoteDetails) : NoteDetails :=
  { isRest := n.isRest
    isMeasureRest := n.isRest && n.isMeasureRest
    isUnpitched := !n.isRest && n.isUnpitched
    isDisplayStepOctaveSpecified := false
    isTieStart := n.isTieStart && decide (n.noteType ≠ .cue)
    isTieStop := n.isTieStop && decide (n.noteType ≠ .cue)
    noteType := n.noteType
    notehead := if n.notehead = .faUp then .none else n.notehead
    pitchData := keptPitch (NoteDetails.isPitched n) n.pitchData
    stem := n.stem
    durationData := keptDuration (n.isRest && n.isMeasureRest) derived shown n.durationData
    beams := (n.beams.take 8).map (fun b => if b = .unspecified then .begin else b) }

/-- The details of a note that the document can hold. -/
structure NoteFits (derived : Api.DurationName) (shown : Option (Api.DurationName × Nat)) (n : NoteDetails) : Prop where
  numbers : NoteNumbers n
  /-- a measure rest is a rest with the name derived from its duration -/
  measureRest : n.isMeasureRest = true → n.isRest = true ∧ n.durationData.durationName = derived
  unpitched : n.isUnpitched = true → n.isRest = false
  /-- no display step and octave -/
  display : n.isDisplayStepOctaveSpecified = false
  /-- rests and unpitched notes have the default pitch -/
  noPitch : n.isRest = true ∨ n.isUnpitched = true → n.pitchData.step = .c ∧ n.pitchData.alter = 0 ∧ n.pitchData.cents = 0 ∧ n.pitchData.octave = 4
  step : n.pitchData.step ≠ .unspecified
  octave : 0 ≤ n.pitchData.octave ∧ n.pitchData.octave ≤ 9
  accidental : n.pitchData.accidental ≠ .sharpSharp
  /-- the accidental is shown plainly -/
  plain : n.pitchData.isAccidentalParenthetical = false ∧ n.pitchData.isAccidentalCautionary = false ∧ n.pitchData.isAccidentalEditorial = false ∧
    n.pitchData.isAccidentalBracketed = false
  cue : n.noteType = .cue → n.isTieStart = false ∧ n.isTieStop = false
  notehead : n.notehead ≠ .faUp
  name : n.isMeasureRest = false → n.durationData.durationName ≠ .unspecified
  dots : 0 ≤ n.durationData.durationDots
  isTied : n.durationData.isTied = false
  modification : isModified n.durationData = true ∨ n.durationData.actualNotes = 1 ∧ n.durationData.normalNotes = 1
  /-- the normal type is specified exactly when the document shows one with dots that differs from the note's -/
  normalType : (n.durationData.normalType, n.durationData.normalTypeDots) =
    keptNormal (isModified n.durationData) (if n.isMeasureRest then .maxima else n.durationData.durationName) shown
  beams : n.beams.length ≤ 8 ∧ ∀ b ∈ n.beams, b ≠ .unspecified

end Mx.Spec
