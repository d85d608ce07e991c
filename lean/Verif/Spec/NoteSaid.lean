import Verif.Model.NoteDetails
import Verif.Spec.Decimal
import Verif.Spec.Properties

/-
What a `<note>` of a document says, whatever the spelling of its numbers and whether defaults are written out.  Left out: the `<normal-type>` and `<normal-dot>` of a time modification.

Only the data types, and the texts of enumerations (C23), are shared with the model.
-/
namespace Spec
open Mx
open Mx.Measure (NoteKind)

/-- A rest, an unpitched note or a pitch.  `place` is where a rest or an unpitched note is shown on the staff. -/
inductive SoundSaid where
  | rest (wholeMeasure : Bool) (place : Option (Core.StepEnum × Int))
  | unpitched (place : Option (Core.StepEnum × Int))
  | pitch (step : Core.StepEnum) (alter : ℚ) (octave : Int)
deriving DecidableEq

/-- What a note says. -/
structure NoteSaid where
  kind : NoteKind
  tieStart : Bool
  tieStop : Bool
  sound : SoundSaid
  type : Option Core.NoteTypeValue
  dots : Nat
  /-- the accidental with its marks: parentheses, cautionary, editorial, bracket -/
  accidental : Option (Core.AccidentalValue × Bool × Bool × Bool × Bool)
  actualNotes : Int
  normalNotes : Int
  stem : Option Core.StemValue
  notehead : Core.NoteheadValue
  beams : List (Nat × Core.BeamValue)
deriving DecidableEq

/-- A yes-no attribute that is "no" by default. -/
def Marked (text : Option Str) (b : Bool) : Prop :=
  (b = true ∧ text = some (chars "yes")) ∨ (b = false ∧ (text = none ∨ text = some (chars "no")))

/-- `<display-step>` and `<display-octave>`. -/
def PlaceSays : Option (Str × Str) → Option (Core.StepEnum × Int) → Prop
  | none, none => True
  | some t, some p => t.1 = StringEnum.toStr p.1 ∧ IntegerText t.2 p.2
  | _, _ => False

/-- `<rest>`, `<unpitched>`, `<pitch>`; without `<alter>` a pitch is not altered. -/
def SoundSays : SoundXml → SoundSaid → Prop
  | .rest measure display, .rest whole place => Marked measure whole ∧ PlaceSays display place
  | .unpitched display, .unpitched place => PlaceSays display place
  | .pitch s a o, .pitch step alter octave =>
    s = StringEnum.toStr step ∧ (match a with | none => alter = 0 | some t => DecimalText t alter) ∧ IntegerText o octave
  | _, _ => False

/-- `<accidental>`. -/
def AccidentalSays : Option AccidentalXml → Option (Core.AccidentalValue × Bool × Bool × Bool × Bool) → Prop
  | none, none => True
  | some x, some (v, p, c, e, b) => x.value = StringEnum.toStr v ∧ Marked x.parentheses p ∧ Marked x.cautionary c ∧ Marked x.editorial e ∧ Marked x.bracket b
  | _, _ => False

/-- `<time-modification>`; without one, one note has the time of one. -/
def ModificationSays : Option TimeModificationXml → Int → Int → Prop
  | none, a, n => a = 1 ∧ n = 1
  | some t, a, n => IntegerText t.actualNotes a ∧ IntegerText t.normalNotes n

/-- `<beam>`; its number is 1 by default. -/
def BeamSays (x : BeamXml) (b : Nat × Core.BeamValue) : Prop :=
  x.value = StringEnum.toStr b.2 ∧ (match x.number with | none => b.1 = 1 | some t => IntegerText t (b.1 : Int))

/-- What the elements of a note say. -/
structure NoteSays (x : NoteXml) (a : NoteSaid) : Prop where
  kind : x.kind = a.kind
  ties : ∀ t ∈ x.ties, t = chars "start" ∨ t = chars "stop"
  tieStart : a.tieStart = true ↔ chars "start" ∈ x.ties
  tieStop : a.tieStop = true ↔ chars "stop" ∈ x.ties
  sound : SoundSays x.sound a.sound
  type : x.type = a.type.map StringEnum.toStr
  dots : x.dots = a.dots
  accidental : AccidentalSays x.accidental a.accidental
  modification : ModificationSays x.timeModification a.actualNotes a.normalNotes
  stem : x.stem = a.stem.map StringEnum.toStr
  notehead : x.notehead = some (StringEnum.toStr a.notehead) ∨ (x.notehead = none ∧ a.notehead = .normal)
  beams : List.Forall₂ BeamSays x.beams a.beams

/-- A sound that the program keeps: not shown at a place of its own; octaves 0 to 9; alterations with at most six decimals. -/
def SoundKept : SoundSaid → Prop
  | .rest _ place => place = none
  | .unpitched place => place = none
  | .pitch _ alter octave => 0 ≤ octave ∧ octave ≤ 9 ∧ HasDecimals 6 alter ∧ |alter| ≤ 2147483647

/-- A note that the program keeps. -/
structure FileNoteKept (a : NoteSaid) : Prop where
  sound : SoundKept a.sound
  /-- cue notes have no ties -/
  cue : a.kind = .cue → a.tieStart = false ∧ a.tieStop = false
  /-- exactly the rests for whole measures have no type -/
  type : a.type = none ↔ ∃ place, a.sound = .rest true place
  /-- no accidental "sharp-sharp", and none with marks -/
  accidental : ∀ v p c e b, a.accidental = some (v, p, c, e, b) → v ≠ .sharpSharp ∧ (p, c, e, b) = (false, false, false, false)
  actualNotes : 0 < a.actualNotes ∧ a.actualNotes ≤ INT_MAX
  normalNotes : 0 < a.normalNotes ∧ a.normalNotes ≤ INT_MAX
  notehead : a.notehead ≠ .faUp
  /-- the beams are numbered 1, 2, 3, …, in any order -/
  beams : (a.beams.map (·.1)).Perm (List.range' 1 a.beams.length) ∧ a.beams.length ≤ 8

end Spec
