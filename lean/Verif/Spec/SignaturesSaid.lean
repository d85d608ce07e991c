import Verif.Model.Properties
import Verif.Spec.Decimal
import Verif.Spec.Properties
import Verif.Spec.Text
import Verif.Spec.Tokens

/-
What `<clef>` and `<key>` elements of a document say, whatever the spelling of their numbers.

Only the data types, and the texts of enumerations (C23), are shared with the model.
-/
namespace Spec
open Mx

/-- A clef: the sign, the line it is on (the standard one of the treble, bass and alto clef if there is none), and by how many octaves the notes sound higher. -/
structure ClefSaid where
  sign : Core.ClefSign
  line : Option Int
  octaveChange : Int := 0
deriving DecidableEq

/-- The standard lines of the signs that fix a pitch. -/
def standardLine : Core.ClefSign → Option Int
  | .g => some 2
  | .f => some 4
  | .c => some 3
  | _ => none

/-- What a `<clef>` says. -/
structure ClefSays (x : ClefXml) (a : ClefSaid) : Prop where
  sign : x.sign = StringEnum.toStr a.sign
  line : (x.line = none ∧ a.line = standardLine a.sign) ∨ ∃ t v, x.line = some t ∧ IntegerText t v ∧ a.line = some v
  octaveChange : (x.octaveChange = none ∧ a.octaveChange = 0) ∨ ∃ t, x.octaveChange = some t ∧ IntegerText t a.octaveChange

/-- What the program keeps: the line is known, and not below the staff. -/
def ClefKept (a : ClefSaid) : Prop := (∃ v, a.line = some v ∧ 0 ≤ v ∧ v ≤ INT_MAX) ∧ INT_MIN ≤ a.octaveChange ∧ a.octaveChange ≤ INT_MAX

/-- One accidental of a key signature that is not traditional: step, alteration in semitones, and the sign that is shown. -/
structure KeyPartSaid where
  step : Core.StepEnum
  alter : ℚ
  accidental : Option Core.AccidentalValue := none
deriving DecidableEq

/-- A key signature: sharps (positive) or flats (negative), those that it cancels, and the mode; or accidentals one by one. -/
inductive KeySaid where
  | traditional (fifths cancel : Int) (mode : Option Str)
  | other (parts : List KeyPartSaid)
deriving DecidableEq

/-- What the elements of one accidental say. -/
structure KeyPartSays (x : KeyPartXml) (a : KeyPartSaid) : Prop where
  step : x.step = StringEnum.toStr a.step
  alter : DecimalText x.alter a.alter
  accidental : x.accidental = a.accidental.map StringEnum.toStr

/-- What a `<key>` says. -/
def KeySays (x : KeyXml) (a : KeySaid) : Prop :=
  match x.choice, a with
  | .traditional c f m, .traditional fifths cancel mode => IntegerText f fifths ∧ ((c = none ∧ cancel = 0) ∨ ∃ t, c = some t ∧ IntegerText t cancel) ∧ m = mode
  | .nonTraditional xs, .other l => List.Forall₂ KeyPartSays xs l
  | _, _ => False

/-- What the program keeps: major, minor or no mode; alterations with six decimals and accidentals other than the double sharp made of two sharps. -/
def KeyKept : KeySaid → Prop
  | .traditional f c m => (INT_MIN ≤ f ∧ f ≤ INT_MAX) ∧ (INT_MIN ≤ c ∧ c ≤ INT_MAX) ∧ (m = none ∨ m = some (chars "major") ∨ m = some (chars "minor"))
  | .other l => l ≠ [] ∧ ∀ p ∈ l, HasDecimals 6 p.alter ∧ |p.alter| ≤ 2147483647 ∧ p.accidental ≠ some .sharpSharp

/-- The staff that a `<key>` is for; `none`: all staves of the part. -/
def KeyOnStaff (x : KeyXml) (staff : Option Int) : Prop := (x.number = none ∧ staff = none) ∨ ∃ t v, x.number = some t ∧ IntegerText t v ∧ staff = some v

/-- A key signature of sharps or flats. -/
def Traditional (x : KeyXml) : Prop := ∃ c f m, x.choice = .traditional c f m

end Spec
