import Verif.Model.Directions
import Verif.Spec.Decimal
import Verif.Spec.Properties
import Verif.Spec.Tokens
import Verif.Spec.Text

/-
What a `<harmony>` of a document says, whatever the spelling of its numbers, apart from its layout and its time (C93).

Only the data types, and the texts of enumerations (C23), are shared with the model.
-/
namespace Spec
open Mx Mx.Directions

/-- One chord symbol: root and bass with their alterations in semitones, the kind, the text shown instead of the kind, whether symbols are used, and the degrees that are added, altered or left out (with their alterations). -/
structure ChordSaid where
  root : Core.StepEnum
  rootAlter : Int := 0
  kind : Core.KindValue
  text : Option Str := none
  useSymbols : Option Bool := none
  bass : Option (Core.StepEnum × Int) := none
  degrees : List (Core.DegreeTypeValue × Int × Int) := []
deriving DecidableEq

/-- An alteration: none, or a number. -/
def AlterSays : Option Str → Int → Prop
  | none, v => v = 0
  | some t, v => DecimalText t v

/-- `<bass>`. -/
def BassSays : Option (Str × Option Str) → Option (Core.StepEnum × Int) → Prop
  | none, none => True
  | some (s, a), some (step, v) => s = StringEnum.toStr step ∧ AlterSays a v
  | _, _ => False

/-- `<degree>`: type, number and alteration. -/
def DegreeSays (x : DegreeXml) (d : Core.DegreeTypeValue × Int × Int) : Prop := x.type = StringEnum.toStr d.1 ∧ IntegerText x.value d.2.1 ∧ DecimalText x.alter d.2.2

/-- The elements of one chord symbol. -/
structure ChordSays (x : ChordXml) (a : ChordSaid) : Prop where
  isRoot : x.isRoot = true
  root : x.rootStep = StringEnum.toStr a.root
  rootAlter : AlterSays x.rootAlter a.rootAlter
  kind : x.kind = StringEnum.toStr a.kind
  text : x.kindText = a.text
  useSymbols : x.useSymbols = a.useSymbols.map (fun b => if b then chars "yes" else chars "no")
  bass : BassSays x.bass a.bass
  degrees : List.Forall₂ DegreeSays x.degrees a.degrees

/-- A number of semitones within `int`. -/
def AlterKept (v : Int) : Prop := INT_MIN < v ∧ v ≤ INT_MAX

/-- What the program keeps: the text is not empty and without superfluous spaces; degrees are 1 to 7, 9, 11 and 13, altered by two semitones at most. -/
structure ChordKept (a : ChordSaid) : Prop where
  rootAlter : AlterKept a.rootAlter
  text : ∀ t, a.text = some t → t ≠ [] ∧ Normalised t
  bassAlter : ∀ b, a.bass = some b → AlterKept b.2
  degrees : ∀ d ∈ a.degrees, d.2.1 ∈ ([1, 2, 3, 4, 5, 6, 7, 9, 11, 13] : List Int) ∧ -2 ≤ d.2.2 ∧ d.2.2 ≤ 2

end Spec
