import Verif.Model.HeadersThrough
import Verif.Spec.Decimal
import Verif.Spec.Properties
import Verif.Spec.Tokens

/-
What `<measure>` and `<transpose>` elements of a document say, whatever the spelling of their numbers.

Only the data types, and the texts of enumerations (C23), are shared with the model.
-/
namespace Spec
open Mx

/-- A measure: the words of its number, its width, whether its number is never shown, whether its left barline is its own only, and the multi-measure rests that
begin there. -/
structure MeasureSaid where
  number : List (List Char)
  width : Option ℚ := none
  implicit : Option Bool := none
  nonControlling : Option Bool := none
  rests : List Str := []
deriving DecidableEq

/-- The texts of `true` and `false`. -/
def yesNoText (b : Bool) : Str := if b then chars "yes" else chars "no"

/-- What a `<measure>` says. -/
structure MeasureSays (x : MeasureFile) (a : MeasureSaid) : Prop where
  number : words x.head.number = a.number
  width : (x.head.width = none ∧ a.width = none) ∨ ∃ t w, x.head.width = some t ∧ a.width = some w ∧ DecimalText t w
  implicit : x.head.implicit = a.implicit.map yesNoText
  nonControlling : x.nonControlling = a.nonControlling.map yesNoText
  rests : x.multipleRests = a.rests

/-- What the program keeps: a number, and a width that is not negative, with at most six decimals. -/
structure MeasureHeadKept (a : MeasureSaid) : Prop where
  number : a.number ≠ []
  width : ∀ w ∈ a.width, 0 ≤ w ∧ w ≤ 9999999999999999999 ∧ HasDecimals 6 w
  nonControlling : a.nonControlling = none
  rests : a.rests = []

/-- A transposition: how many semitones and steps of the scale the notes sound higher, octaves included. -/
structure TransposeSaid where
  chromatic : Int
  diatonic : Int
deriving DecidableEq

/-- What a `<transpose>` says.  Without `<diatonic>` the steps are the usual ones of the interval.  (The numbers are at most 10^8.) -/
def TransposeSays (x : TransposeXml) (a : TransposeSaid) : Prop :=
  ∃ c o : Int, |c| ≤ 10 ^ 8 ∧ |o| ≤ 10 ^ 8 ∧ DecimalText x.chromatic (c : ℚ) ∧
    ((x.octaveChange = none ∧ o = 0) ∨ ∃ t, x.octaveChange = some t ∧ IntegerText t o) ∧ a.chromatic = c + 12 * o ∧
    ((x.diatonic = none ∧ a.diatonic = usualDiatonic c + 7 * o) ∨ ∃ t d, x.diatonic = some t ∧ |d| ≤ 10 ^ 8 ∧ IntegerText t d ∧ a.diatonic = d + 7 * o)

/-- The transpositions that are kept: a million semitones and steps at most; not zero; and the steps are the usual ones, or at least not zero and not those of the
whole octaves that are in the semitones. -/
def TransposeKept (a : TransposeSaid) : Prop :=
  |a.chromatic| ≤ 10 ^ 6 ∧ |a.diatonic| ≤ 10 ^ 6 ∧ (a.chromatic ≠ 0 ∨ a.diatonic ≠ 0) ∧
    (a.diatonic = usualDiatonic a.chromatic ∨ (a.diatonic ≠ 0 ∧ a.diatonic ≠ 7 * a.chromatic.tdiv 12))

/-- All `<transpose>` elements of a part, with the measure and the time that they are at. -/
def allTransposes (ms : List (List (Int × List TransposeXml))) : List (Nat × Int × TransposeXml) :=
  ms.zipIdx.flatMap fun m => m.1.flatMap fun a => a.2.map fun x => (m.2, a.1, x)

/-- What the `<transpose>` elements of a part say. -/
def TransposesSay (ms : List (List (Int × List TransposeXml))) (said : List (Nat × Int × TransposeSaid)) : Prop :=
  List.Forall₂ (fun x a => x.1 = a.1 ∧ x.2.1 = a.2.1 ∧ TransposeSays x.2.2 a.2.2) (allTransposes ms) said

/-- What is kept: nothing, or one transposition at the beginning of the part. -/
def TransposesKept (said : List (Nat × Int × TransposeSaid)) : Prop := said = [] ∨ ∃ a, said = [(0, 0, a)] ∧ TransposeKept a

end Spec
