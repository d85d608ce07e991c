import Verif.Model.TimesThrough
import Verif.Spec.Tokens

/-
What the `<time>` elements of the measures of a part say.

Only the data types, and the texts of enumerations (C23), are shared with the model.
-/
namespace Spec
open Mx

/-- A time signature: the sum of pairs of beats and beat type (3/8 + 2/4), or no meter at all; the symbol, whether it is shown, and the staff it is for. -/
structure TimeSaid where
  meter : Option (List (Int × Int))
  symbol : Option Core.TimeSymbol := none
  shown : Option Bool := none
  staff : Option Str := none
deriving DecidableEq

/-- The texts of a pair are whole numbers. -/
def PairSays (x : Str × Str) (p : Int × Int) : Prop := CanonicalInteger x.1 p.1 ∧ CanonicalInteger x.2 p.2

/-- What a `<time>` says. -/
structure TimeSays (x : TimeFile) (a : TimeSaid) : Prop where
  meter : match x.content with
    | .signature p ps => ∃ l, a.meter = some l ∧ List.Forall₂ PairSays (p :: ps) l
    | .senzaMisura => a.meter = none
  symbol : x.symbol = a.symbol.map StringEnum.toStr
  shown : x.printObject = a.shown.map (fun b => if b then chars "yes" else chars "no")
  staff : x.number = a.staff

/-- What the measures say: the `<time>` elements of all `<attributes>` of a measure, one after the other. -/
def TimesSaid (ms : List (List (List TimeFile))) (said : List (List TimeSaid)) : Prop := List.Forall₂ (fun m as => List.Forall₂ TimeSays m.flatten as) ms said

/-- What the program keeps of a measure: one time signature, with one pair of numbers within `int`, the symbols C and 𝄵, for all staves. -/
def TimesKept (as : List TimeSaid) : Prop :=
  as = [] ∨ ∃ a b bt, as = [a] ∧ a.meter = some [(b, bt)] ∧ (INT_MIN ≤ b ∧ b ≤ INT_MAX) ∧ (INT_MIN ≤ bt ∧ bt ≤ INT_MAX) ∧ (a.symbol = none ∨ a.symbol = some .common ∨ a.symbol = some .cut) ∧ a.staff = none

end Spec
