import Verif.Model.Decimals

/-
The documented ranges of the bounded decimals ("Range:" in private/mx/core/Decimals.h 128-248).
-/
namespace Spec
open Mx

/-- The value lies in the documented range of the class. -/
def InRange : DecimalKind → ℚ → Prop
  | .DivisionsValue, _ => True
  | .MillimetersValue, _ => True
  | .NonNegativeDecimal, v => 0 ≤ v
  | .Percent, v => 0 ≤ v ∧ v ≤ 100
  | .PositiveDecimal, v => 0 < v
  | .PositiveDivisions, v => 0 < v
  | .PositiveDivisionsValue, v => 0 < v
  | .RotationDegrees, v => -180 ≤ v ∧ v ≤ 180
  | .Semitones, _ => True
  | .TenthsValue, _ => True
  | .Decimal, _ => True
  | .TrillBeats, v => 2 ≤ v

/-- The class excludes its lower bound 0. -/
def ExcludesZero (k : DecimalKind) : Prop := k = .PositiveDecimal ∨ k = .PositiveDivisions ∨ k = .PositiveDivisionsValue

/-- The value documented for a number outside the range: the bound it exceeds, or next to it if the bound is exclusive. -/
def nearestBound : DecimalKind → ℚ → ℚ
  | .Percent, v => if v < 0 then 0 else 100
  | .RotationDegrees, v => if v < -180 then -180 else 180
  | .PositiveDecimal, _ => 0.000001
  | .PositiveDivisions, _ => 0.000001
  | .PositiveDivisionsValue, _ => 0.000001
  | .TrillBeats, _ => 2
  | _, _ => 0

end Spec
