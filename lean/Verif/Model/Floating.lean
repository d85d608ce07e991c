import Mathlib.Data.Int.Log
import Mathlib.Data.Rat.Floor
import Mathlib.Algebra.Order.Floor.Ring

/-
Binary floating point arithmetic as defined by IEEE 754 (round to nearest, ties to even): the result of an operation is the exact result, rounded.
The number of bits of precision is a parameter: 53 for `double`, and for `long double` 53, 64 or 113, depending on the platform.
Simplification: exponents are not bounded, that is, there are no infinities and no subnormal numbers.
-/
namespace Mx.Fl

/-- Round to the nearest integer, ties to even. -/
def rne (q : ℚ) : Int :=
  let f := ⌊q⌋
  if q - f < 1 / 2 then f else if 1 / 2 < q - f then f + 1 else if f % 2 = 0 then f else f + 1

/-- The unit of the last of `p` binary digits of a number. -/
def ulp (p : Nat) (x : ℚ) : ℚ := 2 ^ (Int.log 2 |x| - p + 1)

/-- The number of `p` binary digits next to `x`. -/
def fl (p : Nat) (x : ℚ) : ℚ := if x = 0 then 0 else rne (x / ulp p x) * ulp p x

end Mx.Fl
