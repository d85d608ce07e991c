import Mathlib.Algebra.Order.Field.Rat
import Mathlib.Algebra.Order.Ring.Abs

/-
Numbers for which floating point arithmetic is as good as exact arithmetic.
-/
namespace Spec

/-- `x` has at most six decimals and is not too large for a type of `prec` binary digits: below 2147483648 if there are 53 (`double`), below 4398046511104 if there are 64. -/
structure SixDecimals (prec : Nat) (x : ℚ) : Prop where
  small : |x| < 2 ^ (prec - 22)
  limit : |x| ≤ 10 ^ 18
  digits : ∃ c : Nat, |x| * 10 ^ 6 = c

end Spec
