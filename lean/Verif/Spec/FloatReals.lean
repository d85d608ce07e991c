import Verif.Spec.DecimalRanges

/-! Which numbers a decimal class of the documents can hold. -/
open Mx
namespace Spec

/-- A number in the range of the class that is not too large, and not so small that it is written as 0 where 0 is excluded. -/
structure Holds (k : DecimalKind) (v : ℚ) : Prop where
  inRange : InRange k v
  moderate : |v| ≤ 500000000
  visible : ExcludesZero k → 1 / 10 ^ 6 ≤ v

end Spec
