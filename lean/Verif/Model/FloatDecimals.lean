import Verif.Model.Floating
import Verif.Model.Decimals

/-
The decimal numbers of private/mx/core/Decimals.cpp once more, with the rounding of floating point arithmetic: every result of an operation on `DecimalType` is rounded to the `prec` binary digits of `long double`
(Floating.lean).  Numbers given as arguments are numbers of the type.
Simplifications: `std::pow( 10, n )` is exact (what it gives is rounded to the next integer at once); no infinities, NaN and subnormal numbers.
-/
namespace Mx
open Fl

/-- `POINT_FIVE`, private/mx/core/Decimals.cpp 55: the literal is a `double`. -/
def pointFiveF : ℚ := fl 53 (4999999 / 10000000)

namespace PreciseDecimal

/-- `setValue`, private/mx/core/Decimals.cpp 57-94. -/
def setValueF (prec : Nat) (p : PreciseDecimal) (inValue : ℚ) : Option PreciseDecimal :=
  let isNegative := decide (inValue < 0)
  let value := if inValue < 0 then fl prec (inValue * -1) else inValue
  let integer := ⌊value⌋.toNat
  if integer ≥ 2 ^ 64 then none
  else if integer > findMax p.maxIntegerDigits then
    some { p with isNegative := isNegative, integer := findMax p.maxIntegerDigits, decimal := findMax p.maxDecimalDigits }
  else
    let decimalPart := fl prec (value - fl prec integer)
    let shifted := fl prec (decimalPart * fl prec (10 ^ p.maxDecimalDigits))
    let digits := ⌈fl prec (shifted - pointFiveF)⌉.toNat
    if digits > findMax p.maxDecimalDigits then some { p with isNegative := isNegative, integer := integer + 1, decimal := 0 }
    else some { p with isNegative := isNegative, integer := integer, decimal := digits }

/-- `express`, private/mx/core/Decimals.cpp 262-277. -/
def expressF (prec integer decimal maxDecimalDigits : Nat) (isNegative : Bool) : ℚ :=
  let result := fl prec (fl prec integer + fl prec (fl prec decimal / fl prec (10 ^ maxDecimalDigits)))
  if isNegative then fl prec (result * -1) else result

/-- `getValue`, private/mx/core/Decimals.cpp 50-53. -/
def getValueF (prec : Nat) (p : PreciseDecimal) : ℚ := expressF prec p.integer p.decimal p.maxDecimalDigits p.isNegative

end PreciseDecimal

/-- `NON_ZERO_AMOUNT`, private/mx/core/Decimals.h 29: the literal is a `double`. -/
def nonZeroAmountF : ℚ := fl 53 (1 / 1000000)

/-- `minExclusive`, private/mx/core/Decimals.cpp 355-363. -/
def minExclusiveF (prec : Nat) (min v : ℚ) : ℚ := if v ≤ min then fl prec (min + nonZeroAmountF) else v

/-- The first clamp (`min`) of each class, private/mx/core/Decimals.cpp 419-548; only `minExclusive` calculates. -/
def DecimalKind.minClampF (prec : Nat) : DecimalKind → ℚ → ℚ
  | .PositiveDecimal | .PositiveDivisions | .PositiveDivisionsValue => minExclusiveF prec 0
  | k => k.minClamp

namespace DecimalRange

/-- `DecimalRange::setValue`, private/mx/core/Decimals.cpp 408-411. -/
def setValueF (prec : Nat) (d : DecimalRange) (v : ℚ) : Option DecimalRange :=
  (d.value.setValueF prec (d.kind.minClampF prec (d.kind.maxClamp v))).map (fun p => { d with value := p })

/-- `Decimal::parse`, private/mx/core/Decimals.cpp 301-311; the number that is read is the one next to the number of the text (`strtold`). -/
def parseF (prec : Nat) (d : DecimalRange) (s : Str) : Option (Bool × DecimalRange) :=
  let r := readDecimal s
  match r.value with
  | none => some (false, d)
  | some v => if skipWs r.rest = [] then (d.setValueF prec (fl prec v)).map (fun d' => (true, d')) else some (false, d)

/-- `getValue`, private/mx/core/Decimals.cpp 291-294. -/
def getValueF (prec : Nat) (d : DecimalRange) : ℚ := d.value.getValueF prec

/-- One operation of the public interface; an assigned number is the number of the type next to `v`. -/
def stepF (prec : Nat) (d : DecimalRange) : Op → Option DecimalRange
  | .setValue v => d.setValueF prec (fl prec v)
  | .parse s => (d.parseF prec s).map (·.2)

/-- A history of operations. -/
def runF (prec : Nat) (d : DecimalRange) : List Op → Option DecimalRange
  | [] => some d
  | o :: os => (d.stepF prec o).bind (fun d' => d'.runF prec os)

end DecimalRange
end Mx
