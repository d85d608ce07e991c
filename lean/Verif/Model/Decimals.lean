import Verif.Model.Basic
import Mathlib.Data.Rat.Floor
import Mathlib.Algebra.Order.Floor.Ring

/-
Model of private/mx/core/Decimals.cpp.

Simplification: `long double` is modelled by the rational numbers, that is, arithmetic and the conversion from text are exact.
(An x87 `long double` has 64 bits of precision: the rounding errors it adds are outside the model.)
Infinities and NaN cannot come from text and are left out.
-/
namespace Mx

/-- `POINT_FIVE`, private/mx/core/Decimals.cpp 55. -/
def pointFive : ℚ := 4999999 / 10000000

/-- `PreciseDecimal`, private/mx/core/Decimals.h 61-70; the two largest expressible parts are functions of the numbers of digits. -/
structure PreciseDecimal where
  isNegative : Bool
  integer : Nat
  decimal : Nat
  maxIntegerDigits : Nat
  maxDecimalDigits : Nat
deriving Repr, DecidableEq

namespace PreciseDecimal

/-- `findMax`, private/mx/core/Decimals.cpp 231-244 (at most 19 digits, so that nothing wraps around). -/
def findMax : Nat → Nat
  | 0 => 0
  | n + 1 => findMax n + 10 ^ n * 9

/-- `setMaxIntegerDigits`, `setMaxDecimalDigits`, private/mx/core/Decimals.cpp 197-229. -/
def clampDigits (n : Int) : Nat := if n < 1 then 1 else if n > 19 then 19 else n.toNat

/-- `setValue`, private/mx/core/Decimals.cpp 57-94.  `none`: the conversion of a number of 2^64 or more to `uint64_t` is undefined. -/
def setValue (p : PreciseDecimal) (inValue : ℚ) : Option PreciseDecimal :=
  let isNegative := decide (inValue < 0)
  let value := if inValue < 0 then inValue * -1 else inValue
  let integer := ⌊value⌋.toNat
  if integer ≥ 2 ^ 64 then none
  else if integer > findMax p.maxIntegerDigits then
    some { p with isNegative := isNegative, integer := findMax p.maxIntegerDigits, decimal := findMax p.maxDecimalDigits }
  else
    let decimalPart := value - integer
    let digits := ⌈decimalPart * 10 ^ p.maxDecimalDigits - pointFive⌉.toNat
    if digits > findMax p.maxDecimalDigits then some { p with isNegative := isNegative, integer := integer + 1, decimal := 0 }
    else some { p with isNegative := isNegative, integer := integer, decimal := digits }

/-- The constructor, private/mx/core/Decimals.cpp 18-30. -/
def make (maxIntegerDigits maxDecimalDigits : Int) (value : ℚ) : Option PreciseDecimal :=
  setValue { isNegative := decide (value < 0), integer := 0, decimal := 0,
             maxIntegerDigits := clampDigits maxIntegerDigits, maxDecimalDigits := clampDigits maxDecimalDigits } value

/-- `express`, private/mx/core/Decimals.cpp 262-277. -/
def express (integer decimal maxDecimalDigits : Nat) (isNegative : Bool) : ℚ :=
  let result : ℚ := integer + (decimal : ℚ) / 10 ^ maxDecimalDigits
  if isNegative then result * -1 else result

/-- `getValue`, private/mx/core/Decimals.cpp 50-53. -/
def getValue (p : PreciseDecimal) : ℚ := express p.integer p.decimal p.maxDecimalDigits p.isNegative

/-- `getMaxExpressibleNumber`, private/mx/core/Decimals.cpp 106-109. -/
def getMaxExpressibleNumber (p : PreciseDecimal) : ℚ :=
  express (findMax p.maxIntegerDigits) (findMax p.maxDecimalDigits) p.maxDecimalDigits p.isNegative

/-- `getMinExpressibleNumber`, private/mx/core/Decimals.cpp 111-114. -/
def getMinExpressibleNumber (p : PreciseDecimal) : ℚ := -1 * p.getMaxExpressibleNumber

/-- The loop that counts digits, private/mx/core/Decimals.cpp 160-171: `n` iterations are left. -/
def countDigits (decimal : Nat) : Nat → Nat → Nat → Nat
  | 0, digits, _ => digits
  | n + 1, digits, tens => if decimal / (tens * 10) < 1 then digits + 1 else countDigits decimal n (digits + 1) (tens * 10)

/-- `toStream`, private/mx/core/Decimals.cpp 116-188. -/
def toStr (p : PreciseDecimal) : Str :=
  if p.integer = 0 ∧ p.decimal = 0 then ['0']
  else
    let head := (if p.isNegative then ['-'] else []) ++ Nat.toDigits 10 p.integer
    if p.decimal = 0 then head
    else
      let backwards := (Nat.toDigits 10 p.decimal).reverse.dropWhile (· == '0')
      let leadingZeros := p.maxDecimalDigits - countDigits p.decimal (p.maxDecimalDigits + 1) 0 1
      head ++ ['.'] ++ List.replicate leadingZeros '0' ++ backwards.reverse

end PreciseDecimal

/-- Outcome of `ss >> longDoubleVariable`: the value unless the failbit is set, and the characters not consumed. -/
structure DecimalRead where
  value : Option ℚ
  rest : Str

/-- The exponent part of a number, if there is one: its value (`none`: 'e' without digits) and the remaining text. -/
def readExponent : Str → Option Int × Str
  | c :: t =>
    if c = 'e' ∨ c = 'E' then
      let (neg, u) := readSign t
      let es := u.takeWhile Char.isDigit
      let n : Int := Nat.ofDigitChars 10 es 0
      (if es = [] then none else some (if neg then -n else n), u.dropWhile Char.isDigit)
    else (some 0, c :: t)
  | [] => (some 0, [])

/-- A decimal point with the digits after it, if there is one: the digits and the remaining text. -/
def readFraction : Str → Str × Str
  | '.' :: v => (v.takeWhile Char.isDigit, v.dropWhile Char.isDigit)
  | v => ([], v)

/-- `std::istream::operator>>( long double& )` on a fresh string stream holding `s`: white space is skipped; then the longest prefix of
the form sign, digits, point, digits, exponent is taken ([facet.num.get.virtuals] stage 2, as implemented by libstdc++: an exponent
only after a digit) and must be accepted completely by `strtold` (stage 3: at least one digit, an exponent with digits; otherwise failbit).
Numbers beyond the range of `long double` fail. -/
def readDecimal (s : Str) : DecimalRead :=
  match skipWs s with
  | [] => ⟨none, []⟩
  | c :: t =>
    let (neg, u) := readSign (c :: t)
    let ip := u.takeWhile Char.isDigit
    let u1 := u.dropWhile Char.isDigit
    let (fp, u2) := readFraction u1
    if ip = [] ∧ fp = [] then ⟨none, u2⟩
    else
      let (e, rest) := readExponent u2
      match e with
      | none => ⟨none, rest⟩
      | some e =>
        let m : ℚ := Nat.ofDigitChars 10 (ip ++ fp) 0
        let v := (if neg then -m else m) / 10 ^ fp.length * 10 ^ e
        if |v| < 2 ^ 16384 then ⟨some v, rest⟩ else ⟨none, rest⟩

/-- The classes derived from `DecimalRange`, private/mx/core/Decimals.h 128-248, and the class `Decimal` itself (no range). -/
inductive DecimalKind where
  | DivisionsValue | MillimetersValue | NonNegativeDecimal | Percent | PositiveDecimal | PositiveDivisions
  | PositiveDivisionsValue | RotationDegrees | Semitones | TenthsValue | TrillBeats | Decimal
deriving Repr, DecidableEq

/-- `NON_ZERO_AMOUNT`, private/mx/core/Decimals.h 31. -/
def nonZeroAmount : ℚ := 1 / 1000000

/-- `minExclusive`, private/mx/core/Decimals.cpp 355-363. -/
def minExclusive (min v : ℚ) : ℚ := if v ≤ min then min + nonZeroAmount else v
/-- `minInclusive`, private/mx/core/Decimals.cpp 365-373. -/
def minInclusive (min v : ℚ) : ℚ := if v < min then min else v
/-- `maxInclusive`, private/mx/core/Decimals.cpp 385-393. -/
def maxInclusive (max v : ℚ) : ℚ := if v > max then max else v

namespace DecimalKind

/-- The first clamp (`min`) of each class, private/mx/core/Decimals.cpp 419-548. -/
def minClamp : DecimalKind → ℚ → ℚ
  | NonNegativeDecimal => minInclusive 0
  | Percent => minInclusive 0
  | PositiveDecimal | PositiveDivisions | PositiveDivisionsValue => minExclusive 0
  | RotationDegrees => minInclusive (-180)
  | TrillBeats => minInclusive 2
  | DivisionsValue | MillimetersValue | Semitones | TenthsValue | Decimal => id

/-- The second clamp (`max`) of each class, private/mx/core/Decimals.cpp 419-548. -/
def maxClamp : DecimalKind → ℚ → ℚ
  | Percent => maxInclusive 100
  | RotationDegrees => maxInclusive 180
  | _ => id

/-- The value of the default constructor, private/mx/core/Decimals.cpp 425-548. -/
def defaultValue : DecimalKind → ℚ
  | PositiveDecimal | PositiveDivisions | PositiveDivisionsValue => 1
  | TrillBeats => 2
  | _ => 0

end DecimalKind

/-- A `Decimal` that is a `DecimalRange` of the given class (private/mx/core/Decimals.h 116-131). -/
structure DecimalRange where
  kind : DecimalKind
  value : PreciseDecimal
deriving Repr, DecidableEq

namespace DecimalRange

/-- `DecimalRange::DecimalRange` with `Decimal::Decimal`, private/mx/core/Decimals.cpp 279-283, 400-406: 19 digits before the point and 6
(`DEFAULT_PRECISION`) after it. -/
def make (k : DecimalKind) (v : ℚ) : Option DecimalRange :=
  (PreciseDecimal.make 19 6 (k.minClamp (k.maxClamp v))).map (fun p => ⟨k, p⟩)

/-- `DecimalRange::setValue`, private/mx/core/Decimals.cpp 408-411. -/
def setValue (d : DecimalRange) (v : ℚ) : Option DecimalRange :=
  (d.value.setValue (d.kind.minClamp (d.kind.maxClamp v))).map (fun p => { d with value := p })

/-- `Decimal::parse`, private/mx/core/Decimals.cpp 300-310; `setValue` is the virtual one. -/
def parse (d : DecimalRange) (s : Str) : Option (Bool × DecimalRange) :=
  let r := readDecimal s
  match r.value with
  | none => some (false, d)
  | some v => if skipWs r.rest = [] then (d.setValue v).map (fun d' => (true, d')) else some (false, d)

/-- `getValue`, private/mx/core/Decimals.cpp 291-294. -/
def getValue (d : DecimalRange) : ℚ := d.value.getValue

/-- `toString`, private/mx/core/Decimals.cpp 312-321. -/
def toStr (d : DecimalRange) : Str := d.value.toStr

/-- Operations of the public interface. -/
inductive Op where
  | setValue (v : ℚ)
  | parse (s : Str)

/-- One operation. -/
def step (d : DecimalRange) : Op → Option DecimalRange
  | .setValue v => d.setValue v
  | .parse s => (d.parse s).map (·.2)

/-- A history of operations. -/
def run (d : DecimalRange) : List Op → Option DecimalRange
  | [] => some d
  | o :: os => (d.step o).bind (fun d' => d'.run os)

end DecimalRange
end Mx
