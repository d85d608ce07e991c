import Verif.Model.Basic

/-
Model of private/mx/core/Date.cpp.  `Date::impl` is a plain triple; the pimpl and the
copy/move operations (copying goes through the clamping constructor) are
not modelled separately, except that copies are shown to be identities on valid
dates by `mk_of_valid` in Proofs.
-/
namespace Mx

/-- `Date::impl` data members, private/mx/core/Date.cpp 545-548. -/
structure Date where
  year : Int
  month : Int
  day : Int
deriving Repr, DecidableEq

namespace Date

/-- `constrainToRange`, private/mx/core/Date.cpp 231-242. -/
def constrainToRange (value lo hi : Int) : Int :=
  if value < lo then lo else if value > hi then hi else value

/-- `isLeapYear( int )`, private/mx/core/Date.cpp 87-115. C++ `%` on a positive year. -/
def isLeapYear (y : Int) : Bool :=
  if y < 1 ∨ y > 9999 then false
  else if y.tmod 400 = 0 then true
  else if y.tmod 100 = 0 then false
  else if y.tmod 4 = 0 then true
  else false

/-- `MONTHDAYS`, private/mx/core/Date.cpp 609-614. -/
def MONTHDAYS (leap : Bool) : List Int :=
  if leap then [0,31,29,31,30,31,30,31,31,30,31,30,31]
  else [0,31,28,31,30,31,30,31,31,30,31,30,31]

/-- `daysInMonth( int, int )`, private/mx/core/Date.cpp 218-228.  The index is constrained to
1..12 before the array access, so the default of `getD` is never used (`daysInMonth_eq`). -/
def daysInMonth (m y : Int) : Int :=
  (MONTHDAYS (isLeapYear y)).getD (constrainToRange m 1 12).toNat 0

/-- `setDay`, private/mx/core/Date.cpp 68-71. -/
def setDay (d : Date) (v : Int) : Date :=
  { d with day := constrainToRange v 1 (daysInMonth d.month d.year) }

/-- `setYear`, private/mx/core/Date.cpp 54-58. -/
def setYear (d : Date) (v : Int) : Date :=
  let d1 := { d with year := constrainToRange v 1 9999 }
  d1.setDay d1.day

/-- `setMonth`, private/mx/core/Date.cpp 61-65. -/
def setMonth (d : Date) (v : Int) : Date :=
  let d1 := { d with month := constrainToRange v 1 12 }
  d1.setDay d1.day

/-- default constructor, private/mx/core/Date.cpp 39-43. -/
def init : Date := ⟨1900, 1, 1⟩

/-- `impl( int, int, int )`, private/mx/core/Date.cpp 29-37. -/
def make (y m d : Int) : Date := ((init.setYear y).setMonth m).setDay d

/-- `isDateValid`, private/mx/core/Date.cpp 308-338. -/
def isDateValid (y m d : Int) : Bool :=
  if y < 1 then false
  else if y > 9999 then false
  else if m < 1 then false
  else if m > 12 then false
  else if d < 1 then false
  else if d > daysInMonth m y then false
  else true

/-- `setValue`, private/mx/core/Date.cpp 74-84; result and new value. -/
def setValue (x : Date) (y m d : Int) : Bool × Date :=
  if isDateValid y m d then (true, ((x.setYear y).setMonth m).setDay d) else (false, x)

/-- One character test of the loop in `isStringFormatValid`, private/mx/core/Date.cpp 194-212.
(`isdigit` is taken as the ASCII digit test.) -/
def formatCharOk (i : Nat) (c : Char) : Bool :=
  if i ≤ 3 ∧ ¬ c.isDigit then false
  else if (5 ≤ i ∧ i ≤ 6) ∧ ¬ c.isDigit then false
  else if (8 ≤ i ∧ i ≤ 9) ∧ ¬ c.isDigit then false
  else if (i = 4 ∨ i = 7) ∧ ¬ (c = '-') then false
  else true

/-- `isStringFormatValid`, private/mx/core/Date.cpp 185-215. -/
def isStringFormatValid (s : Str) : Bool :=
  if s.length ≠ 10 then false
  else s.zipIdx.all (fun p => formatCharOk p.2 p.1)

/-- `parseStringYear`, private/mx/core/Date.cpp 146-156: (success, year_out). -/
def parseStringYear (s : Str) : Bool × Int :=
  let v := (readInt (-1) (s.take 4)).value
  (decide (v ≥ 1 ∧ v ≤ 9999), v)

/-- `parseStringMonth`, private/mx/core/Date.cpp 159-169. -/
def parseStringMonth (s : Str) : Bool × Int :=
  let v := (readInt (-1) ((s.drop 5).take 2)).value
  (decide (v ≥ 1 ∧ v ≤ 12), v)

/-- `parseStringDay`, private/mx/core/Date.cpp 172-182. -/
def parseStringDay (s : Str) : Bool × Int :=
  let v := (readInt (-1) ((s.drop 8).take 2)).value
  (decide (v ≥ 1 ∧ v ≤ 31), v)

/-- `parse` / `parseString`, private/mx/core/Date.cpp 118-143.  As in the code the result of
`setValue` is ignored. -/
def parse (x : Date) (s : Str) : Bool × Date :=
  if isStringFormatValid s then
    let y := parseStringYear s
    let m := parseStringMonth s
    let d := parseStringDay s
    if y.1 && m.1 && d.1 then
      if d.2 ≤ daysInMonth m.2 y.2 then (true, (x.setValue y.2 m.2 d.2).2)
      else (false, x)
    else (false, x)
  else (false, x)

/-- `impl( const std::string& )`, private/mx/core/Date.cpp 45-49. -/
def ofString (s : Str) : Date := (init.parse s).2

/-- `zeroPad`, private/mx/core/Date.cpp 11-19: `os << value` with width and fill `0`.
(The fill goes in front of the whole field; values are positive here.) -/
def zeroPad (value : Int) (width : Nat) : Str :=
  List.replicate (width - (showInt value).length) '0' ++ showInt value

/-- `toStream`/`toString`, private/mx/core/Date.cpp 798-814. -/
def toStr (d : Date) : Str :=
  zeroPad d.year 4 ++ ['-'] ++ zeroPad d.month 2 ++ ['-'] ++ zeroPad d.day 2

/-- `getWeekday` (Zeller's congruence), private/mx/core/Date.cpp 264-305. C++ `/` and `%` truncate. -/
def getWeekday (d : Date) : Int :=
  let (month, year) := if d.month = 1 then ((13 : Int), d.year - 1) else (d.month, d.year)
  let (month, year) := if month = 2 then ((14 : Int), year - 1) else (month, year)
  let q := d.day
  let m := month
  let k := year.tmod 100
  let j := year.tdiv 100
  let h := q + (13 * (m + 1)).tdiv 5 + k + k.tdiv 4 + j.tdiv 4 + 5 * j
  let h := h.tmod 7
  if h = 0 then 7 else h

/-- `compare`, private/mx/core/Date.cpp 563-596. -/
def compare (a b : Date) : Int :=
  if a.year > b.year then 1
  else if a.year < b.year then -1
  else if a.month > b.month then 1
  else if a.month < b.month then -1
  else if a.day > b.day then 1
  else if a.day < b.day then -1
  else 0

/-- `equal`, private/mx/core/Date.cpp 341-344 and operator== 735. -/
def equal (a b : Date) : Bool := compare a b = 0
/-- `notEqual`, private/mx/core/Date.cpp 347-350 and operator!= 739. -/
def notEqual (a b : Date) : Bool := compare a b ≠ 0
/-- `greaterThan`, private/mx/core/Date.cpp 353-358 and operator> 743. -/
def greaterThan (a b : Date) : Bool := compare a b > 0
/-- `greaterThanOrEqual`, private/mx/core/Date.cpp 361-364 and operator>= 751. -/
def greaterThanOrEqual (a b : Date) : Bool := compare a b ≥ 0
/-- `lessThan`, private/mx/core/Date.cpp 367-370 and operator< 747. -/
def lessThan (a b : Date) : Bool := compare a b < 0
/-- `lessThanOrEqual`, private/mx/core/Date.cpp 373-376 and operator<= 755. -/
def lessThanOrEqual (a b : Date) : Bool := compare a b ≤ 0

/-- Body of the forward loop of `addDays`, private/mx/core/Date.cpp 389-407; `none` is the
early `return`. -/
def stepForward (d : Date) : Option Date :=
  if d.equal (make 9999 12 31) then none
  else if d.month = 12 ∧ d.day = 31 then
    some (((d.setYear (d.year + 1)).setMonth 1).setDay 1)
  else if d.day = daysInMonth d.month d.year then
    some ((d.setMonth (d.month + 1)).setDay 1)
  else some (d.setDay (d.day + 1))

/-- Body of the backward loop of `addDays`, private/mx/core/Date.cpp 414-432. -/
def stepBackward (d : Date) : Option Date :=
  if d.equal (make 1 1 1) then none
  else if d.month = 1 ∧ d.day = 1 then
    some (((d.setYear (d.year - 1)).setMonth 12).setDay 31)
  else if d.day = 1 then
    let d1 := d.setMonth (d.month - 1)
    some (d1.setDay (daysInMonth d1.month d1.year))
  else some (d.setDay (d.day - 1))

/-- A counted loop with early return: `n` iterations of `step`. -/
def loop (step : Date → Option Date) : Nat → Date → Date
  | 0, d => d
  | n + 1, d => match step d with
    | none => d
    | some d' => loop step n d'

/-- `addDays`, private/mx/core/Date.cpp 379-435 (also ++ and --, 759-780). -/
def addDays (d : Date) (days : Int) : Date :=
  if days = 0 then d
  else if days > 0 then loop stepForward days.toNat d
  else loop stepBackward (-days).toNat d

/-- First half of `addMonths`: the new year and the date with its month changed,
private/mx/core/Date.cpp 453-487, for `months` already made non-negative. -/
def addMonthsSplit (d : Date) (direction months : Int) : Int × Date :=
  let new_year := d.year + direction * months.tdiv 12
  let new_month := d.month + direction * months.tmod 12
  if new_month = 0 then (new_year - 1, d.setMonth 12)
  else if new_month < 0 then (new_year - 1, d.setMonth (new_month + 12))
  else if new_month > 12 then (new_year + 1, d.setMonth (new_month.tmod 12))
  else (new_year, d.setMonth new_month)

/-- Second half of `addMonths`: day correction and saturation, private/mx/core/Date.cpp 489-526. -/
def addMonthsFinish (d : Date) (new_year day_was : Int) : Date :=
  let daysover := day_was - daysInMonth d.month new_year
  let d :=
    if daysover > 0 then
      let d1 := d.setYear new_year
      d1.setDay (daysInMonth d1.month d1.year)
    else (d.setYear new_year).setDay day_was
  if new_year < 1 then ((d.setYear 1).setMonth 1).setDay 1
  else if new_year > 9999 then ((d.setYear 9999).setMonth 12).setDay 31
  else d.setYear new_year

/-- `addMonths`, private/mx/core/Date.cpp 438-527; `none` is signed overflow (`months *= -1` on INT_MIN).
The other sums stay far inside `int` (|months/12| < 2^28). -/
def addMonths (d : Date) (months : Int) : Option Date :=
  if months < 0 then
    match chk (months * -1) with
    | none => none
    | some m =>
      let p := d.addMonthsSplit (-1) m
      some (p.2.addMonthsFinish p.1 d.day)
  else
    let p := d.addMonthsSplit 1 months
    some (p.2.addMonthsFinish p.1 d.day)

/-- `addYears`, private/mx/core/Date.cpp 530-543; `none` is signed overflow of `getYear() + years`. -/
def addYears (d : Date) (years : Int) : Option Date :=
  match chk (d.year + years) with
  | none => none
  | some new_year =>
    let d := if d.month = 2 ∧ d.day = 29 ∧ ¬ isLeapYear new_year then (d.setDay 1).setMonth 3 else d
    some (d.setYear new_year)

/-- The mutating public operations of `Date`, include side private/mx/core/Date.cpp 715-795. -/
inductive Op where
  | setYear (v : Int) | setMonth (v : Int) | setDay (v : Int)
  | setValue (y m d : Int) | parse (s : Str)
  | addDays (n : Int) | addMonths (n : Int) | addYears (n : Int)
  | copy
deriving Repr

/-- One operation; `none` when it is undefined behaviour. `copy` is the copy constructor / assignment
(private/mx/core/Date.cpp 634-651). -/
def step (d : Date) : Op → Option Date
  | .setYear v => some (d.setYear v)
  | .setMonth v => some (d.setMonth v)
  | .setDay v => some (d.setDay v)
  | .setValue y m e => some (d.setValue y m e).2
  | .parse s => some (d.parse s).2
  | .addDays n => some (d.addDays n)
  | .addMonths n => d.addMonths n
  | .addYears n => d.addYears n
  | .copy => some (make d.year d.month d.day)

/-- The constructors, private/mx/core/Date.cpp 620-630. -/
inductive Ctor where
  | default | ymd (y m d : Int) | str (s : Str)

/-- Construct. -/
def construct : Ctor → Date
  | .default => init
  | .ymd y m d => make y m d
  | .str s => ofString s

/-- A whole history of operations on one object. -/
def run (d : Date) : List Op → Option Date
  | [] => some d
  | o :: os => match step d o with
    | none => none
    | some d' => run d' os

end Date
end Mx
