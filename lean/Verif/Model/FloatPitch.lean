import Verif.Model.FloatDecimals
import Verif.Model.NoteDetails

/-
Alterations and cents (Properties.lean, NoteDetails.lean) once more, with the rounding of floating point arithmetic: `double` has 53 binary digits, `long double` has `prec`.
-/
namespace Mx
open Fl

/-- `Converter::convertToAlter`, private/mx/impl/Converter.cpp 1811-1823: everything is `double`. -/
def convertToAlterF (semitones : Int) (cents : ℚ) : ℚ :=
  if semitones ≠ 0 ∨ cents ≠ 0 then fl 53 (fl 53 semitones + (if cents ≠ 0 then fl 53 (cents / 100) else 0)) else 0

/-- `Converter::convertToSemitonesAndCents`, private/mx/impl/Converter.cpp 1825-1838: `micro` and `theCents` are `long double`, the literals and `theNarrowCents` are `double`. -/
def convertToSemitonesAndCentsF (prec : Nat) (xmlAlter : ℚ) : Option (Int × ℚ) :=
  (castInt xmlAlter).map fun (intAlter : Int) =>
    let micro : ℚ := fl prec (xmlAlter - fl prec intAlter)
    (intAlter, if |micro| ≥ fl 53 (1 / 1000000000000) then fl 53 (fl prec (micro * 100)) else 0)

/-- The text of an element that holds a `Semitones`. -/
def semitonesTextF (prec : Nat) (v : ℚ) : Option Str := ((DecimalRange.make .Semitones 0).bind (fun d => d.setValueF prec v)).map DecimalRange.toStr

/-- `Semitones::parse` of a new element (its value is 0 before) and `getValue`. -/
def parseSemitonesF (prec : Nat) (s : Str) : Option ℚ := ((DecimalRange.make .Semitones 0).bind (fun d => d.parseF prec s)).map (fun r => r.2.getValueF prec)

/-- The `<alter>` element, private/mx/impl/NoteWriter.cpp 373-378. -/
def writeAlterF (prec : Nat) (alter : Int) (cents : ℚ) : Option (Option Str) :=
  if alter ≠ 0 ∨ cents ≠ 0 then (semitonesTextF prec (convertToAlterF alter cents)).map some else some none

/-- The alteration of a pitch, private/mx/impl/NoteReader.cpp 218-223. -/
def readAlterF (prec : Nat) : Option Str → Option (Int × ℚ)
  | none => some (0, 0)
  | some a => (parseSemitonesF prec a).bind (convertToSemitonesAndCentsF prec)

/-- The alteration of a part of a non-traditional key, private/mx/impl/PropertiesWriter.cpp 194-195. -/
def writeKeyAlterF (prec : Nat) (alter : Int) (cents : ℚ) : Option Str := semitonesTextF prec (convertToAlterF alter cents)

/-- The same, private/mx/impl/MeasureReader.cpp 476-485. -/
def readKeyAlterF (prec : Nat) (s : Str) : Option (Int × ℚ) := (parseSemitonesF prec s).bind (fun x => if x ≠ 0 then convertToSemitonesAndCentsF prec x else some (0, 0))

end Mx
