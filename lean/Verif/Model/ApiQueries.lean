import Verif.Model.Layout
import Verif.Model.Directions
import Verif.Model.Floating
import Verif.Model.PartStaves

/-
The questions that objects of the API answer about themselves (inline functions of include/mx/api), and the small constructors of `LayoutData`.
Simplifications: `size()` of a vector fits `int`; `int` members are unbounded here, nothing is calculated with them.
-/
namespace Mx
open Fl

namespace Queries

variable {P : Type}

/-- `if( temp > m ) { m = temp; }`, include/mx/api/PartData.h 146-149, 166-169. -/
def larger (m temp : Int) : Int := if temp > m then temp else m

/-- `PartData::getNumStaves`, include/mx/api/PartData.h 139-153. -/
def getNumStaves (measures : List (Measure.MeasureData P)) : Int := measures.foldl (fun m measure => larger m (measure.staves.length : Int)) 0

/-- `PartData::getMaxVoice`, include/mx/api/PartData.h 155-176: the keys of `staff.voices`. -/
def getMaxVoice (measures : List (Measure.MeasureData P)) : Int :=
  measures.foldl (fun m measure => measure.staves.foldl (fun m staff => staff.voices.foldl (fun m voice => larger m voice.1) m) m) 0

/-- `Extension::getAlterValue`, include/mx/api/ChordData.h 94-105. -/
def getAlterValue : Api.ExtensionAlter → Int
  | .none => 0
  | .flat => -1
  | .sharp => 1
  | .doubleFlat => -2
  | .doubleSharp => 2

/-- `Extension::setAlterValue`, include/mx/api/ChordData.h 107-129: the new value of the member. -/
def setAlterValue (v : Int) (old : Api.ExtensionAlter) : Api.ExtensionAlter :=
  if v ≤ -2 then .doubleFlat else if v = -1 then .flat else if v = 0 then .none else if v = 1 then .sharp else if v ≥ 2 then .doubleSharp else old

/-- `ColorData::isBlack`, include/mx/api/ColorData.h 21. -/
def isBlack (c : ColorData) : Bool := (c.red = 255 ∧ c.green = 255 ∧ c.blue = 255) ∧ (c.isAlphaSpecified = false ∨ c.alpha = 255)

/-- `CurvePoints::isSpecified`, include/mx/api/CurveData.h 78-85. -/
def curvePointsSpecified (p : CurvePoints) : Bool :=
  p.positionData.defaultX.isSpecified || p.positionData.defaultY.isSpecified || p.bezierX.isSpecified || p.bezierY.isSpecified || p.isBezierOffsetSpecified

/-- `LineData::isSpecified`, include/mx/api/LineData.h 43-48. -/
def lineSpecified (l : LineData) : Bool := l.lineType ≠ .unspecified ∨ l.dashLength.isSpecified ∨ l.spaceLength.isSpecified

/-- `TimeSignatureData::isEqualTo`, include/mx/api/TimeSignatureData.h 42-47. -/
def timeIsEqualTo (a b : TimeSignatureData) : Bool := a.beats = b.beats ∧ a.beatType = b.beatType ∧ a.symbol = b.symbol

/-- `LayoutData::isUsed`, include/mx/api/LayoutData.h 70. -/
def layoutIsUsed (l : LayoutData) : Bool := l.system.isUsed || l.page.isUsed

/-- `LayoutData( bool, bool )`, include/mx/api/LayoutData.h 45-50. -/
def layoutOf (newSystem newPage : Bool) : LayoutData :=
  { system := { newSystem := if newSystem then .yes else .unspecified }, page := { newPage := if newPage then .yes else .unspecified } }

/-- `PageMarginsData::same`, include/mx/api/PageMarginsData.h 45-48; the numbers are compared exactly here. -/
def marginsSame (m : PageMarginsData) : Bool := m.odd = m.even

/-- `toBool`, include/mx/api/ApiCommon.h 34. -/
def toBool (b : Api.Bool) : Bool := b = .yes

/-- `fromBool`, include/mx/api/ApiCommon.h 35. -/
def fromBool (b : Bool) : Api.Bool := if b then .yes else .no

/-- `DefaultsData::tenthsPerMillimeter`, include/mx/api/DefaultsData.h 89-92, in `long double` of `prec` binary digits; `none`: a division by zero (infinity or NaN). -/
def tenthsPerMillimeter (prec : Nat) (d : DefaultsData) : Option ℚ := if d.scalingMillimeters = 0 then none else some (fl prec (d.scalingTenths / d.scalingMillimeters))

/-- `DefaultsData::tenthsPerInch`, include/mx/api/DefaultsData.h 94-97: the literal is a `double`. -/
def tenthsPerInch (prec : Nat) (d : DefaultsData) : Option ℚ := (tenthsPerMillimeter prec d).map fun t => fl prec (t * fl 53 (254 / 10))

end Queries
end Mx
