import Verif.Model.Notations
import Verif.Spec.Properties

/-
What becomes of positions, curves and tuplets when they are written and read again.
-/
open Spec
namespace Mx.Spec

/-- A number that a decimal attribute can hold: at most six decimals, less than 10^19. -/
def NumFits (n : MaybeNum) : Prop := n.isSpecified = true → HasDecimals 6 n.value ∧ |n.value| ≤ 9999999999999999999

/-- An unspecified number comes back as 0. -/
def keptNum (n : MaybeNum) : MaybeNum := if n.isSpecified then n else {}

/-- A number is 0 if it is unspecified. -/
def PlainNum (n : MaybeNum) : Prop := n.isSpecified = false → n.value = 0

def PositionFits (p : PositionData) : Prop := NumFits p.defaultX ∧ NumFits p.defaultY ∧ NumFits p.relativeX ∧ NumFits p.relativeY

/-- The position that comes back through an element with the members `m`. -/
def keptPosition (m : PositionMembers) (p : PositionData) : PositionData :=
  { defaultX := if m.defaultXY then keptNum p.defaultX else {}
    defaultY := if m.defaultXY then keptNum p.defaultY else {}
    relativeX := if m.relativeXY then keptNum p.relativeX else {}
    relativeY := if m.relativeXY then keptNum p.relativeY else {}
    placement := if m.placement then p.placement else .unspecified
    verticalAlignment := if m.valign then p.verticalAlignment else .unspecified
    horizontalAlignment := if m.halign then p.horizontalAlignment else .unspecified }

def LineFits (l : LineData) : Prop := NumFits l.dashLength ∧ NumFits l.spaceLength

/-- The line that comes back: hook and end length are lost. -/
def keptLine (l : LineData) : LineData := { lineType := l.lineType, dashLength := keptNum l.dashLength, spaceLength := keptNum l.spaceLength }

/-- The colour that comes back. -/
def keptColor (isSpecified : Bool) (c : ColorData) : ColorData :=
  if isSpecified then { c with alpha := if c.isAlphaSpecified then c.alpha else 255 } else {}

/-- The number of a curve or tuplet is limited to 6 and dropped below 1. -/
def keptNumber (n : Int) : Int := if n > 0 then min 6 n else -1

/-- The curve type can be written. -/
def IsTieOrSlur (t : Api.CurveType) : Prop := t ≠ .unspecified

def PointsFit (p : CurvePoints) : Prop := PositionFits p.positionData ∧ NumFits p.bezierX ∧ NumFits p.bezierY ∧ InInt p.bezierOffset

/-- The points that come back: alignments are lost. -/
def keptPoints (p : CurvePoints) : CurvePoints :=
  { positionData := keptPosition curveMembers p.positionData, bezierX := keptNum p.bezierX, bezierY := keptNum p.bezierY
    isBezierOffsetSpecified := p.isBezierOffsetSpecified, bezierOffset := if p.isBezierOffsetSpecified then p.bezierOffset else 0 }

def StopFits (c : CurveStop) : Prop := c.curveType ≠ .unspecified ∧ InInt c.numberLevel ∧ PointsFit c.curvePoints
def ContinueFits (c : CurveContinue) : Prop :=
  c.curveType ≠ .unspecified ∧ InInt c.numberLevel ∧ PointsFit c.curvePoints ∧ NumFits c.bezierX2 ∧ NumFits c.bezierY2 ∧ NumFits c.bezierOffset2
def StartFits (c : CurveStart) : Prop := c.curveType ≠ .unspecified ∧ InInt c.numberLevel ∧ PointsFit c.curvePoints ∧ LineFits c.lineData

def keptStop (c : CurveStop) : CurveStop := { curveType := c.curveType, numberLevel := keptNumber c.numberLevel, curvePoints := keptPoints c.curvePoints }

/-- The second Bézier point of ties is lost. -/
def keptContinue (c : CurveContinue) : CurveContinue :=
  { curveType := c.curveType, numberLevel := keptNumber c.numberLevel, curvePoints := keptPoints c.curvePoints
    bezierX2 := if c.curveType = .slur then keptNum c.bezierX2 else {}
    bezierY2 := if c.curveType = .slur then keptNum c.bezierY2 else {}
    bezierOffset2 := if c.curveType = .slur then keptNum c.bezierOffset2 else {} }

/-- The member `placement` is lost. -/
def keptStart (c : CurveStart) : CurveStart :=
  { curveType := c.curveType, numberLevel := keptNumber c.numberLevel, curvePoints := keptPoints c.curvePoints
    curveOrientation := c.curveOrientation, placement := .unspecified, lineData := keptLine c.lineData
    isColorSpecified := c.isColorSpecified, colorData := keptColor c.isColorSpecified c.colorData }

def CurvesFit (c : NoteCurves) : Prop :=
  (∀ x ∈ c.starts, StartFits x) ∧ (∀ x ∈ c.continuations, ContinueFits x) ∧ (∀ x ∈ c.stops, StopFits x)

def keptCurves (c : NoteCurves) : NoteCurves :=
  { starts := c.starts.map keptStart, continuations := c.continuations.map keptContinue, stops := c.stops.map keptStop }

/-! The data that is kept unchanged. -/

def PlainPosition (p : PositionData) : Prop :=
  PlainNum p.defaultX ∧ PlainNum p.defaultY ∧ PlainNum p.relativeX ∧ PlainNum p.relativeY ∧ p.verticalAlignment = .unspecified ∧ p.horizontalAlignment = .unspecified

def PlainPoints (p : CurvePoints) : Prop :=
  PlainPosition p.positionData ∧ PlainNum p.bezierX ∧ PlainNum p.bezierY ∧ (p.isBezierOffsetSpecified = false → p.bezierOffset = 0)

/-- The number of a curve or tuplet is −1 or 1..6. -/
def PlainNumber (n : Int) : Prop := n = -1 ∨ 1 ≤ n ∧ n ≤ 6

def PlainStop (c : CurveStop) : Prop := PlainNumber c.numberLevel ∧ PlainPoints c.curvePoints
def PlainContinue (c : CurveContinue) : Prop :=
  c.curveType = .slur ∧ PlainNumber c.numberLevel ∧ PlainPoints c.curvePoints ∧ PlainNum c.bezierX2 ∧ PlainNum c.bezierY2 ∧ PlainNum c.bezierOffset2
def PlainStart (c : CurveStart) : Prop :=
  PlainNumber c.numberLevel ∧ PlainPoints c.curvePoints ∧ c.placement = .unspecified ∧ c.lineData.lineHook = .unspecified ∧ c.lineData.endLength = {} ∧
  PlainNum c.lineData.dashLength ∧ PlainNum c.lineData.spaceLength ∧ (c.isColorSpecified = false → c.colorData = {}) ∧
  (c.colorData.isAlphaSpecified = false → c.colorData.alpha = 255)

def PlainCurves (c : NoteCurves) : Prop :=
  (∀ x ∈ c.starts, PlainStart x) ∧ (∀ x ∈ c.continuations, PlainContinue x) ∧ (∀ x ∈ c.stops, PlainStop x)

/-! ### Tuplets -/

def TupletNumbers (t : TupletStart) : Prop := InInt t.numberLevel ∧ InInt t.actualNumber ∧ InInt t.normalNumber

/-- Showing the numbers, as it comes back. -/
def keptShow (actual normal : Api.Bool) : Api.Bool × Api.Bool :=
  match actual with
  | .unspecified => (.unspecified, .unspecified)
  | .no => (.no, .no)
  | .yes => (.yes, if normal = .yes then .yes else .no)

/-- A tuplet start, as it comes back. -/
def keptTuplet (t : TupletStart) : TupletStart :=
  { numberLevel := keptNumber t.numberLevel
    actualNumber := max 0 t.actualNumber
    actualDurationName := if t.actualDurationName = .unspecified then .maxima else t.actualDurationName
    actualDots := if t.actualDots > 0 then t.actualDots else -1
    normalNumber := max 0 t.normalNumber
    normalDurationName := if t.normalDurationName = .unspecified then .maxima else t.normalDurationName
    normalDots := if t.normalDots > 0 then t.normalDots else -1
    showActualNumber := (keptShow t.showActualNumber t.showNormalNumber).1
    showNormalNumber := (keptShow t.showActualNumber t.showNormalNumber).2
    bracket := t.bracket }

/-- A tuplet start that comes back unchanged. -/
def PlainTuplet (t : TupletStart) : Prop :=
  PlainNumber t.numberLevel ∧ t.positionData = {} ∧ 0 ≤ t.actualNumber ∧ 0 ≤ t.normalNumber ∧ t.actualDurationName ≠ .unspecified ∧ t.normalDurationName ≠ .unspecified ∧
  (t.actualDots = -1 ∨ 0 < t.actualDots) ∧ (t.normalDots = -1 ∨ 0 < t.normalDots) ∧
  (t.showActualNumber, t.showNormalNumber) ∈ [(.unspecified, .unspecified), (.no, .no), (.yes, .no), (.yes, Api.Bool.yes)]

end Mx.Spec
