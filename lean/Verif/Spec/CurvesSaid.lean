import Verif.Model.Notations
import Verif.Spec.Layout
import Verif.Spec.Text
import Verif.Spec.ScorePartSaid

/-
What a `<tied>` or `<slur>` element of a document says, whatever the spelling of its numbers (C109).

Only the data types are shared with the model.
-/
namespace Spec
open Mx Mx.Spec

/-- What a tie or slur says. -/
structure CurveSaid where
  isSlur : Bool
  type : Core.StartStopContinue
  number : Option Int := none
  lineType : Option Core.LineType := none
  dashLength : Option ℚ := none
  spaceLength : Option ℚ := none
  defaultX : Option ℚ := none
  defaultY : Option ℚ := none
  relativeX : Option ℚ := none
  relativeY : Option ℚ := none
  placement : Option Core.AboveBelow := none
  orientation : Option Core.OverUnder := none
  bezierOffset : Option ℚ := none
  bezierX : Option ℚ := none
  bezierY : Option ℚ := none
  bezierOffset2 : Option ℚ := none
  bezierX2 : Option ℚ := none
  bezierY2 : Option ℚ := none
  color : Option ColorData := none
deriving DecidableEq

def curveTypeText : Core.StartStopContinue → Str
  | .start => chars "start"
  | .stop => chars "stop"
  | .continue_ => chars "continue"

def lineTypeText : Core.LineType → Str
  | .solid => chars "solid"
  | .dashed => chars "dashed"
  | .dotted => chars "dotted"
  | .wavy => chars "wavy"

def placementText : Core.AboveBelow → Str
  | .above => chars "above"
  | .below => chars "below"

def orientationText : Core.OverUnder → Str
  | .over => chars "over"
  | .under => chars "under"

/-- A colour: two hexadecimal digits for each channel, the alpha channel first if there is one. -/
def ColorSays (x : Option Str) (c : Option ColorData) : Prop :=
  (x = none ∧ c = none) ∨
  (∃ R G B r g b, x = some (['#'] ++ R ++ G ++ B) ∧ c = some { red := r, green := g, blue := b } ∧ HexByte R r.val ∧ HexByte G g.val ∧ HexByte B b.val) ∨
  ∃ A R G B a r g b, x = some (['#'] ++ A ++ R ++ G ++ B) ∧ c = some { red := r, green := g, blue := b, isAlphaSpecified := true, alpha := a } ∧ HexByte A a.val ∧ HexByte R r.val ∧
    HexByte G g.val ∧ HexByte B b.val

/-- What an element says: all attributes that ties and slurs have. -/
structure CurveSays (x : CurveXml) (a : CurveSaid) : Prop where
  isSlur : x.isSlur = a.isSlur
  type : x.type = curveTypeText a.type
  number : IntegerSays x.number a.number
  lineType : x.line.lineType = a.lineType.map lineTypeText
  dashLength : DecimalSays x.line.dashLength a.dashLength
  spaceLength : DecimalSays x.line.spaceLength a.spaceLength
  defaultX : DecimalSays x.position.defaultX a.defaultX
  defaultY : DecimalSays x.position.defaultY a.defaultY
  relativeX : DecimalSays x.position.relativeX a.relativeX
  relativeY : DecimalSays x.position.relativeY a.relativeY
  halign : x.position.halign = none
  valign : x.position.valign = none
  placement : x.position.placement = a.placement.map placementText
  orientation : x.orientation = a.orientation.map orientationText
  bezierOffset : DecimalSays x.bezierOffset a.bezierOffset
  bezierX : DecimalSays x.bezierX a.bezierX
  bezierY : DecimalSays x.bezierY a.bezierY
  bezierOffset2 : DecimalSays x.bezierOffset2 a.bezierOffset2
  bezierX2 : DecimalSays x.bezierX2 a.bezierX2
  bezierY2 : DecimalSays x.bezierY2 a.bezierY2
  color : ColorSays x.color a.color

/-- All lengths, if given, have at most six decimals and nineteen digits before the point. -/
def AllFit (l : List (Option ℚ)) : Prop := ∀ v ∈ l, ∀ n ∈ v, LengthFits n

/-- What is kept: numbers from 1 to 6, whole Bézier offsets, lines, colours and orientations where a curve starts, and second Bézier points where a slur continues. -/
structure CurveKept (a : CurveSaid) : Prop where
  number : ∀ n ∈ a.number, 1 ≤ n ∧ n ≤ 6
  lengths : AllFit [a.dashLength, a.spaceLength, a.defaultX, a.defaultY, a.relativeX, a.relativeY, a.bezierX, a.bezierY, a.bezierX2, a.bezierY2, a.bezierOffset2]
  offset : ∀ v ∈ a.bezierOffset, ∃ n : Int, v = n ∧ -2147483648 ≤ n ∧ n ≤ 2147483647
  starts : a.type ≠ .start → a.lineType = none ∧ a.dashLength = none ∧ a.spaceLength = none ∧ a.orientation = none ∧ a.color = none
  second : ¬ (a.type = .continue_ ∧ a.isSlur = true) → a.bezierX2 = none ∧ a.bezierY2 = none ∧ a.bezierOffset2 = none

/-- The curves of one type, in their order. -/
def ofType (t : Core.StartStopContinue) (l : List CurveSaid) : List CurveSaid := l.filter (fun a => a.type = t)

/-- The same curves, those of each type in the same order. -/
def SameCurves (l m : List CurveSaid) : Prop := l.Perm m ∧ ∀ t, ofType t l = ofType t m

end Spec
