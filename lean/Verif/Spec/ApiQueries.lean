import Verif.Model.ApiQueries

/-! What the questions to objects of the API mean. -/
namespace Mx.Spec

/-- `m` is the largest of the numbers `l`, or zero if none is positive. -/
structure LargestOrZero (l : List Int) (m : Int) : Prop where
  bound : ∀ x ∈ l, x ≤ m
  nonneg : 0 ≤ m
  attained : m = 0 ∨ m ∈ l

/-- The numbers of all voices of a part. -/
def voiceNumbers {P : Type} (measures : List (Measure.MeasureData P)) : List Int :=
  measures.flatMap fun m => m.staves.flatMap fun s => s.voices.map (·.1)

/-- A colour that cannot be told from black: no red, green and blue, and not transparent. -/
def Black (c : ColorData) : Prop := c.red = 0 ∧ c.green = 0 ∧ c.blue = 0 ∧ (c.isAlphaSpecified = true → c.alpha = 255)

/-- A point of a curve says something: one of the members that are supported (include/mx/api/CurveData.h 60-64) is set. -/
def SaysSomething (p : CurvePoints) : Prop :=
  p.positionData.defaultX.isSpecified = true ∨ p.positionData.defaultY.isSpecified = true ∨ p.positionData.relativeX.isSpecified = true ∨ p.positionData.relativeY.isSpecified = true
    ∨ p.positionData.placement ≠ .unspecified ∨ p.bezierX.isSpecified = true ∨ p.bezierY.isSpecified = true ∨ p.isBezierOffsetSpecified = true

/-- A line says something. -/
def LineSaysSomething (l : LineData) : Prop :=
  l.lineType ≠ .unspecified ∨ l.lineHook ≠ .unspecified ∨ l.endLength.isSpecified = true ∨ l.dashLength.isSpecified = true ∨ l.spaceLength.isSpecified = true

end Mx.Spec
