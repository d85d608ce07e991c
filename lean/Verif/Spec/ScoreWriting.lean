import Verif.Model.ScoreWriting

/-
The scores that cannot be written.
-/
namespace Mx.Spec
open Mx.Measure Mx.Writing

/-- A direction with a tempo that is not a number of beats per minute. -/
def OtherTempoIn (d : DirectionData Content) : Prop := ∃ x, d.content = some x ∧ ∃ t ∈ x.tempos, t.tempoType ≠ .beatsPerMinute

/-- A direction of a measure. -/
def InMeasure (d : DirectionData Content) (m : MeasureData Content) : Prop := ∃ s ∈ m.staves, d ∈ s.directions

/-- A direction of a score. -/
def InScore (d : DirectionData Content) (parts : List (PartData Content)) : Prop := ∃ p ∈ parts, ∃ x ∈ p.measures, InMeasure d x.2

end Mx.Spec
