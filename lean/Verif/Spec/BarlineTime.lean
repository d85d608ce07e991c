import Verif.Spec.ClefTime
import Verif.Model.Barline

/-
Barlines.  In MusicXML a barline is at the left or the right of its measure or, with the location "middle", at the current position; without a location it is at the right (the default of the
attribute).

Only the data types are shared with the model.
-/
namespace Spec
open Mx.Measure

variable {P : Type}

/-- Where a barline is; times in quarter notes since the beginning of the measure. -/
inductive BarPlace where
  | left
  | right
  | middle (time : ℚ)
deriving DecidableEq

/-- The place of a `<barline>` at position `t`. -/
def barPlace (t : ℚ) : Option Location → BarPlace
  | some .left => .left
  | some .center => .middle t
  | _ => .right

/-- The barlines of a measure in document order with their places. -/
def placedBarlines (c : Clock) : List (Elem P) → List (BarPlace × P)
  | [] => []
  | .barline l x :: es => (barPlace c.pos l, x) :: placedBarlines (c.step (.barline l x)) es
  | e :: es => placedBarlines (c.step e) es

/-- Where a caller of the writer wants a barline: where its location says; without a location a barline at time 0 is at the left, others are at the right. -/
def expectedPlace (G : Int) (b : BarlineData P) : BarPlace :=
  match b.location with
  | .left => .left
  | .right => .right
  | .center => .middle ((b.tick : ℚ) / G)
  | .unspecified => if b.tick = 0 then .left else .right

/-- The barlines of a measure as the caller gave them. -/
def expectedBarlines (G : Int) (m : MeasureData P) : List (BarPlace × P) := m.barlines.map (fun b => (expectedPlace G b, b.content))

/-- Barlines whose times are `int`s; those in the middle are at the beginning, with no barline of a later time before them. -/
def BarlinesMet (bs : List (BarlineData P)) : Prop :=
  (∀ b ∈ bs, b.tick ≤ TICK_TIME_INFINITY) ∧
  ∀ before b after, bs = before ++ b :: after → b.location = .center → b.tick = 0 ∧ ∀ a ∈ before, a.tick ≤ 0

/-- `<barline>`s as the reader understands them: those in the middle are not between the notes of a chord; those without a location neither, and not at position 0. -/
def BarlinesTimed (c : Clock) : List (Elem P) → Prop
  | [] => True
  | .barline l x :: es =>
    l ≠ some .unspecified ∧ (l = some .center → nextIsChord es = false) ∧ (l = none → nextIsChord es = false ∧ c.pos ≠ 0) ∧ BarlinesTimed (c.step (.barline l x)) es
  | e :: es => BarlinesTimed (c.step e) es

/-- What a barline says besides its place: style, ending (type and numbers) and repeat. -/
def barMeaning (x : Mx.Bar.Contents) : Option Mx.Core.BarStyleEnum × Option (Mx.Core.StartStopDiscontinue × List Int) × Option Mx.Core.BackwardForward :=
  (x.style, x.ending.map (fun e => (e.type, e.number.values)), x.repeats)

/-- A barline that the program keeps: the API has its style; an ending has one number; forward repeats are at the left and backward repeats at the right. -/
def BarKept (p : BarPlace) (x : Mx.Bar.Contents) : Prop :=
  x.style ≠ some .tick ∧ x.style ≠ some .short_ ∧
  (∀ e ∈ x.ending, ∃ n : Int, 0 < n ∧ n ≤ Mx.INT_MAX ∧ e.number.values = [n]) ∧
  (x.repeats = some .forward → p = .left) ∧ (x.repeats = some .backward → p = .right)

/-- The barlines of each measure of a part with their places, `d` divisions per quarter note being in force at the beginning. -/
def partBarlines : Int → List (List (Elem P)) → List (List (BarPlace × P))
  | _, [] => []
  | d, m :: ms => placedBarlines (Clock.init d) m :: partBarlines (divisionsAfter d m) ms

/-- `BarlinesTimed` for all measures of a part. -/
def PartBarlinesTimed : Int → List (List (Elem P)) → Prop
  | _, [] => True
  | d, m :: ms => BarlinesTimed (Clock.init d) m ∧ PartBarlinesTimed (divisionsAfter d m) ms

/-- Barlines with their places and what they say. -/
def barsSay (bs : List (BarPlace × Mx.Bar.Contents)) : List (BarPlace × Option Mx.Core.BarStyleEnum × Option (Mx.Core.StartStopDiscontinue × List Int) × Option Mx.Core.BackwardForward) :=
  bs.map (fun b => (b.1, barMeaning b.2))

end Spec
