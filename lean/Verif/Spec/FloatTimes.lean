import Verif.Spec.MusicXMLClock
import Verif.Model.Basic
import Mathlib.Algebra.Order.Field.Rat
import Mathlib.Algebra.Order.Ring.Abs

/-
Measures whose times floating point arithmetic can be trusted with.
-/
namespace Spec
open Mx.Measure Mx

variable {P : Type}

/-- Not a half tick, and not nearly one. -/
def NoHalfTick (x : ℚ) : Prop := ∀ n : Int, 1 / 100000 < |x - (n + 1 / 2)|

/-- Every length fits into an `int` when counted in ticks (`G` per quarter note), and so do offsets and divisions, which are positive whole numbers. -/
def ModerateTimes (G : Int) (c : Clock) : List (Elem P) → Prop
  | [] => True
  | .note n :: es => |c.quarters n.dur * G| ≤ 2147483647 ∧ ModerateTimes G (c.step (.note n)) es
  | .backup d :: es => |c.quarters d * G| ≤ 2147483647 ∧ ModerateTimes G (c.step (P := P) (.backup d)) es
  | .forward d :: es => |c.quarters d * G| ≤ 2147483647 ∧ ModerateTimes G (c.step (P := P) (.forward d)) es
  | .direction _ o _ :: es => |o| ≤ 2147483647 * 1000000 ∧ ModerateTimes G c es
  | .attributes a :: es => (∀ d, a.divisions = some d → ∃ k : Int, 0 < k ∧ k ≤ INT_MAX ∧ d = k * 1000000) ∧ ModerateTimes G (c.step (.attributes a)) es
  | .barline _ _ :: es => ModerateTimes G c es
  | .other :: es => ModerateTimes G c es

/-- Where a division is not a tick, no length is (nearly) an odd number of half ticks. -/
def NoHalfTicks (G : Int) (c : Clock) : List (Elem P) → Prop
  | [] => True
  | .note n :: es => (c.division * G = 1 ∨ NoHalfTick (c.quarters n.dur * G)) ∧ NoHalfTicks G (c.step (.note n)) es
  | .backup d :: es => (c.division * G = 1 ∨ NoHalfTick (c.quarters d * G)) ∧ NoHalfTicks G (c.step (P := P) (.backup d)) es
  | .forward d :: es => (c.division * G = 1 ∨ NoHalfTick (c.quarters d * G)) ∧ NoHalfTicks G (c.step (P := P) (.forward d)) es
  | .direction _ _ _ :: es => NoHalfTicks G c es
  | .attributes a :: es => NoHalfTicks G (c.step (.attributes a)) es
  | .barline _ _ :: es => NoHalfTicks G c es
  | .other :: es => NoHalfTicks G c es

/-- `Near` (MeasureRounding.lean) with 0.50001 ticks in place of half a tick. -/
def NearF (G : Int) (tick ticks staff voice : Int) (content : P) (p : Placed P) (k : Nat) : Prop :=
  |(tick : ℚ) - p.onset * G| ≤ k * (50001 / 100000) ∧ |(ticks : ℚ) - p.length * G| ≤ 50001 / 100000 ∧ staff = p.staffIndex ∧ voice = p.voice.getD (-1) ∧ content = p.content

/-- Lengths and divisions are whole numbers, as nearly all programs write them, and lengths are not astronomic. -/
def WholeElem (G : Int) : Elem P → Prop
  | .note n => ∃ k : Int, n.dur = k * 1000000 ∧ |k| * G < 2 ^ 52
  | .backup d => ∃ k : Int, d = k * 1000000 ∧ |k| * G < 2 ^ 52
  | .forward d => ∃ k : Int, d = k * 1000000 ∧ |k| * G < 2 ^ 52
  | .direction _ o _ => |o| ≤ 2147483647 * 1000000
  | .attributes a => ∀ d, a.divisions = some d → ∃ k : Int, 0 < k ∧ k ≤ INT_MAX ∧ d = k * 1000000
  | .barline _ _ => True
  | .other => True

end Spec
