import Verif.Spec.MusicXMLClock
import Mathlib.Algebra.Order.Field.Rat

/-
How far notes may be from the place MusicXML gives them when times are rounded to whole ticks.
-/
namespace Spec
open Mx.Measure

variable {P : Type}

/-- `WellTimed` without the condition that times are whole numbers of ticks. -/
def ProperlyTimed (c : Clock) (base : Option Int) : List (Elem P) → Prop
  | [] => True
  | .note n :: es =>
    0 ≤ n.dur ∧ (n.kind = .grace → n.dur = 0) ∧ (n.chord = true → base.isSome = true ∧ (nextIsChord es = false → base = some n.dur)) ∧
    ProperlyTimed (c.step (.note n)) (if n.chord then base else some n.dur) es
  | .backup d :: es => 0 ≤ (c.step (P := P) (.backup d)).pos ∧ ProperlyTimed (c.step (P := P) (.backup d)) none es
  | .forward d :: es => 0 ≤ d ∧ ProperlyTimed (c.step (P := P) (.forward d)) none es
  | .attributes a :: es =>
    (∀ d, a.divisions = some d → ∃ k : Int, 0 < k ∧ d = k * 1000000) ∧ ProperlyTimed (c.step (.attributes a)) (if a.divisions.isSome then none else base) es
  | .direction _ _ _ :: es => ProperlyTimed c base es
  | .barline _ _ :: es => ProperlyTimed c base es
  | .other :: es => ProperlyTimed c base es

/-- For each note the number of notes, backups and forwards in front of it. -/
def movesBefore (k : Nat) : List (Elem P) → List Nat
  | [] => []
  | .note _ :: es => k :: movesBefore (k + 1) es
  | .backup _ :: es => movesBefore (k + 1) es
  | .forward _ :: es => movesBefore (k + 1) es
  | .attributes _ :: es => movesBefore k es
  | .direction _ _ _ :: es => movesBefore k es
  | .barline _ _ :: es => movesBefore k es
  | .other :: es => movesBefore k es

/-- A note that is read as starting at `tick` and `ticks` long on the staff with the index `staff`, as the note `p` with `k` notes, backups and forwards in front of it: the start is off by at most half a tick for each of them, the length by at most half a
tick; staff, voice and content are right. -/
def Near (G : Int) (tick ticks staff voice : Int) (content : P) (p : Placed P) (k : Nat) : Prop :=
  |(tick : ℚ) - p.onset * G| ≤ (k : ℚ) / 2 ∧ |(ticks : ℚ) - p.length * G| ≤ 1 / 2 ∧ staff = p.staffIndex ∧ voice = p.voice.getD (-1) ∧ content = p.content

end Spec
