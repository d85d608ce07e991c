import Verif.Spec.MusicXMLClock
import Verif.Model.Basic
import Mathlib.Algebra.Order.Field.Rat

/-
Measures whose times fit into `int`.
-/
namespace Spec
open Mx.Measure Mx

variable {P : Type}

/-- The end of the times that fit. It is half of the range of `int`, because the writer adds the length of a note to the end of the voice before it. -/
def LAST_TIME : Int := 1073741823

/-- The times of a measure fit: notes begin at 0 or later and end at `LAST_TIME` or earlier, directions are not negative, and the numbers of voices and staves have a successor. -/
structure TimesFit (m : MeasureData P) : Prop where
  note : ∀ s ∈ m.staves, ∀ v ∈ s.voices, ∀ n ∈ v.2, 0 ≤ n.tick ∧ n.tick + max n.ticks 0 ≤ LAST_TIME
  direction : ∀ s ∈ m.staves, ∀ d ∈ s.directions, 0 ≤ d.tick ∧ d.tick ≤ INT_MAX
  voice : ∀ s ∈ m.staves, ∀ v ∈ s.voices, v.1 < INT_MAX
  staves : (m.staves.length : Int) ≤ INT_MAX

/-- What the children of a measure may add up to, in ticks (`G` per quarter note): the lengths of all notes, backups, forwards and the offsets of all directions, and one more for each of them. -/
def extent (G : Int) (c : Clock) : List (Elem P) → ℚ
  | [] => 0
  | .note n :: es => c.quarters n.dur * G + 1 + extent G (c.step (.note n)) es
  | .backup d :: es => c.quarters d * G + 1 + extent G (c.step (P := P) (.backup d)) es
  | .forward d :: es => c.quarters d * G + 1 + extent G (c.step (P := P) (.forward d)) es
  | .direction _ o _ :: es => |(o : ℚ)| / 1000000 + 1 + extent G c es
  | .attributes a :: es => extent G (c.step (.attributes a)) es
  | .barline _ _ :: es => extent G c es
  | .other :: es => extent G c es

/-- Durations are not negative (those of grace notes, which have none, are 0), divisions are positive whole numbers that fit into `int`. -/
def Sensible : Elem P → Prop
  | .note n => 0 ≤ n.dur ∧ (n.kind = .grace → n.dur = 0)
  | .backup d => 0 ≤ d
  | .forward d => 0 ≤ d
  | .attributes a => ∀ d, a.divisions = some d → ∃ k : Int, 0 < k ∧ k ≤ INT_MAX ∧ d = k * 1000000
  | _ => True

end Spec
