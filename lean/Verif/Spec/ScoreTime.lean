import Verif.Spec.MusicXMLClock

/-
Time in a whole MusicXML part, independent of any tick scale.
-/
namespace Spec
open Mx.Measure

variable {P : Type}

/-- Measures whose durations are whole numbers of divisions and that use `<chord/>` and `<backup>` as intended (compare `WellTimed`; here no tick
scale is mentioned). -/
def WholeTimed (c : Clock) (base : Option Int) : List (Elem P) → Prop
  | [] => True
  | .note n :: es =>
    (∃ k : Int, n.dur = k * 1000000) ∧ 0 ≤ n.dur ∧ (n.kind = .grace → n.dur = 0) ∧
    (n.chord = true → base.isSome = true ∧ (nextIsChord es = false → base = some n.dur)) ∧
    WholeTimed (c.step (.note n)) (if n.chord then base else some n.dur) es
  | .backup d :: es =>
    (∃ k : Int, d = k * 1000000) ∧ 0 ≤ (c.step (P := P) (.backup d)).pos ∧ WholeTimed (c.step (P := P) (.backup d)) none es
  | .forward d :: es =>
    (∃ k : Int, d = k * 1000000) ∧ 0 ≤ d ∧ WholeTimed (c.step (P := P) (.forward d)) none es
  | .attributes a :: es =>
    (∀ d, a.divisions = some d → ∃ k : Int, 0 < k ∧ d = k * 1000000) ∧
    WholeTimed (c.step (.attributes a)) (if a.divisions.isSome then none else base) es
  | .direction _ _ _ :: es => WholeTimed c base es
  | .barline _ _ :: es => WholeTimed c base es
  | .other :: es => WholeTimed c base es

/-- The divisions in force after a measure (in whole divisions per quarter note). -/
def divisionsAfter (d : Int) : List (Elem P) → Int
  | [] => d
  | .attributes a :: es => divisionsAfter (match a.divisions with | some x => x / 1000000 | none => d) es
  | _ :: es => divisionsAfter d es

/-- `<divisions>` are given before the first element that takes time. -/
def declares : List (Elem P) → Bool
  | [] => false
  | .attributes a :: es => a.divisions.isSome || declares es
  | .note _ :: _ => false
  | .backup _ :: _ => false
  | .forward _ :: _ => false
  | _ :: es => declares es

/-- A part: all measures are `WholeTimed` with the divisions in force, and staff numbers exist. -/
def PartTimed (numStaves : Int) : Int → List (List (Elem P)) → Prop
  | _, [] => True
  | d, m :: ms => WholeTimed (Clock.init d) none m ∧ StavesExist numStaves m ∧ PartTimed numStaves (divisionsAfter d m) ms

/-- The notes of each measure of a part with their MusicXML times. -/
def partPlaced : Int → List (List (Elem P)) → List (List (Placed P))
  | _, [] => []
  | d, m :: ms => placedNotes (Clock.init d) m :: partPlaced (divisionsAfter d m) ms

end Spec
