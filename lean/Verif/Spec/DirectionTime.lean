import Verif.Spec.MeasurePlan
import Verif.Spec.PartStaves
import Verif.Spec.ScoreTime

/-
The times of directions (dynamics, words, pedal marks, …).  In MusicXML a `<direction>` is at the current position, plus its
`<offset>`, which counts in divisions like a duration.

Only the data types are shared with the model.
-/
namespace Spec
open Mx.Measure

variable {P : Type}

/-- The directions of a measure in document order with the time MusicXML gives them (in quarter notes since the beginning of the measure), the index of
their staff and what they say. -/
def placedDirections (c : Clock) : List (Elem P) → List (ℚ × Int × P)
  | [] => []
  | .direction s o x :: es => (c.pos + c.quarters o, staffIndexOf s, x) :: placedDirections c es
  | e :: es => placedDirections (c.step e) es

/-- Where a caller of the writer wants a direction of staff `i`: its time is in ticks, `G` of which make a quarter note. -/
def expectedDirection (G i : Int) (d : DirectionData P) : ℚ × Int × P := ((d.tick : ℚ) / G, i, d.content)

/-- The directions of staves, from staff `i` on. -/
def expectedDirectionsFrom (G : Int) : Int → List (StaffData P) → List (ℚ × Int × P)
  | _, [] => []
  | i, s :: rest => s.directions.map (expectedDirection G i) ++ expectedDirectionsFrom G (i + 1) rest

/-- The directions of a measure as the caller gave them. -/
def expectedDirections (G : Int) (m : MeasureData P) : List (ℚ × Int × P) := expectedDirectionsFrom G 0 m.staves

/-- No direction lies in a chord that begins its voice or comes directly after a note at the same time (a grace note).

`a` and `b` are the first notes of such a chord and `before` the notes before it.  A direction in the chord is one after the chord's beginning and before its end; if the
notes before are not all at the same time as the chord, also one at its beginning. -/
def ChordsClear (ds : List (DirectionData P)) (ns : List (NoteData P)) : Prop :=
  ∀ before a b after, ns = before ++ a :: b :: after → a.isChord = true → b.isChord = true → b.tick = a.tick →
    (∀ p ∈ before.getLast?, p.tick = a.tick ∧ p.isChord = false) →
    ∀ d ∈ ds, d.tick < a.tick + a.ticks → if ∀ p ∈ before, p.tick = a.tick then d.tick ≤ a.tick else d.tick < a.tick

/-- The same for all voices of a measure. -/
def DirectionsClear (m : MeasureData P) : Prop := ∀ s ∈ m.staves, ∀ v ∈ s.voices, ChordsClear s.directions v.2

/-- Directions as the reader understands them: they have no offset, or a whole one while the divisions are the ticks of the score (`G` per quarter note); they are not
between the notes of a chord; and their staff exists. -/
def DirectionsTimed (G numStaves : Int) (c : Clock) : List (Elem P) → Prop
  | [] => True
  | .direction s o _ :: es =>
    (o = 0 ∨ (c.division = 1 / (G : ℚ) ∧ ∃ k : Int, o = k * 1000000)) ∧ nextIsChord es = false ∧ (∀ i ∈ s, 1 ≤ i ∧ i ≤ numStaves) ∧
    DirectionsTimed G numStaves c es
  | e :: es => DirectionsTimed G numStaves (c.step e) es

/-- Two measures with the same directions at the same times on the same staves (in any order of the document). -/
def SameDirections (a b : List (ℚ × Int × P)) : Prop := a.Perm b

/-- The directions of each measure of a part with their MusicXML times, `d` divisions per quarter note being in force at the beginning. -/
def partDirections : Int → List (List (Elem P)) → List (List (ℚ × Int × P))
  | _, [] => []
  | d, m :: ms => placedDirections (Clock.init d) m :: partDirections (divisionsAfter d m) ms

/-- `DirectionsTimed` for all measures of a part. -/
def PartDirectionsTimed (G numStaves : Int) : Int → List (List (Elem P)) → Prop
  | _, [] => True
  | d, m :: ms => DirectionsTimed G numStaves (Clock.init d) m ∧ PartDirectionsTimed G numStaves (divisionsAfter d m) ms

end Spec
