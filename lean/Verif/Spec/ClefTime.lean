import Verif.Spec.MeasurePlan
import Verif.Spec.PartStaves
import Verif.Spec.ScoreTime

/-
The times of clefs.  In MusicXML the `<clef>`s of `<attributes>` are at the current position.

Only the data types are shared with the model.
-/
namespace Spec
open Mx.Measure

variable {P : Type}

/-- The clefs of a measure in document order with the time MusicXML gives them (in quarter notes since the beginning of the measure), the index of their staff and what they are. -/
def placedClefs (c : Clock) : List (Elem P) → List (ℚ × Int × P)
  | [] => []
  | .attributes a :: es => a.clefs.map (fun x => (c.pos, staffIndexOf x.number, x.content)) ++ placedClefs (c.step (.attributes a)) es
  | e :: es => placedClefs (c.step e) es

/-- Where a caller of the writer wants a clef of staff `i`: its time is in ticks, `G` of which make a quarter note. -/
def expectedClef (G i : Int) (x : Timed P) : ℚ × Int × P := ((x.tick : ℚ) / G, i, x.content)

/-- The clefs of staves, from staff `i` on. -/
def expectedClefsFrom (G : Int) : Int → List (StaffData P) → List (ℚ × Int × P)
  | _, [] => []
  | i, s :: rest => s.clefs.map (expectedClef G i) ++ expectedClefsFrom G (i + 1) rest

/-- The clefs of a measure as the caller gave them. -/
def expectedClefs (G : Int) (m : MeasureData P) : List (ℚ × Int × P) := expectedClefsFrom G 0 m.staves

/-- A time at which a clef (or key) change can be saved: in the first voice of the staff a note starts at that time, and the notes before it start earlier; or the time is where the last
voice of the staff ends, and all notes of the staff start earlier. -/
def TimeMet (s : StaffData P) (t : Int) : Prop :=
  (∃ v ∈ s.voices.head?, ∃ before n after, v.2 = before ++ n :: after ∧ n.tick = t ∧ ∀ p ∈ before, p.tick < t) ∨
  ((∀ v ∈ s.voices, ∀ n ∈ v.2, n.tick < t) ∧ ∃ n ∈ (s.voices.flatMap (·.2)).getLast?, n.tick + n.ticks = t)

/-- The clefs of a staff are in the order of their times, and those after the beginning can be saved at their times. -/
def ClefsMet (s : StaffData P) : Prop :=
  s.clefs.Pairwise (fun a b => a.tick ≤ b.tick) ∧ ∀ x ∈ s.clefs, 0 ≤ x.tick ∧ (0 < x.tick → TimeMet s x.tick)

/-- `<clef>`s as the reader understands them: not between the notes of a chord, and on staves that exist. -/
def ClefsTimed (numStaves : Int) : List (Elem P) → Prop
  | [] => True
  | .attributes a :: es => (a.clefs ≠ [] → nextIsChord es = false) ∧ (∀ x ∈ a.clefs, ∀ i ∈ x.number, 1 ≤ i ∧ i ≤ numStaves) ∧ ClefsTimed numStaves es
  | _ :: es => ClefsTimed numStaves es

/-- The clefs of each measure of a part with their MusicXML times, `d` divisions per quarter note being in force at the beginning. -/
def partClefs : Int → List (List (Elem P)) → List (List (ℚ × Int × P))
  | _, [] => []
  | d, m :: ms => placedClefs (Clock.init d) m :: partClefs (divisionsAfter d m) ms

end Spec
