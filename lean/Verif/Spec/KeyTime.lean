import Verif.Spec.ClefTime

/-
The times of key signatures.  In MusicXML the `<key>`s of `<attributes>` are at the current position; a key without a number is for all
staves of the part.

Only the data types are shared with the model.
-/
namespace Spec
open Mx.Measure

variable {P : Type}

/-- The keys of a measure in document order with the time MusicXML gives them (in quarter notes since the beginning of the measure), the index of their staff (none: all staves), whether they are
traditional, and what they are. -/
def placedKeys (c : Clock) : List (Elem P) → List (ℚ × Option Int × Bool × P)
  | [] => []
  | .attributes a :: es => a.keys.map (fun k => (c.pos, k.number.map (· - 1), k.isTraditional, k.content)) ++ placedKeys (c.step (.attributes a)) es
  | e :: es => placedKeys (c.step e) es

/-- Where a caller of the writer wants a key of staff `i` (negative: of all staves): its time is in ticks, `G` of which make a quarter note. -/
def expectedKey (G i : Int) (k : KeyData P) : ℚ × Option Int × Bool × P := ((k.tick : ℚ) / G, if 0 ≤ i then some i else none, k.isTraditional, k.content)

/-- The keys given to staves, from staff `i` on. -/
def expectedStaffKeys (G : Int) : Int → List (StaffData P) → List (ℚ × Option Int × Bool × P)
  | _, [] => []
  | i, s :: rest => s.keys.map (expectedKey G i) ++ expectedStaffKeys G (i + 1) rest

/-- The keys of a measure as the caller gave them: those of the measure, each with its own staff, and those of the staves. -/
def expectedKeys (G : Int) (m : MeasureData P) : List (ℚ × Option Int × Bool × P) :=
  m.keys.map (fun k => expectedKey G k.staffIndex k) ++ expectedStaffKeys G 0 m.staves

/-- The keys of a measure are in the order of their times, not more than one at a time after the beginning.  Those after the beginning are for all staves, and they can be saved at their times in the first
staff.  The keys of each staff are in the order of their times and can be saved at their times. -/
def KeysMet (m : MeasureData P) : Prop :=
  m.keys.Pairwise (fun a b => a.tick ≤ b.tick ∧ (0 < b.tick → a.tick < b.tick)) ∧
  (∀ k ∈ m.keys, 0 ≤ k.tick ∧ (0 < k.tick → k.staffIndex < 0 ∧ ∃ s ∈ m.staves.head?, TimeMet s k.tick)) ∧
  ∀ s ∈ m.staves, s.keys.Pairwise (fun a b => a.tick ≤ b.tick) ∧ ∀ k ∈ s.keys, TimeMet s k.tick

/-- `<key>`s as the reader understands them: not between the notes of a chord, on staves that exist; a non-traditional key is for all staves and at the beginning. -/
def KeysTimed (numStaves : Int) (c : Clock) : List (Elem P) → Prop
  | [] => True
  | .attributes a :: es =>
    (a.keys ≠ [] → nextIsChord es = false) ∧
    (∀ k ∈ a.keys, (∀ i ∈ k.number, 1 ≤ i ∧ i ≤ numStaves) ∧ (k.isTraditional = false → k.number = none ∧ c.pos = 0)) ∧ KeysTimed numStaves (c.step (.attributes a)) es
  | e :: es => KeysTimed numStaves (c.step e) es

/-- The keys of each measure of a part with their MusicXML times, `d` divisions per quarter note being in force at the beginning. -/
def partKeys : Int → List (List (Elem P)) → List (List (ℚ × Option Int × Bool × P))
  | _, [] => []
  | d, m :: ms => placedKeys (Clock.init d) m :: partKeys (divisionsAfter d m) ms

/-- `KeysTimed` for all measures of a part. -/
def PartKeysTimed (numStaves : Int) : Int → List (List (Elem P)) → Prop
  | _, [] => True
  | d, m :: ms => KeysTimed numStaves (Clock.init d) m ∧ PartKeysTimed numStaves (divisionsAfter d m) ms

end Spec
