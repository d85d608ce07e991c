import Verif.Model.MeasureTypes
import Mathlib.Data.Rat.Defs

/-
How MusicXML itself assigns musical time to the children of a measure (MusicXML 3.1 reference, "backup", "forward",
"chord", "duration", "divisions"): durations are counted in divisions of a quarter note; a note without `<chord/>`
starts at the current position and moves it by its duration; a note with `<chord/>` starts together with the note
before it and does not move the position; `<backup>` and `<forward>` move the position; grace notes have no duration.

Only the data types are shared with the model.  All times are exact, in quarter notes since the beginning of
the measure.
-/
namespace Spec
open Mx.Measure

/-- current position, onset of the last note, and length of one division (in quarter notes) -/
structure Clock where
  pos : ℚ
  onset : ℚ
  division : ℚ

/-- A note together with its place in time. -/
structure Placed (P : Type) where
  onset : ℚ
  length : ℚ
  staff : Option Int
  voice : Option Int
  content : P

variable {P : Type}

/-- length in quarter notes of a number of millionths of a division -/
def Clock.quarters (c : Clock) (micro : Int) : ℚ := (micro : ℚ) / 1000000 * c.division

/-- where a note starts -/
def Clock.start (c : Clock) (n : NoteElem P) : ℚ := if n.chord then c.onset else c.pos

/-- the effect of one element on the clock -/
def Clock.step (c : Clock) : Elem P → Clock
  | .note n => if n.chord then c else { c with onset := c.pos, pos := c.pos + c.quarters n.dur }
  | .backup d => { c with pos := c.pos - c.quarters d }
  | .forward d => { c with pos := c.pos + c.quarters d }
  | .attributes a => match a.divisions with
    | some d => { c with division := 1000000 / (d : ℚ) }
    | none => c
  | .direction .. => c
  | .barline .. => c
  | .other => c

/-- The notes of a measure in document order with the time MusicXML gives them. -/
def placedNotes (c : Clock) : List (Elem P) → List (Placed P)
  | [] => []
  | .note n :: es =>
    { onset := c.start n, length := c.quarters n.dur, staff := n.staff, voice := n.voice, content := n.content } ::
      placedNotes (c.step (.note n)) es
  | e :: es => placedNotes (c.step e) es

/-- The clock at the beginning of a measure, `divisions` per quarter note being in force. -/
def Clock.init (divisions : ℚ) : Clock := { pos := 0, onset := 0, division := 1 / divisions }

/-- The next note of the measure carries `<chord/>`. -/
def nextIsChord : List (Elem P) → Bool
  | [] => false
  | .note n :: _ => n.chord
  | _ :: es => nextIsChord es

/-- Measures whose times are whole numbers of ticks (`G` ticks per quarter note) and that use `<chord/>` as intended:
* every duration is a whole number of ticks and not negative; grace notes have none;
* `<divisions>` is a positive whole number;
* a backup does not leave the measure;
* a chord note comes after another note without backup, forward or change of divisions in between, and the last note of
  the chord has the duration of the first one.

`base` is the duration of the first note of the chord a following chord note would belong to. -/
def WellTimed (G : Int) (c : Clock) (base : Option Int) : List (Elem P) → Prop
  | [] => True
  | .note n :: es =>
    (∃ t : Int, c.quarters n.dur * G = t) ∧ 0 ≤ n.dur ∧ (n.kind = .grace → n.dur = 0) ∧
    (n.chord = true → base.isSome = true ∧ (nextIsChord es = false → base = some n.dur)) ∧
    WellTimed G (c.step (.note n)) (if n.chord then base else some n.dur) es
  | .backup d :: es =>
    (∃ t : Int, c.quarters d * G = t) ∧ 0 ≤ (c.step (P := P) (.backup d)).pos ∧ WellTimed G (c.step (P := P) (.backup d)) none es
  | .forward d :: es =>
    (∃ t : Int, c.quarters d * G = t) ∧ 0 ≤ d ∧ WellTimed G (c.step (P := P) (.forward d)) none es
  | .attributes a :: es =>
    (∀ d, a.divisions = some d → ∃ k : Int, 0 < k ∧ d = k * 1000000) ∧
    WellTimed G (c.step (.attributes a)) (if a.divisions.isSome then none else base) es
  | .direction _ _ _ :: es => WellTimed G c base es
  | .barline _ _ :: es => WellTimed G c base es
  | .other :: es => WellTimed G c base es

/-- The staff numbers of notes and clefs exist. -/
def StavesExist (numStaves : Int) (es : List (Elem P)) : Prop :=
  1 ≤ numStaves ∧
  (∀ n, Elem.note n ∈ es → ∀ s, n.staff = some s → 1 ≤ s ∧ s ≤ numStaves) ∧
  (∀ a, Elem.attributes a ∈ es → ∀ c ∈ a.clefs, ∀ s, c.number = some s → s ≤ numStaves)

/-- Index of the staff a note belongs to; a note without `<staff>` belongs to the first. -/
def Placed.staffIndex (p : Placed P) : Int := p.staff.getD 1 - 1

end Spec
