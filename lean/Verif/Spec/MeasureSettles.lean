import Verif.Spec.MeasureRoundTrip

/-
Writing and reading again and again.
-/
namespace Spec
open Mx.Measure

variable {P : Type}

/-- The voices of a measure; the voice number that a note itself carries (`userRequestedVoiceNumber`) is left out. -/
def music (m : MeasureData P) : List (List (Int × List (NoteData P))) :=
  m.staves.map (fun s => s.voices.map (fun v => (v.1, v.2.map (fun n => { n with userVoice := 0 }))))

/-- The directions of a measure. -/
def directionsOf (m : MeasureData P) : List (List (DirectionData P)) := m.staves.map (·.directions)

/-- Voices as a map has them: numbers from 0, in order. -/
def VoicesNumbered (s : StaffData P) : Prop := (∀ v ∈ s.voices, 0 ≤ v.1) ∧ s.voices.Pairwise (fun a b => a.1 < b.1)

/-- A file in which time goes forward: notes, forwards and divisions are not negative.  Backups may be anything. -/
def TimesForward : Elem P → Prop
  | .note n => 0 ≤ n.dur
  | .forward d => 0 ≤ d
  | .attributes a => ∀ d, a.divisions = some d → 0 ≤ d
  | _ => True

/-- The number of the staff that a note of a file is on. -/
def staffNumber (n : NoteElem P) : Int := n.staff.getD 1

/-- A chord note of a file is on the staff of the note before it.  `prev` is the staff of the note before. -/
def ChordsOnOneStaff : Option Int → List (Elem P) → Prop
  | _, [] => True
  | prev, .note n :: es => (n.chord = true → ∀ p, prev = some p → staffNumber n = p) ∧ ChordsOnOneStaff (some (staffNumber n)) es
  | prev, _ :: es => ChordsOnOneStaff prev es

end Spec
