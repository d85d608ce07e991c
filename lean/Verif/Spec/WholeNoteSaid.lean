import Verif.Model.WholeNote
import Verif.Spec.NoteSaid
import Verif.Spec.NotationsSaid

/-
What a `<note>` of a document says with all its notations (C113).

Only the data types, and what the reader of tuplets is given of a note, are shared with the model.
-/
namespace Spec
open Mx

/-- What a note and its notations say. -/
structure WholeNoteSaid where
  note : NoteSaid
  notations : NotationsSaid

def WholeNoteSays (x : WholeNote) (a : WholeNoteSaid) : Prop := NoteSays x.note a.note ∧ NotationsSay (tupletNoteOf x.note) x.notations a.notations

/-- What is kept; a beam without a number is the only one of its note. -/
def WholeNoteKept (x : WholeNote) (a : WholeNoteSaid) : Prop := FileNoteKept a.note ∧ NotationsKept a.notations ∧ ∀ b ∈ x.note.beams, b.number = none → x.note.beams.length = 1

/-- The same up to the order of beams, which are numbered, and of notations of different kinds. -/
def SameWholeNote (a b : WholeNoteSaid) : Prop := (∃ bs, bs.Perm b.note.beams ∧ a.note = { b.note with beams := bs }) ∧ SameNotations a.notations b.notations

/-- A tie without further attributes. -/
def plainTie (t : Core.StartStopContinue) : CurveSaid := { isSlur := false, type := t }

/-- The ties that are added each time a note is written: one for a tie that ends or starts, two of each if both. -/
def extraTies (a : NoteSaid) : List CurveSaid :=
  match a.tieStop, a.tieStart with
  | true, true => [plainTie .stop, plainTie .start, plainTie .stop, plainTie .start]
  | true, false => [plainTie .stop]
  | false, true => [plainTie .start]
  | false, false => []

/-- What a note says with so many times its extra ties. -/
def withExtraTies (k : Nat) (a : WholeNoteSaid) : WholeNoteSaid :=
  { a with notations := { a.notations with curves := (List.replicate k (extraTies a.note)).flatten ++ a.notations.curves } }

end Spec
