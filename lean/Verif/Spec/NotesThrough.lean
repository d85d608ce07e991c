import Verif.Spec.PassThrough
import Verif.Spec.NoteSaid

/-
Two files with the same notes at the same times that say the same.
-/
namespace Spec
open Mx Mx.Measure

variable {Q : Type}

/-- Two `<note>` elements say the same (beams are numbered, so that their order does not matter). -/
def SayTheSame (x y : NoteXml) : Prop := ∃ a bs, NoteSays x a ∧ bs.Perm a.beams ∧ NoteSays y { a with beams := bs }

/-- Two notes of measures: at the same time, equally long, on the same staff, and they say the same. -/
structure SameNote (p q : Placed (NoteXml ⊕ Q)) : Prop where
  onset : p.onset = q.onset
  length : p.length = q.length
  staff : p.staffIndex = q.staffIndex
  same : ∃ x y, p.content = .inl x ∧ q.content = .inl y ∧ SayTheSame x y

/-- Two measures with the same notes, in any order of the document. -/
def SameNotes (a b : List (Placed (NoteXml ⊕ Q))) : Prop := ∃ b', b'.Perm b ∧ List.Forall₂ SameNote a b'

/-- A `<note>` that the program keeps: `FileNoteKept`, and of several beams all have their numbers. -/
def KeptNote (x : NoteXml) : Prop := (∃ a, NoteSays x a ∧ FileNoteKept a) ∧ ∀ b ∈ x.beams, b.number = none → x.beams.length = 1

/-- All notes of a measure are kept. -/
def AllKept (m : List (Elem (NoteXml ⊕ Q))) : Prop := ∀ n, Elem.note n ∈ m → ∃ x, n.content = .inl x ∧ KeptNote x

end Spec
