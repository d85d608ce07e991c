import Verif.Spec.PassThrough
import Verif.Spec.WholeNoteSaid

/-
Two files with the same notes at the same times that say the same with their notations, apart from ties that were added (C114).
-/
namespace Spec
open Mx Mx.Measure

variable {Q : Type}

/-- Two notes of measures: at the same time, equally long, on the same staff, and the second says what the first one says with `k` times its extra ties. -/
structure SameWholePlaced (k : Nat) (p q : Placed (WholeNote ⊕ Q)) : Prop where
  onset : p.onset = q.onset
  length : p.length = q.length
  staff : p.staffIndex = q.staffIndex
  same : ∃ x y, p.content = .inl x ∧ q.content = .inl y ∧ ∃ a b, WholeNoteSays x a ∧ WholeNoteSays y b ∧ SameWholeNote b (withExtraTies k a)

/-- Two measures with the same notes, in any order of the document. -/
def SameWholeNotes (k : Nat) (a b : List (Placed (WholeNote ⊕ Q))) : Prop := ∃ b', b'.Perm b ∧ List.Forall₂ (SameWholePlaced k) a b'

/-- A note that the program keeps. -/
def KeptWhole (x : WholeNote) : Prop := ∃ a, WholeNoteSays x a ∧ WholeNoteKept x a

/-- All notes of a measure are kept. -/
def AllWholeKept (m : List (Elem (WholeNote ⊕ Q))) : Prop := ∀ n, Elem.note n ∈ m → ∃ x, n.content = .inl x ∧ KeptWhole x

/-- No note of a measure has a `<tie>`. -/
def NoTies (m : List (Placed (WholeNote ⊕ Q))) : Prop := ∀ p ∈ m, ∀ x, p.content = .inl x → x.note.ties = []

end Spec
