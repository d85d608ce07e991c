import Verif.Model.WholeNote

/-!
As `Verif/Model/NotesThrough.lean`, for notes with their notations.
-/
namespace Mx.Measure

variable {Q : Type}

/-- A note of a file with its notations is loaded and saved `k` times (`NoteFunctions::parseNote`, private/mx/impl/NoteFunctions.cpp 81-190; `NoteWriter::getNote`, private/mx/impl/NoteWriter.cpp 78-273).
Simplification: what comes from the measure may be anything, see `NoteContext`. -/
def WholeNotePasses (k : Nat) (x y : WholeNote) : Prop := ∃ cs : List NoteContext, cs.length = k ∧ wholeNoteThroughTimes cs x = some y

/-- The same for an element of a measure, private/mx/impl/MeasureReader.cpp 335-337, private/mx/impl/MeasureWriter.cpp 492-493.  Simplification: `Q` is what other elements say, and is left alone. -/
inductive WholeElemPasses (k : Nat) : Elem (WholeNote ⊕ Q) → Elem (WholeNote ⊕ Q) → Prop
  | note (n : NoteElem (WholeNote ⊕ Q)) (x y : WholeNote) : n.content = .inl x → WholeNotePasses k x y → WholeElemPasses k (.note n) (.note { n with content := .inl y })
  | backup (d : Int) : WholeElemPasses k (.backup d) (.backup d)
  | forward (d : Int) : WholeElemPasses k (.forward d) (.forward d)
  | direction (s : Option Int) (o : Int) (c : WholeNote ⊕ Q) : WholeElemPasses k (.direction s o c) (.direction s o c)
  | attributes (a : Attributes (WholeNote ⊕ Q)) : WholeElemPasses k (.attributes a) (.attributes a)
  | barline (l : Option Location) (c : WholeNote ⊕ Q) : WholeElemPasses k (.barline l c) (.barline l c)
  | other : WholeElemPasses k .other .other

/-- The parts of a file of which the notes went `k` times through the program, private/mx/impl/MeasureReader.cpp 335-337, private/mx/impl/MeasureWriter.cpp 492-493. -/
def WholePartsPass (k : Nat) (a b : List (Str × List (List (Elem (WholeNote ⊕ Q))))) : Prop :=
  List.Forall₂ (fun p q => p.1 = q.1 ∧ List.Forall₂ (List.Forall₂ (WholeElemPasses k)) p.2 q.2) a b

end Mx.Measure
