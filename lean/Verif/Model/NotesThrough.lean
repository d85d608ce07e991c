import Verif.Model.NoteDetails
import Verif.Model.PartStaves

/-!
What becomes of the notes of a file when it is loaded and saved.  Where and when a note is (`Verif/Model/MeasureReader.lean`, `Verif/Model/MeasureWriter.lean`) and what it says (`Verif/Model/NoteDetails.lean`) are computed
independently: `MeasureReader::parseNote` (private/mx/impl/MeasureReader.cpp 321-375) takes the rest of a note as `NoteFunctions::parseNote` gives it, and `MeasureWriter::writeVoices` (private/mx/impl/MeasureWriter.cpp 455-530) puts the
note that `NoteWriter::getNote` makes of it at its place.
-/
namespace Mx.Measure

variable {Q : Type}

/-- A note of a file is loaded (`NoteFunctions::parseNote`, private/mx/impl/NoteFunctions.cpp 81-190) and saved (`NoteWriter::getNote`, private/mx/impl/NoteWriter.cpp 78-273).  Simplification: the time scale `G`, the contents of `<duration>` and the
note `shown` in the time modification of a tuplet, which come from the measure, may be anything. -/
def NotePass (x y : NoteXml) : Prop := ∃ (G : Int) (duration : ℚ) (shown : Option (Api.DurationName × Nat)) (n : NoteDetails), readNote G duration x = some n ∧ writeNote shown n = some y

/-- The same `k` times. -/
inductive NotePasses : Nat → NoteXml → NoteXml → Prop
  | none (x : NoteXml) : NotePasses 0 x x
  | more {k : Nat} {x y z : NoteXml} : NotePasses k x y → NotePass y z → NotePasses (k + 1) x z

/-- The same for an element of a measure: what the notes say goes through `NoteReader` and `NoteWriter`, private/mx/impl/MeasureReader.cpp 335-337, private/mx/impl/MeasureWriter.cpp 492-493.  Simplification: `Q` is what other elements say, and is left
alone. -/
inductive ElemPasses (k : Nat) : Elem (NoteXml ⊕ Q) → Elem (NoteXml ⊕ Q) → Prop
  | note (n : NoteElem (NoteXml ⊕ Q)) (x y : NoteXml) : n.content = .inl x → NotePasses k x y → ElemPasses k (.note n) (.note { n with content := .inl y })
  | backup (d : Int) : ElemPasses k (.backup d) (.backup d)
  | forward (d : Int) : ElemPasses k (.forward d) (.forward d)
  | direction (s : Option Int) (o : Int) (c : NoteXml ⊕ Q) : ElemPasses k (.direction s o c) (.direction s o c)
  | attributes (a : Attributes (NoteXml ⊕ Q)) : ElemPasses k (.attributes a) (.attributes a)
  | barline (l : Option Location) (c : NoteXml ⊕ Q) : ElemPasses k (.barline l c) (.barline l c)
  | other : ElemPasses k .other .other

/-- The parts of a file of which the notes went `k` times through the program. -/
def PartsPass (k : Nat) (a b : List (Str × List (List (Elem (NoteXml ⊕ Q))))) : Prop :=
  List.Forall₂ (fun p q => p.1 = q.1 ∧ List.Forall₂ (List.Forall₂ (ElemPasses k)) p.2 q.2) a b

end Mx.Measure
