import Verif.Model.ReaderTables

/-
A document: its two scores, how it is saved and how it is loaded.
-/
namespace Mx.Content

/-- `Document`: the kind of score that counts and the two scores, private/mx/core/Document.cpp 29-56. -/
structure Doc where
  timewise : Bool
  partwiseScore : Node
  timewiseScore : Node

/-- `makeDocument()`: private/mx/core/Document.cpp 17-20, 29-35; `DEFAULT_DOCUMENT_CHOICE` is `partwise`. -/
def Doc.new : Doc := ⟨false, make (.comp .ScorePartwise), make (.comp .ScoreTimewise)⟩

/-- `setChoice`: private/mx/core/Document.cpp 47-50. -/
def Doc.setChoice (d : Doc) (timewise : Bool) : Doc := { d with timewise := timewise }

/-- `setScorePartwise`: private/mx/core/Document.cpp 89-95. -/
def Doc.setPartwise (d : Doc) (n : Node) : Doc := { d with partwiseScore := n }

/-- `setScoreTimewise`: private/mx/core/Document.cpp 104-110. -/
def Doc.setTimewise (d : Doc) (n : Node) : Doc := { d with timewiseScore := n }

/-- The score that is written: private/mx/core/Document.cpp 113-134. -/
def Doc.score (d : Doc) : Node := if d.timewise then d.timewiseScore else d.partwiseScore

/-- The root element of `toXDoc`: private/mx/core/Document.cpp 137-159 (the declaration and the document type are left out). -/
def Doc.root (d : Doc) : Xml := d.score.xml

/-- `fromXDoc`: private/mx/core/Document.cpp 162-181; `none` stands for the exception of line 179. -/
def Doc.fromRoot (d : Doc) (x : Xml) : Option (Doc × Bool) :=
  match x with
  | .elem name _ _ =>
    if Nat.beq name (nm! "score-partwise") then
      let r := (x.child prog).read (make (.comp .ScorePartwise))
      some ({ d with timewise := false, partwiseScore := r.1 }, r.2)
    else if Nat.beq name (nm! "score-timewise") then
      let r := (x.child prog).read (make (.comp .ScoreTimewise))
      some ({ d with timewise := true, timewiseScore := r.1 }, r.2)
    else none

/-- `createFromFile` and `createFromStream` on a file that can be parsed: private/mx/api/DocumentManager.cpp 93-100 and 112-120. `none` stands for an exception. -/
def loadRoot (x : Xml) : Option Doc :=
  match Doc.new.fromRoot x with
  | some (d, true) => some d
  | _ => none

end Mx.Content
