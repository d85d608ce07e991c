import Verif.Model.CurvesThrough
import Verif.Model.TupletsThrough
import Verif.Model.MarksThrough

namespace Mx
open Measure (NoteKind)

/-- A child of a `<notations>` element, `core::NotationsChoice`, private/mx/core/elements/NotationsChoice.h 40-56; `other` are `<slide>`, `<glissando>` and `<other-notation>`, by name. -/
inductive AnyNotation where
  | curve (x : CurveXml)
  | tuplet (x : TupletXml)
  | mark (x : NotationXml)
  | other (name : Str)
deriving DecidableEq

/-- `api::NoteAttachmentData`, include/mx/api/NoteAttachmentData.h 15-26. -/
structure NoteAttachments where
  curves : NoteCurves := {}
  tuplets : NoteTuplets := {}
  marks : List MarkData := []

/-- One turn of the inner loop of `NoteFunctions::parseNotations`, private/mx/impl/NoteFunctions.cpp 255-346. -/
def readAttachment (n : TupletNote) (tick : Int) (a : NoteAttachments) : AnyNotation → Option NoteAttachments
  | .curve x => (readCurve a.curves x).map fun c => { a with curves := c }
  | .tuplet x => (readNoteTuplet n a.tuplets x).map fun t => { a with tuplets := t }
  | .mark x => (readNotation tick x).map fun l => { a with marks := a.marks ++ l }
  | .other _ => some a

/-- `NoteFunctions::parseNotations`, private/mx/impl/NoteFunctions.cpp 251-348: all children of all `<notations>` elements. -/
def readAttachments (n : TupletNote) (tick : Int) (xs : List (List AnyNotation)) : Option NoteAttachments := xs.foldlM (fun a x => x.foldlM (readAttachment n tick) a) {}

/-- `NotationsWriter::getNotations`, private/mx/impl/NotationsWriter.cpp 96-374. -/
def writeNotations (a : NoteAttachments) : Option (List AnyNotation) := do
  let curves ← writeCurves a.curves
  let marks ← writeMarks a.marks
  return curves.map .curve ++ (writeNoteTuplets a.tuplets).map .tuplet ++ marks.map .mark

/-- The `<notations>` elements of a note written, private/mx/impl/NoteWriter.cpp 78-96: those of `addTie` come first, and an empty one is not added. -/
def writeAttachments (kind : NoteKind) (isTieStop isTieStart : Bool) (a : NoteAttachments) : Option (List (List AnyNotation)) :=
  (writeNotations a).map fun body => (tieNotations kind isTieStop isTieStart).map (·.map .curve) ++ (if body = [] then [] else [body])

/-- The notations of a note of a document are read and written. -/
def notationsThrough (kind : NoteKind) (isTieStop isTieStart : Bool) (n : TupletNote) (tick : Int) (xs : List (List AnyNotation)) : Option (List (List AnyNotation)) :=
  (readAttachments n tick xs).bind (writeAttachments kind isTieStop isTieStart)

/-- The same several times, for a note without tie flags; what it is and where may be different each time. -/
def notationsThroughTimes (kind : NoteKind) : List (TupletNote × Int) → List (List AnyNotation) → Option (List (List AnyNotation))
  | [], xs => some xs
  | (n, tick) :: times, xs => (notationsThrough kind false false n tick xs).bind (notationsThroughTimes kind times)

end Mx
