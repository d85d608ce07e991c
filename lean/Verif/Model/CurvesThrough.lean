import Verif.Model.Notations

namespace Mx
open Measure (NoteKind)

/-- The ties and slurs of a note of a document are read (private/mx/impl/NoteFunctions.cpp 251-272) and written (private/mx/impl/NoteWriter.cpp 78-96). The kind and the tie flags of the
note stay. -/
def curvesThrough (kind : NoteKind) (isTieStop isTieStart : Bool) (xs : List CurveXml) : Option (List CurveXml) := (readNoteCurves xs).bind (writeNoteCurves kind isTieStop isTieStart)

/-- The same any number of times. -/
def curvesThroughTimes (kind : NoteKind) (isTieStop isTieStart : Bool) : Nat → List CurveXml → Option (List CurveXml)
  | 0, xs => some xs
  | n + 1, xs => (curvesThrough kind isTieStop isTieStart xs).bind (curvesThroughTimes kind isTieStop isTieStart n)

end Mx
