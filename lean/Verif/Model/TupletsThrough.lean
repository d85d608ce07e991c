import Verif.Model.Notations

namespace Mx

/-- The tuplets of a note, `api::NoteAttachmentData`, include/mx/api/NoteAttachmentData.h 15-26. -/
structure NoteTuplets where
  starts : List TupletStart := []
  stops : List TupletStop := []
deriving Repr, DecidableEq

/-- One more tuplet, private/mx/impl/TupletReader.cpp 45-52, 131. -/
def readNoteTuplet (n : TupletNote) (c : NoteTuplets) (x : TupletXml) : Option NoteTuplets :=
  (readTuplet n x).map fun
    | .inl t => { c with starts := c.starts ++ [t] }
    | .inr t => { c with stops := c.stops ++ [t] }

/-- All tuplets of a note, private/mx/impl/NoteFunctions.cpp 272-277. -/
def readNoteTuplets (n : TupletNote) (xs : List TupletXml) : Option NoteTuplets := xs.foldlM (readNoteTuplet n) {}

/-- All tuplets of a note, private/mx/impl/NotationsWriter.cpp 171-251. -/
def writeNoteTuplets (c : NoteTuplets) : List TupletXml := c.stops.map writeTupletStop ++ c.starts.map writeTupletStart

/-- The tuplets of a note of a document are read and written. -/
def tupletsThrough (n : TupletNote) (xs : List TupletXml) : Option (List TupletXml) := (readNoteTuplets n xs).map writeNoteTuplets

/-- The same several times; the note may be another one each time. -/
def tupletsThroughTimes : List TupletNote → List TupletXml → Option (List TupletXml)
  | [], xs => some xs
  | n :: ns, xs => (tupletsThrough n xs).bind (tupletsThroughTimes ns)

end Mx
