import Verif.Model.Marks

namespace Mx

/-- The marks of a note of a document are read (private/mx/impl/NoteFunctions.cpp 251-348) and written (private/mx/impl/NotationsWriter.cpp 255-371). -/
def marksThrough (tick : Int) (xs : List NotationXml) : Option (List NotationXml) := (readMarks tick xs).bind writeMarks

/-- The same several times; the note may be at another tick each time. -/
def marksThroughTimes : List Int → List NotationXml → Option (List NotationXml)
  | [], xs => some xs
  | tick :: ticks, xs => (marksThrough tick xs).bind (marksThroughTimes ticks)

end Mx
