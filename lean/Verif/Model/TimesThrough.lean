import Verif.Model.Properties

namespace Mx

/-- The content of `<time>`: pairs of beats and beat type, at least one (private/mx/core/elements/TimeChoice.h 44-49), or `<senza-misura>`. -/
inductive TimeContent where
  | signature (first : Str × Str) (more : List (Str × Str))
  | senzaMisura
deriving Repr, DecidableEq

/-- `<time>` of a file; left out: `<interchangeable>`, which is not read, the separator and layout. -/
structure TimeFile where
  symbol : Option Str := none
  printObject : Option Str := none
  number : Option Str := none
  content : TimeContent
deriving Repr, DecidableEq

/-- The front of the set of pairs, private/mx/impl/TimeReader.cpp 71-86. -/
def TimeFile.read (x : TimeFile) : TimeXml :=
  match x.content with
  | .signature p _ => .signature x.symbol x.printObject p.1 p.2
  | .senzaMisura => .senzaMisura

/-- `TimeReader::initialize`, private/mx/impl/TimeReader.cpp 52-67, on the `<attributes>` elements of a measure: the front of the first set of times that is not empty. -/
def frontTime : List (List TimeFile) → Option TimeFile
  | [] => none
  | [] :: r => frontTime r
  | (x :: _) :: _ => some x

/-- The `<time>` that `PropertiesWriter::writeTime` makes, private/mx/impl/PropertiesWriter.cpp 220-249. -/
def timeFileOf : TimeXml → TimeFile
  | .signature s p b bt => { symbol := s, printObject := p, content := .signature (b, bt) [] }
  | .senzaMisura => { content := .senzaMisura }

/-- The `<attributes>` elements with a time that are written for a measure, private/mx/impl/MeasureWriter.cpp 223-226. -/
def writtenTimes (t : TimeSignatureData) : List (List TimeFile) :=
  match writeMeasureTime t with
  | some x => [[timeFileOf x]]
  | none => []

/-- The times of all measures of a part are read (private/mx/impl/PartReader.cpp 86-116) and written. -/
def timesThrough (ms : List (List (List TimeFile))) : Option (List (List (List TimeFile))) :=
  (readTimes (ms.map (fun m => (frontTime m).map TimeFile.read))).map (fun ts => ts.map writtenTimes)

/-- The same `n` times. -/
def timesThroughN : Nat → List (List (List TimeFile)) → Option (List (List (List TimeFile)))
  | 0, ms => some ms
  | n + 1, ms => (timesThrough ms).bind (timesThroughN n)

end Mx
