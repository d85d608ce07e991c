import Verif.Model.Properties
import Verif.Model.Strings

/-!
The attributes of `<measure>`, multi-measure rests and transpositions, when a file is loaded and saved.
-/
namespace Mx

/-- A `<measure>`: its attributes, and the texts of the `<multiple-rest>` elements in its `<measure-style>` elements. -/
structure MeasureFile where
  head : MeasureHeadXml
  nonControlling : Option Str := none
  multipleRests : List Str := []
deriving DecidableEq

/-- The multi-measure rest that is read, private/mx/impl/MeasureReader.cpp 444-456; -1 is the default, include/mx/api/MeasureData.h 97.  `<multiple-rest>` holds a
`PositiveIntegerOrEmpty`. -/
def readMultiRest (texts : List Str) : Int :=
  texts.foldl (fun acc t => let v := PositiveIntegerOrEmpty.parse ⟨IntRange.default .PositiveInteger, true⟩ t; if v.isEmpty then acc else v.number.value) (-1)

/-- The measure with this index is read (private/mx/impl/MeasureReader.cpp 115-135) and written (private/mx/impl/MeasureWriter.cpp 177-200).  The attribute
`non-controlling` is neither read nor written, and no `<measure-style>` is ever written. -/
def measureThrough (i : Int) (x : MeasureFile) : Option MeasureFile := do
  let m ← readMeasureHead i x.head
  let head ← writeMeasureHead i m
  return { head := head }

/-- The measures of a part, from an index on (private/mx/impl/PartReader.cpp 96-116, PartWriter.cpp 272-286). -/
def measuresThroughFrom (i : Int) : List MeasureFile → Option (List MeasureFile)
  | [] => some []
  | x :: xs => do
    let y ← measureThrough i x
    let ys ← measuresThroughFrom (i + 1) xs
    return y :: ys

/-- Any number of times. -/
def measuresTimes : Nat → List MeasureFile → Option (List MeasureFile)
  | 0, xs => some xs
  | n + 1, xs => (measuresThroughFrom 0 xs).bind (measuresTimes n)

/-- The transposition found in the `<attributes>` elements of the first measure: their times and `<transpose>` elements.  Private/mx/impl/MeasureReader.cpp 537-546
(the first element of `<attributes>` at time 0), 167-171 (a later one replaces it). -/
def readFirstMeasure : List (Int × List TransposeXml) → Option (Option TransposeData)
  | [] => some none
  | (tick, xs) :: rest => do
    let here ← if tick = 0 then readTransposition xs.head? else some none
    let later ← readFirstMeasure rest
    return later.or here

/-- The transposition of a part, from the `<attributes>` elements of all measures: those behind the first measure are not looked at, private/mx/impl/MeasureReader.cpp
540. -/
def readPartTransposition : List (List (Int × List TransposeXml)) → Option (Option TransposeData)
  | [] => some none
  | m :: _ => readFirstMeasure m

/-- What is written (private/mx/impl/MeasureWriter.cpp 260-267): at most one element in the first measure.  A part without measures is written with one (private/mx/impl/PartWriter.cpp
250-257; without a transposition it is the one that a new part of the document has). -/
def transposesThrough (ms : List (List (Int × List TransposeXml))) : Option (List (List (Int × List TransposeXml))) := do
  let t ← readPartTransposition ms
  let x ← writeTransposition t
  return [(0, x.toList)] :: ms.tail.map (fun _ => [])

/-- Any number of times. -/
def transposesTimes : Nat → List (List (Int × List TransposeXml)) → Option (List (List (Int × List TransposeXml)))
  | 0, ms => some ms
  | n + 1, ms => (transposesThrough ms).bind (transposesTimes n)

end Mx
