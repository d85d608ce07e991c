import Verif.Model.Layout

namespace Mx

/-- The `<defaults>` of a document are read (private/mx/impl/ScoreReader.cpp 283-286) and written (private/mx/impl/LayoutFunctions.cpp 35-41). -/
def defaultsThrough (x : Option DefaultsXml) : Option (Option DefaultsXml) := (readHeaderDefaults x).bind headerDefaults

/-- The `<print>` elements of all measures of the top part are read (private/mx/impl/ScoreReader.cpp 300-301, 441-587) and written (private/mx/impl/MeasureWriter.cpp 202-211). -/
def printsThrough (ms : List (List PrintElement)) : Option (List (List PrintElement)) :=
  (readLayout ms).bind fun l => (writePrints l ms.length).map (List.map Option.toList)

/-- Both, any number of times. -/
def layoutThroughTimes : Nat → Option DefaultsXml × List (List PrintElement) → Option (Option DefaultsXml × List (List PrintElement))
  | 0, x => some x
  | n + 1, x => (defaultsThrough x.1).bind fun d => (printsThrough x.2).bind fun p => layoutThroughTimes n (d, p)

end Mx
