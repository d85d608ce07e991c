import Verif.Model.Basic

/-
Model of private/mx/core/ScoreConversions.cpp and of the document (private/mx/core/Document.cpp 38-80).

Simplifications: shared pointers are values (the conversions share the header, the measure attributes and the music between
the old and the new score, but the old one is dropped by `convertContents`).  What the conversions do not look at is abstract:
`A` are the attributes of a measure (number, implicit, width, ...), `M` is the music inside a measure, `H` is the
score header apart from its part list, `G` is a part group of the part list.
-/
namespace Mx.Convert

/-- `PartGroupOrScorePart`, private/mx/core/elements/PartGroupOrScorePart.h: an entry of the part list after the first `<score-part>`. -/
inductive Entry (G : Type) where
  | partGroup (g : G)
  | scorePart (id : Str)
deriving Repr, DecidableEq

/-- The score header group with its part list (private/mx/core/elements/PartList.cpp 15-19: part groups,
one score part, then any number of entries); of a score part only the id matters here, the rest is in `H`. -/
structure Header (H G : Type) where
  other : H
  groups : List G
  scorePart : Str
  entries : List (Entry G)
deriving Repr, DecidableEq

/-- `<score-partwise>`: version attribute if present, header, and for each part its id and its measures. -/
structure Partwise (H G A M : Type) where
  version : Option Str
  header : Header H G
  parts : List (Str × List (A × M))
deriving Repr, DecidableEq

/-- `<score-timewise>`: version attribute if present, header, and for each measure its attributes and its parts. -/
structure Timewise (H G A M : Type) where
  version : Option Str
  header : Header H G
  measures : List (A × List (Str × M))
deriving Repr, DecidableEq

variable {H G A M : Type}

/-- The contents of new elements: id of a new part, attributes of a new measure, music of a new measure or part
(constructors in private/mx/core/elements/{PartAttributes,MeasureAttributes,MusicDataGroup}.cpp). -/
structure Fresh (A M : Type) where
  id : Str
  attr : A
  music : M

/-- `partlist`, private/mx/core/ScoreConversions.cpp 57-66 (and 121-133). -/
def partIds (h : Header H G) : List Str :=
  h.scorePart :: h.entries.filterMap (fun e => match e with | .scorePart id => some id | .partGroup _ => none)

/-- `measureCount`, private/mx/core/ScoreConversions.cpp 32-40. -/
def measureCount (parts : List (Str × List (A × M))) : Nat :=
  parts.foldl (fun n p => if p.2.length > n then p.2.length else n) 0

/-- The loop over the part list for one measure, private/mx/core/ScoreConversions.cpp 68-103.  `isFirst` tells whether the part that
each new measure comes with is still to be overwritten.  `none`: the iterator runs past the end of a part with too few
measures (81-84, 98) -- undefined. -/
def fillMeasure (parts : List (Str × List (A × M))) (index : Nat) :
    List Str → Bool → A × List (Str × M) → Option (A × List (Str × M))
  | [], _, new => some new
  | sp :: rest, isFirst, new =>
    match parts.find? (fun p => p.1 = sp) with
    | none => fillMeasure parts index rest isFirst new
    | some part =>
      match part.2[index]? with
      | none => none
      | some (attr, music) =>
        fillMeasure parts index rest false (attr, if isFirst then [(part.1, music)] else new.2 ++ [(part.1, music)])

/-- `partwiseTimewise`, private/mx/core/ScoreConversions.cpp 21-107: one new measure for each index below the
measure count; a new score comes with one measure (ScoreTimewise.cpp 22), a new measure with one part (TimewiseMeasure.cpp 18). -/
def partwiseTimewise (f : Fresh A M) (s : Partwise H G A M) : Option (Timewise H G A M) := do
  let fresh := (f.attr, [(f.id, f.music)])
  let ms ← (List.range (measureCount s.parts)).mapM (fun i => fillMeasure s.parts i (partIds s.header) true fresh)
  some { version := s.version, header := s.header, measures := if ms = [] then [fresh] else ms }

/-- The music of the part with an id in a timewise measure, private/mx/core/ScoreConversions.cpp 153-163; a new measure keeps
its fresh music if there is no such part. -/
def musicOf (f : Fresh A M) (id : Str) (m : A × List (Str × M)) : M :=
  match m.2.find? (fun p => p.1 = id) with
  | some p => p.2
  | none => f.music

/-- The measures of one new part, private/mx/core/ScoreConversions.cpp 137-165; a new part comes with one measure
(PartwisePart.cpp 18). -/
def measuresOf (f : Fresh A M) (measures : List (A × List (Str × M))) (id : Str) : List (A × M) :=
  if measures = [] then [(f.attr, f.music)] else measures.map (fun m => (m.1, musicOf f id m))

/-- `timewisePartwise`, private/mx/core/ScoreConversions.cpp 110-168: one part for each score part of the part list, with one measure
for each measure of the old score. -/
def timewisePartwise (f : Fresh A M) (s : Timewise H G A M) : Partwise H G A M :=
  { version := s.version, header := s.header, parts := (partIds s.header).map (fun id => (id, measuresOf f s.measures id)) }

/-- A document, private/mx/core/Document.cpp 38-57: the alternative that is not chosen holds an empty score (60-80), which is
left out. -/
inductive Doc (H G A M : Type) where
  | partwise (s : Partwise H G A M)
  | timewise (s : Timewise H G A M)
deriving Repr, DecidableEq

/-- `Document::convertContents`, private/mx/core/Document.cpp 59-80. -/
def convertContents (f : Fresh A M) : Doc H G A M → Option (Doc H G A M)
  | .partwise s => (partwiseTimewise f s).map .timewise
  | .timewise s => some (.partwise (timewisePartwise f s))

end Mx.Convert
