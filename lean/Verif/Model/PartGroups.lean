import Verif.Model.Strings
import Verif.Model.ConverterTables
import Verif.Model.ApiData
import Verif.Model.ScoreConversions

/-
Model of the part list: part groups in private/mx/impl/ScoreWriter.cpp, private/mx/impl/ScoreReader.cpp and
private/mx/core/elements/{PartList,PartGroup,PartGroupAttributes}.cpp.

Simplifications: of a `<score-part>` only the id matters here (its contents are in Model/Instruments.lean).  The texts of
elements (`<group-name>`) pass unchanged from writer to reader (escaping is in Model/Strings.lean).  `<group-barline>` is
always written as "yes" and never read; it is left out, as are the elements of `<part-group>` that neither side uses
(group-name-display, group-abbreviation-display, group-time, editorial).
-/
namespace Mx

/-- `PartGroupData`, include/mx/api/PartGroupData.h 39-66.  The constructor (58-65) does not initialise `bracketType`: `bracket = none`
stands for that indeterminate value (copying it is not counted as undefined behaviour here, looking at it is). -/
structure PartGroupData where
  first : Int := -1
  last : Int := -1
  name : Str := []
  displayName : Str := []
  abbreviation : Str := []
  displayAbbreviation : Str := []
  bracket : Option Api.BracketType := none
  number : Int := -1
deriving Repr, DecidableEq

/-- `operator==( PartGroupData, PartGroupData )`, include/mx/api/PartGroupData.h 68-75. -/
def PartGroupData.eq (a b : PartGroupData) : Bool :=
  a.first = b.first ∧ a.last = b.last ∧ a.name = b.name ∧ a.displayName = b.displayName ∧ a.abbreviation = b.abbreviation ∧
  a.displayAbbreviation = b.displayAbbreviation

/-- `PartGroup` with its attributes, private/mx/core/elements/PartGroup.h, PartGroupAttributes.h 23-38: `isStart` tells `type`. -/
structure PartGroupXml where
  isStart : Bool
  number : Option Str := none
  name : Option Str := none
  abbreviation : Option Str := none
  symbol : Option Core.GroupSymbolValue := none
deriving Repr, DecidableEq

/-- The number attribute, private/mx/impl/ScoreWriter.cpp 286-290 and 319-323. -/
def groupNumberText (n : Int) : Option Str := if n ≥ 0 then some (xsToken (showInt n)) else none

/-- The group symbol, private/mx/impl/ScoreWriter.cpp 298-304. -/
def groupSymbol (b : Api.BracketType) : Option Core.GroupSymbolValue :=
  if b ≠ .unspecified then some (MapName.bracketMap.toCore b) else none

/-- `makePartGroupStart`, private/mx/impl/ScoreWriter.cpp 281-312; `none`: an indeterminate value is read. -/
def makePartGroupStart (g : PartGroupData) : Option PartGroupXml :=
  g.bracket.map fun b =>
    { isStart := true, number := groupNumberText g.number, name := if g.name.length > 0 then some g.name else none, symbol := groupSymbol b }

/-- `makePartGroupStop`, private/mx/impl/ScoreWriter.cpp 315-325. -/
def makePartGroupStop (g : PartGroupData) : PartGroupXml := { isStart := false, number := groupNumberText g.number }

/-- `PartList`, private/mx/core/elements/PartList.cpp 16-20. -/
structure PartList where
  groups : List PartGroupXml
  scorePart : Str
  entries : List (Convert.Entry PartGroupXml)
deriving Repr, DecidableEq

/-- A new `PartList`, private/mx/core/elements/PartList.cpp 16-20; the id of a new `ScorePart` is that of a new `XsID`
(private/mx/core/XsID.cpp 12-15). -/
def PartList.new : PartList := ⟨[], chars "ID", []⟩

/-- `findPartGroupsByStartIndex` (and `partGroupStartExists`), private/mx/impl/ScoreWriter.cpp 227-237, 253-264. -/
def groupsStarting (groups : List PartGroupData) (i : Int) : List PartGroupData := groups.filter (fun g => g.first = i)

/-- `findPartGroupsByStopIndex` (and `partGroupStopExists`), private/mx/impl/ScoreWriter.cpp 240-250, 267-278. -/
def groupsStopping (groups : List PartGroupData) (i : Int) : List PartGroupData := groups.filter (fun g => g.last = i)

/-- The `<part-group type="stop">` elements after a part, private/mx/impl/ScoreWriter.cpp 159-162, 179-185: larger numbers first. -/
def stopEntries (σ : StdSort) (groups : List PartGroupData) (i : Int) : List (Convert.Entry PartGroupXml) :=
  (σ.sort (fun g => - g.number) (groupsStopping groups i)).map (fun g => .partGroup (makePartGroupStop g))

/-- `addScorePart`, private/mx/impl/ScoreWriter.cpp 154-212. -/
def addScorePart (σ : StdSort) (groups : List PartGroupData) (i : Nat) (id : Str) (pl : PartList) : Option PartList :=
  ((groupsStarting groups i).mapM makePartGroupStart).map fun starts =>
    if i = 0 then { groups := pl.groups ++ starts, scorePart := id, entries := pl.entries ++ stopEntries σ groups i }
    else { pl with entries := pl.entries ++ starts.map .partGroup ++ [.scorePart id] ++ stopEntries σ groups i }

/-- The loop over the parts, private/mx/impl/ScoreWriter.cpp 138-144. -/
def writeParts (σ : StdSort) (groups : List PartGroupData) : Nat → List Str → PartList → Option PartList
  | _, [], pl => some pl
  | i, id :: ids, pl => (addScorePart σ groups i id pl).bind (writeParts σ groups (i + 1) ids)

/-- The part list of a score with the given ids of parts and part groups. -/
def writePartList (σ : StdSort) (groups : List PartGroupData) (ids : List Str) : Option PartList := writeParts σ groups 0 ids .new

/-- `PartList::streamContents`, private/mx/core/elements/PartList.cpp 48-65: the children in document order. -/
def PartList.children (pl : PartList) : List (Convert.Entry PartGroupXml) :=
  pl.groups.map .partGroup ++ [.scorePart pl.scorePart] ++ pl.entries

/-- `PartList::fromXElementImpl`, private/mx/core/elements/PartList.cpp 163-215, for children that are `<part-group>` and
`<score-part>` elements; `none`: no `<score-part>`, reading fails.  -/
def PartList.ofChildren : List (Convert.Entry PartGroupXml) → Option PartList
  | [] => none
  | .scorePart id :: rest => some ⟨[], id, rest⟩
  | .partGroup g :: rest => (PartList.ofChildren rest).map fun pl => { pl with groups := g :: pl.groups }

/-- `parsePartGroupNumber`, private/mx/impl/ScoreReader.cpp 424-439. -/
def parsePartGroupNumber (g : PartGroupXml) : Res Int :=
  match g.number with
  | none => .ok (-1)
  | some s =>
    match stringToInt s (-1) with
    | none => .error .undefined
    | some (true, n) => .ok n
    | some (false, _) => .error .throws

/-- State of the reader: `partIndex`, `myPartGroupStack` (front first), `myOutScoreData.partGroups` and the ids of `outParts`. -/
structure PartListReader where
  index : Int := 0
  stack : List PartGroupData := []
  out : List PartGroupData := []
  parts : List Str := []
deriving Repr, DecidableEq

/-- `startPartGroup`, private/mx/impl/ScoreReader.cpp 322-350: the new group. -/
def startedGroup (index number : Int) (g : PartGroupXml) : PartGroupData :=
  { first := index, number := number, name := g.name.getD [], abbreviation := g.abbreviation.getD [], bracket := g.symbol.map MapName.bracketMap.toApi }

/-- `groupNumberExistsOnStack`, `popGroupFromStack` and `popMostRecentGroupFromStack`, private/mx/impl/ScoreReader.cpp 363-370, 378-421:
the group taken from the stack and the stack afterwards. -/
def popGroup (number : Int) (stack : List PartGroupData) : Option (PartGroupData × List PartGroupData) :=
  match stack.find? (fun g => g.number = number) with
  | some g => some (g, stack.eraseP (fun g => g.number = number))
  | none => match stack with | [] => none | g :: rest => some (g, rest)

/-- `stopPartGroup`, private/mx/impl/ScoreReader.cpp 359-374, once the number is known. -/
def stopGroup (number : Int) (r : PartListReader) : PartListReader :=
  match popGroup number r.stack with
  | none => r
  | some (g, stack) => { r with stack := stack, out := r.out ++ [{ g with last := if r.index > 0 then r.index - 1 else r.index }] }

/-- `handlePartGroup`, private/mx/impl/ScoreReader.cpp 308-375 (an empty stack is left alone before the number is read). -/
def handlePartGroup (g : PartGroupXml) (r : PartListReader) : Res PartListReader :=
  if g.isStart then (parsePartGroupNumber g).map fun n => { r with stack := startedGroup r.index n g :: r.stack }
  else if r.stack = [] then .ok r
  else (parsePartGroupNumber g).map fun n => stopGroup n r

/-- A `<score-part>`, private/mx/impl/ScoreReader.cpp 113-120, 126-133 with `findPartwisePart` 78-98: it counts as a part of the result only if
there is a `<part>` with its id; the index advances in any case.  -/
def handleScorePart (partwise : List Str) (id : Str) (r : PartListReader) : PartListReader :=
  { r with index := r.index + 1, parts := if id ∈ partwise then r.parts ++ [id] else r.parts }

/-- One child of the part list, private/mx/impl/ScoreReader.cpp 108-139. -/
def handleEntry (partwise : List Str) (r : PartListReader) : Convert.Entry PartGroupXml → Res PartListReader
  | .scorePart id => .ok (handleScorePart partwise id r)
  | .partGroup g => handlePartGroup g r

/-- `sortingCompare`, private/mx/impl/ScoreReader.cpp 142-161. -/
def groupLess (a b : PartGroupData) : Bool :=
  if a.first < b.first then true
  else if a.first > b.first then false
  else if a.number < b.number then true
  else false

/-- `std::sort` with `sortingCompare`: the result is a permutation of the input in ascending order, which one is not said. -/
structure GroupSort where
  sort : List PartGroupData → List PartGroupData
  perm : ∀ l, (sort l).Perm l
  sorted : ∀ l, (sort l).Pairwise (fun a b => groupLess b a = false)

/-- `reconcileParts`, private/mx/impl/ScoreReader.cpp 100-166: the part groups and the ids of the parts. -/
def reconcileParts (τ : GroupSort) (partwise : List Str) (pl : PartList) : Res (List PartGroupData × List Str) :=
  (pl.children.foldlM (handleEntry partwise) {}).map fun r => (τ.sort r.out, r.parts)

end Mx
