import Verif.Model.Notations
import Verif.Model.OpenEnums
import Verif.Model.Strings

/-
Model of fonts, print data and the marks of a note: private/mx/impl/FontFunctions.h, PrintFunctions.h, private/mx/api/MarkData.cpp, the marks of
private/mx/impl/NotationsWriter.cpp and NoteFunctions::parseNotations, MarkDataFunctions.h, ArticulationsFunctions.cpp, OrnamentsFunctions.cpp, TechnicalFunctions.cpp,
DynamicsReader.cpp, DynamicsWriter.cpp, FermataFunctions.cpp, ArpeggiateFunctions.cpp, NonArpeggiateFunctions.cpp and AccidentalMarkFunctions.cpp.

Elements inside `<articulations>`, `<ornaments>` and `<technical>` are identified by the enumerator of the choice class, not by their names. Texts are those that an XML
reader sees (`C26`, `C52` are about escaping).
-/
namespace Mx

/-! ### Fonts -/

/-- `api::FontData`, include/mx/api/FontData.h 56-88. -/
structure FontData where
  sizeType : Api.FontSizeType := .unspecified
  sizePoint : ℚ := -1
  sizeCss : Api.CssSize := .unspecified
  style : Api.FontStyle := .unspecified
  weight : Api.FontWeight := .unspecified
  fontFamily : List Str := []
  underline : Int := 0
  overline : Int := 0
  lineThrough : Int := 0
deriving Repr, DecidableEq

/-- Which of the print members a struct of attributes has: the four font attributes, the three lines, the colour, `print-object`. -/
structure PrintMembers where
  font : Bool := true
  lines : Bool := false
  color : Bool := false
  printObject : Bool := false
deriving Repr, DecidableEq

/-- The print attributes of an element. -/
structure PrintXml where
  family : Option Str := none
  style : Option Str := none
  size : Option Str := none
  weight : Option Str := none
  underline : Option Str := none
  overline : Option Str := none
  lineThrough : Option Str := none
  color : Option Str := none
  printObject : Option Str := none
deriving Repr, DecidableEq

/-- The text of a comma separated list as an XML reader sees it: `toStream( CommaSeparatedText )`, private/mx/core/CommaSeparatedText.cpp 90-107, without the escapes. -/
def commaJoin : List Str → Str
  | [] => []
  | [x] => x
  | x :: xs => x ++ [','] ++ commaJoin xs

/-- `setAttributesFromFontFamily`, private/mx/impl/FontFunctions.h 164-182. -/
def writeFamily (l : List Str) : Option Str := if l = [] then none else some (commaJoin (l.map xsToken))

/-- `getFontFamily`, private/mx/impl/FontFunctions.h 39-57. -/
def readFamily (x : Option Str) : List Str := (x.map CommaText.parse).getD []

/-- `setAttributesFromFontSize`, private/mx/impl/FontFunctions.h 213-237. -/
def writeFontSize (f : FontData) : Option (Option Str) :=
  match f.sizeType with
  | .unspecified => some none
  | .css => some (some (FontSize.toStr (.css (MapName.cssMap.toCore f.sizeCss))))
  | .point => (DecimalRange.make .Decimal f.sizePoint).map (fun d => some (FontSize.toStr (.decimal d)))

/-- `getFontSize`, private/mx/impl/FontFunctions.h 85-113, after the attribute has been parsed (a text that is rejected fails the whole document: it is modelled as
no result). -/
def readFontSize : Option Str → Option (Api.FontSizeType × ℚ × Api.CssSize)
  | none => some (.unspecified, -1, .unspecified)
  | some s =>
    match FontSize.parse (.decimal decimalZero) s with
    | some (true, .css c) => some (.css, -1, MapName.cssMap.toApi c)
    | some (true, .decimal d) => some (.point, d.getValue, .unspecified)
    | _ => none

/-- The number of lines, private/mx/impl/FontFunctions.h 247-278. -/
def writeLines (n : Int) : Option Str := if n > 0 then some (IntRange.ofKind .NumberOfLines n).toStr else none

/-- The number of lines read, private/mx/impl/FontFunctions.h 125-138. -/
def readLines (x : Option Str) : Int := (x.map (parseBounded .NumberOfLines)).getD 0

/-- `api::PrintData`, include/mx/api/PrintData.h 16-31. -/
structure PrintData where
  printObject : Api.Bool := .unspecified
  fontData : FontData := {}
  isColorSpecified : Bool := false
  color : ColorData := {}
deriving Repr, DecidableEq

/-- `setAttributesFromPrintData`, private/mx/impl/PrintFunctions.h 118-133 with `setAttributesFromFontData`, FontFunctions.h 239-279 and 185-210: `print-object` is not set. -/
def writePrint (m : PrintMembers) (p : PrintData) : Option PrintXml := do
  let size ← ifMember m.font (writeFontSize p.fontData)
  return {
    family := if m.font then writeFamily p.fontData.fontFamily else none
    style := if m.font = true ∧ p.fontData.style ≠ .unspecified then some (StringEnum.toStr (MapName.fontStyleMap.toCore p.fontData.style : Core.FontStyle)) else none
    weight := if m.font = true ∧ p.fontData.weight ≠ .unspecified then some (StringEnum.toStr (MapName.fontWeightMap.toCore p.fontData.weight : Core.FontWeight)) else none
    size := size
    underline := if m.lines then writeLines p.fontData.underline else none
    overline := if m.lines then writeLines p.fontData.overline else none
    lineThrough := if m.lines then writeLines p.fontData.lineThrough else none
    color := if m.color then writeColor p.isColorSpecified p.color else none }

/-- `getPrintData`, private/mx/impl/PrintFunctions.h 24-80 with `getFontData`, FontFunctions.h 60-82 and 116-141. -/
def readPrint (m : PrintMembers) (x : PrintXml) : Option PrintData := do
  let size ← readFontSize (if m.font then x.size else none)
  return {
    printObject := ((if m.printObject then x.printObject else none).map (fun t => (MapName.boolMap.toApi (parseEnum t : Core.YesNo) : Api.Bool))).getD .unspecified
    fontData := {
      sizeType := size.1, sizePoint := size.2.1, sizeCss := size.2.2
      style := ((if m.font then x.style else none).map (fun t => (MapName.fontStyleMap.toApi (parseEnum t : Core.FontStyle) : Api.FontStyle))).getD .unspecified
      weight := ((if m.font then x.weight else none).map (fun t => (MapName.fontWeightMap.toApi (parseEnum t : Core.FontWeight) : Api.FontWeight))).getD .unspecified
      fontFamily := readFamily (if m.font then x.family else none)
      underline := readLines (if m.lines then x.underline else none)
      overline := readLines (if m.lines then x.overline else none)
      lineThrough := readLines (if m.lines then x.lineThrough else none) }
    isColorSpecified := (readColor (if m.color then x.color else none)).1
    color := (readColor (if m.color then x.color else none)).2 }

/-! ### Categories of marks -/

/-- `isMarkDynamic`, private/mx/api/MarkData.cpp 13-40. -/
def isMarkDynamic (t : Api.MarkType) : Bool := decide (t ∈ [.p, .p, .pp, .ppp, .pppp, .ppppp, .pppppp, .f, .ff, .fff, .ffff, .fffff, .ffffff, .mp, .mf, .sf, .sfp, .sfpp, .fp, .rf, .rfz,
  .sfz, .sffz, .fz, Api.MarkType.otherDynamics])

/-- `isMarkArpeggiate`, private/mx/api/MarkData.cpp 42-47. -/
def isMarkArpeggiate (t : Api.MarkType) : Bool := decide (t ∈ [.arpeggiate, .arpeggiateDown, Api.MarkType.arpeggiateUp])

/-- `isMarkArticulation`, private/mx/api/MarkData.cpp 49-67; `Converter::isArticulation`, private/mx/impl/Converter.cpp 1604-1622, lists the same. -/
def isMarkArticulation (t : Api.MarkType) : Bool := decide (t ∈ [.accent, .strongAccent, .staccato, .tenuto, .detachedLegato, .staccatissimo, .spiccato, .scoop, .plop, .doit, .falloff,
  .breathMark, .caesura, .stress, .unstress, Api.MarkType.otherArticulation])

/-- `isMarkOrnament`, private/mx/api/MarkData.cpp 70-90. -/
def isMarkOrnament (t : Api.MarkType) : Bool := decide (t ∈ [.trillMark, .turn, .delayedTurn, .invertedTurn, .delayedInvertedTurn, .verticalTurn, .shake, .wavyLine, .mordent,
  .invertedMordent, .schleifer, .tremoloSingleOne, .tremoloSingleTwo, .tremoloSingleThree, .tremoloSingleFour, .tremoloSingleFive, .otherOrnament, Api.MarkType.unknownOrnament])

/-- `isMarkFermata`, private/mx/api/MarkData.cpp 93-107. -/
def isMarkFermata (t : Api.MarkType) : Bool := decide (t ∈ [.fermata, .fermataNormal, .fermataAngled, .fermataSquare, .fermataUpright, .fermataNormalUpright, .fermataAngledUpright,
  .fermataSquareUpright, .fermataInverted, .fermataNormalInverted, .fermataAngledInverted, Api.MarkType.fermataSquareInverted])

/-- `isMarkNonArpeggiate`, private/mx/api/MarkData.cpp 110-113. -/
def isMarkNonArpeggiate (t : Api.MarkType) : Bool := decide (t = .nonArpeggiate)

/-- `isMarkPedal`, private/mx/api/MarkData.cpp 116-120. -/
def isMarkPedal (t : Api.MarkType) : Bool := decide (t ∈ [.pedal, Api.MarkType.damp])

/-- `isMarkTechnical`, private/mx/api/MarkData.cpp 123-138. -/
def isMarkTechnical (t : Api.MarkType) : Bool := decide (t ∈ [.upBow, .downBow, .harmonic, .openString, .thumbPosition, .doubleTongue, .tripleTongue, .stopped, .snapPizzicato, .heel,
  .toe, .fingernails, Api.MarkType.otherTechnical])

/-- `isMarkTremolo`, private/mx/api/MarkData.cpp 141-148. -/
def isMarkTremolo (t : Api.MarkType) : Bool := decide (t ∈ [.tremoloSingleOne, .tremoloSingleTwo, .tremoloSingleThree, .tremoloSingleFour, Api.MarkType.tremoloSingleFive])

/-- `isMarkCustom`, private/mx/api/MarkData.cpp 151-154. -/
def isMarkCustom (t : Api.MarkType) : Bool := decide (t = .customAccentTenuto)

/-- `markStringCustomAccentTenuto`, include/mx/api/MarkData.h 193. -/
def customName : Str := chars "gjhsldjhglskdjhfg"

/-- `getCustomMarkName`, private/mx/api/MarkData.cpp 157-168. -/
def getCustomMarkName (t : Api.MarkType) : Str := if t = .customAccentTenuto then customName else []

/-- `getMarkTypeFromCustomString`, private/mx/api/MarkData.cpp 171-178. -/
def getMarkTypeFromCustomString (s : Str) : Api.MarkType := if s = customName then .customAccentTenuto else .customErrorUnknown

/-- `numTremoloSlashes`, private/mx/api/MarkData.cpp 181-209. -/
def numTremoloSlashes : Api.MarkType → Int
  | .tremoloSingleOne => 1
  | .tremoloSingleTwo => 2
  | .tremoloSingleThree => 3
  | .tremoloSingleFour => 4
  | .tremoloSingleFive => 5
  | _ => -1

/-- `api::MarkData`, include/mx/api/MarkData.h 210-221. -/
structure MarkData where
  markType : Api.MarkType := .unspecified
  name : Str := []
  tickTimePosition : Int := 0
  printData : PrintData := {}
  positionData : PositionData := {}
deriving Repr, DecidableEq

/-- The name given by the constructors, private/mx/api/MarkData.cpp 230-266. -/
def defaultMarkName (t : Api.MarkType) : Str :=
  if isMarkDynamic t then StringEnum.toStr (MapName.dynamicsMap.toCore t : Core.DynamicsEnum)
  else if isMarkArticulation t then chars "articulation"
  else if isMarkFermata t then StringEnum.toStr (MapName.fermataMap.toCore t : Core.FermataShape)
  else []

/-- `MarkData::MarkData( MarkType )`, private/mx/api/MarkData.cpp 223-243. -/
def MarkData.make (t : Api.MarkType) : MarkData := { markType := t, name := defaultMarkName t }

/-! ### Marks in the document -/

/-- An element of `<articulations>`, `<ornaments>` or `<technical>`: the choice, the attributes and the text. `tremoloType` is the attribute `type` of `<tremolo>`. -/
structure MarkXml (choice : Type) where
  choice : choice
  position : PositionXml := {}
  print : PrintXml := {}
  text : Str := []
  tremoloType : Option Str := none
deriving Repr, DecidableEq

/-- `<dynamics>`: name and text of its first child. -/
structure DynamicsXml where
  child : Str
  text : Str := []
  position : PositionXml := {}
  print : PrintXml := {}
deriving Repr, DecidableEq

/-- `<fermata>`. -/
structure FermataXml where
  text : Str
  type : Option Str := none
  position : PositionXml := {}
  print : PrintXml := {}
deriving Repr, DecidableEq

/-- The children of `<notations>` that are read as marks. -/
inductive NotationXml where
  | articulations (l : List (MarkXml Core.ArticulationsChoice))
  | ornaments (l : List (MarkXml Core.OrnamentsChoice)) (accidentals : List (Str × PositionXml))
  | technical (l : List (MarkXml Core.TechnicalChoice))
  | dynamics (d : DynamicsXml)
  | fermata (f : FermataXml)
  | arpeggiate (direction : Option Str)
  | nonArpeggiate
  | accidentalMark (text : Str) (position : PositionXml)
deriving Repr, DecidableEq

/-- The position members of all elements of `<articulations>`, `<ornaments>`, `<technical>` and of `<accidental-mark>`: private/mx/core/elements/EmptyPlacementAttributes.h 25-52 and the other
structs of attributes. -/
def markMembers : PositionMembers := {}

/-- private/mx/core/elements/DynamicsAttributes.h 27-68. -/
def dynamicsMembers : PositionMembers := { halign := true, valign := true }

/-- private/mx/core/elements/FermataAttributes.h 26-55. -/
def fermataMembers : PositionMembers := { placement := false }

/-- The element on which the position of an articulation is set, private/mx/impl/NotationsWriter.cpp 412-516. -/
def articulationElement : Api.MarkType → Option Core.ArticulationsChoice
  | .accent => some .accent | .strongAccent => some .strongAccent | .staccato => some .staccato | .tenuto => some .tenuto | .detachedLegato => some .detachedLegato
  | .staccatissimo => some .staccatissimo | .spiccato => some .spiccato | .scoop => some .scoop | .plop => some .plop | .doit => some .doit | .falloff => some .falloff
  | .breathMark => some .breathMark | .caesura => some .caesura | .stress => some .stress | .unstress => some .unstress
  | .customAccentTenuto => some .otherArticulation | .otherArticulation => some .otherArticulation
  | _ => none

/-- Attributes set on an element are seen only if it is the chosen one. -/
def positionIfChosen {α : Type} [DecidableEq α] (element : Option α) (choice : α) (m : PositionMembers) (p : PositionData) : Option PositionXml :=
  if element = some choice then writePosition m p else some {}

/-- `NotationsWriter::addArticulation`, private/mx/impl/NotationsWriter.cpp 400-517. -/
def writeArticulation (m : MarkData) : Option (MarkXml Core.ArticulationsChoice) :=
  let choice : Core.ArticulationsChoice := MapName.articulationsMap.toCore m.markType
  (positionIfChosen (articulationElement m.markType) choice markMembers m.positionData).map fun p =>
    { choice := choice, position := p
      text := if isMarkCustom m.markType then getCustomMarkName m.markType else if m.markType = .otherArticulation then m.name else [] }

/-- The element on which the position of an ornament is set, private/mx/impl/NotationsWriter.cpp 532-624. -/
def ornamentElement : Api.MarkType → Option Core.OrnamentsChoice
  | .trillMark => some .trillMark | .turn => some .turn | .delayedTurn => some .delayedTurn | .invertedTurn => some .invertedTurn | .delayedInvertedTurn => some .delayedInvertedTurn
  | .verticalTurn => some .verticalTurn | .shake => some .shake | .wavyLine => some .wavyLine | .mordent => some .mordent | .invertedMordent => some .invertedMordent
  | .schleifer => some .schleifer
  | .tremoloSingleOne => some .tremolo | .tremoloSingleTwo => some .tremolo | .tremoloSingleThree => some .tremolo | .tremoloSingleFour => some .tremolo | .tremoloSingleFive => some .tremolo
  | .otherOrnament => some .otherOrnament | .unknownOrnament => some .otherOrnament
  | _ => none

/-- `NotationsWriter::addOrnament`, private/mx/impl/NotationsWriter.cpp 520-625. -/
def writeOrnament (m : MarkData) : Option (MarkXml Core.OrnamentsChoice) :=
  let choice : Core.OrnamentsChoice := if isMarkTremolo m.markType then .tremolo else MapName.ornamentsMap.toCore m.markType
  (positionIfChosen (ornamentElement m.markType) choice markMembers m.positionData).map fun p =>
    { choice := choice, position := p
      text := if isMarkTremolo m.markType then (IntRange.ofKind .TremoloMarks (numTremoloSlashes m.markType)).toStr
        else if m.markType = .unknownOrnament ∨ m.markType = .otherOrnament then m.name else []
      tremoloType := if isMarkTremolo m.markType then some (StringEnum.toStr Core.StartStopSingle.single) else none }

/-- The element on which the position of a technical mark is set, private/mx/impl/NotationsWriter.cpp 639-722. -/
def technicalElement : Api.MarkType → Option Core.TechnicalChoice
  | .upBow => some .upBow | .downBow => some .downBow | .harmonic => some .harmonic | .openString => some .openString | .thumbPosition => some .thumbPosition
  | .doubleTongue => some .doubleTongue | .tripleTongue => some .tripleTongue | .stopped => some .stopped | .snapPizzicato => some .snapPizzicato | .heel => some .heel
  | .toe => some .toe | .fingernails => some .fingernails | .unknownTechnical => some .otherTechnical | .otherTechnical => some .otherTechnical
  | _ => none

/-- `NotationsWriter::addTechnical`, private/mx/impl/NotationsWriter.cpp 627-723. -/
def writeTechnical (m : MarkData) : Option (MarkXml Core.TechnicalChoice) :=
  let choice : Core.TechnicalChoice := MapName.technicalMarkMap.toCore m.markType
  (positionIfChosen (technicalElement m.markType) choice markMembers m.positionData).map fun p =>
    { choice := choice, position := p, text := if m.markType = .unknownTechnical ∨ m.markType = .otherTechnical then m.name else [] }

/-- The value of `DynamicsWriter::getDynamics`, private/mx/impl/DynamicsWriter.cpp 36-44, on top of the default `mf`, private/mx/core/Enums.cpp 950-955. -/
def dynamicsValue (m : MarkData) : OpenValue Core.DynamicsEnum :=
  let v := (OpenValue.ofEnum Core.DynamicsEnum.mf).setEnum (MapName.dynamicsMap.toCore m.markType : Core.DynamicsEnum)
  if (MapName.dynamicsMap.toCore m.markType : Core.DynamicsEnum) = .otherDynamics ∧ m.name ≠ [] then v.setText m.name else v

/-- The print members of `DynamicsAttributes`, private/mx/core/elements/DynamicsAttributes.h 49-67. -/
def dynamicsPrint : PrintMembers := { lines := true, color := true }

/-- The print members of `FermataAttributes`, private/mx/core/elements/FermataAttributes.h 26-55. -/
def fermataPrint : PrintMembers := { color := true }

/-- `DynamicsWriter::getDynamics`, private/mx/impl/DynamicsWriter.cpp 32-48, and `Dynamics::streamContents`, private/mx/core/elements/Dynamics.cpp 29-53. -/
def writeDynamics (m : MarkData) : Option DynamicsXml := do
  let p ← writePosition dynamicsMembers m.positionData
  let q ← writePrint dynamicsPrint m.printData
  return { child := StringEnum.toStr (dynamicsValue m).enum, text := if (dynamicsValue m).enum = .otherDynamics then (dynamicsValue m).custom else [], position := p, print := q }

/-- Shape and direction of a fermata, private/mx/impl/NotationsWriter.cpp 286-353. -/
def fermataParts : Api.MarkType → Core.FermataShape × Option Core.UprightInverted
  | .fermata => (.emptystring, none)
  | .fermataNormal => (.normal, none)
  | .fermataAngled => (.angled, none)
  | .fermataSquare => (.square, none)
  | .fermataUpright => (.emptystring, some .upright)
  | .fermataNormalUpright => (.normal, some .upright)
  | .fermataAngledUpright => (.angled, some .upright)
  | .fermataSquareUpright => (.square, some .upright)
  | .fermataInverted => (.emptystring, some .inverted)
  | .fermataNormalInverted => (.normal, some .inverted)
  | .fermataAngledInverted => (.angled, some .inverted)
  | .fermataSquareInverted => (.square, some .inverted)
  | _ => (.normal, none)

/-- A fermata, private/mx/impl/NotationsWriter.cpp 277-355. -/
def writeFermata (m : MarkData) : Option FermataXml := do
  let p ← writePosition fermataMembers m.positionData
  let q ← writePrint fermataPrint m.printData
  return { text := StringEnum.toStr (fermataParts m.markType).1, type := (fermataParts m.markType).2.map StringEnum.toStr, position := p, print := q }

/-- The marks of a note sorted into elements, in the loop private/mx/impl/NotationsWriter.cpp 255-356. -/
structure WrittenMarks where
  direct : List NotationXml := []
  articulations : List (MarkXml Core.ArticulationsChoice) := []
  ornaments : List (MarkXml Core.OrnamentsChoice) := []
  technicals : List (MarkXml Core.TechnicalChoice) := []
deriving Repr, DecidableEq

/-- First `if` of the loop. -/
def addArticulation (w : WrittenMarks) (m : MarkData) : Option WrittenMarks :=
  if isMarkArticulation m.markType || isMarkCustom m.markType then (writeArticulation m).map (fun a => { w with articulations := w.articulations ++ [a] }) else some w

/-- Second `if` of the loop. -/
def addOrnament (w : WrittenMarks) (m : MarkData) : Option WrittenMarks :=
  if isMarkOrnament m.markType then (writeOrnament m).map (fun a => { w with ornaments := w.ornaments ++ [a] }) else some w

/-- Third `if` of the loop with its `else` branches. -/
def addRest (w : WrittenMarks) (m : MarkData) : Option WrittenMarks :=
  if isMarkTechnical m.markType then (writeTechnical m).map (fun a => { w with technicals := w.technicals ++ [a] })
  else if isMarkDynamic m.markType then (writeDynamics m).map (fun d => { w with direct := w.direct ++ [.dynamics d] })
  else if isMarkFermata m.markType then (writeFermata m).map (fun f => { w with direct := w.direct ++ [.fermata f] })
  else some w

/-- One turn of the loop. -/
def writeMark (w : WrittenMarks) (m : MarkData) : Option WrittenMarks := ((addArticulation w m).bind (fun w => addOrnament w m)).bind (fun w => addRest w m)

/-- The marks of a note written, private/mx/impl/NotationsWriter.cpp 255-371. -/
def writeMarks (marks : List MarkData) : Option (List NotationXml) :=
  (marks.foldlM writeMark {}).map fun w =>
    w.direct ++ (if w.articulations = [] then [] else [.articulations w.articulations]) ++ (if w.ornaments = [] then [] else [.ornaments w.ornaments []])
      ++ (if w.technicals = [] then [] else [.technical w.technicals])

/-! ### Reading marks -/

/-- Names given by the reader of articulations, private/mx/impl/ArticulationsFunctions.cpp 60-171. -/
def articulationName : Core.ArticulationsChoice → Str
  | .accent => chars "accent" | .strongAccent => chars "strong-accent" | .staccato => chars "staccato" | .tenuto => chars "tenuto" | .detachedLegato => chars "detached-legato"
  | .staccatissimo => chars "staccatissimo" | .spiccato => chars "spiccato" | .scoop => chars "scoop" | .plop => chars "plop" | .doit => chars "doit" | .falloff => chars "falloff"
  | .breathMark => chars "breath-mark" | .caesura => chars "caesura" | .stress => chars "stress" | .unstress => chars "unstress" | .otherArticulation => []

/-- The print members of an articulation: only `<strong-accent>` has a colour. -/
def articulationPrint (c : Core.ArticulationsChoice) : PrintMembers := { color := decide (c = .strongAccent) }

/-- The type of a custom articulation, private/mx/impl/ArticulationsFunctions.cpp 159-164. -/
def customOr (text : Str) (t : Api.MarkType) : Api.MarkType :=
  if getMarkTypeFromCustomString text ≠ .customErrorUnknown then getMarkTypeFromCustomString text else t

/-- `ArticulationsFunctions::parseArticulations`, private/mx/impl/ArticulationsFunctions.cpp 43-171, for one element. -/
def readArticulation (tick : Int) (x : MarkXml Core.ArticulationsChoice) : Option MarkData := do
  let p ← readPosition markMembers x.position
  let q ← readPrint (articulationPrint x.choice) x.print
  let t : Api.MarkType := MapName.articulationsMap.toApi x.choice
  return {
    markType := if x.choice = .otherArticulation then customOr x.text t else t
    name := if x.choice = .otherArticulation then x.text else articulationName x.choice
    tickTimePosition := tick, printData := q, positionData := p }

/-- Names given by the reader of ornaments, private/mx/impl/OrnamentsFunctions.cpp 82-159. -/
def ornamentName : Core.OrnamentsChoice → Str
  | .trillMark => chars "trill-mark" | .turn => chars "turn" | .delayedTurn => chars "delayed-turn" | .invertedTurn => chars "inverted-turn"
  | .delayedInvertedTurn => chars "delayed-inverted-turn" | .verticalTurn => chars "vertical-turn" | .shake => chars "shake" | .wavyLine => chars "wavy-line"
  | .mordent => chars "mordent" | .invertedMordent => chars "inverted-mordent" | .schleifer => chars "schleifer" | .tremolo => chars "tremolo" | .otherOrnament => []

/-- The print members of an ornament. -/
def ornamentPrint (c : Core.OrnamentsChoice) : PrintMembers := { font := decide (c ≠ .wavyLine), color := decide (c = .mordent ∨ c = .invertedMordent) }

/-- The type of a tremolo by the number of its slashes, private/mx/impl/OrnamentsFunctions.cpp 164-187: above 5 it stays as given by the table. -/
def tremoloType (slashes : Int) : Api.MarkType :=
  if slashes = 0 then .tremoloSingleThree
  else if slashes = 1 then .tremoloSingleOne
  else if slashes = 2 then .tremoloSingleTwo
  else if slashes = 3 then .tremoloSingleThree
  else if slashes = 4 then .tremoloSingleFour
  else if slashes = 5 then .tremoloSingleFive
  else MapName.ornamentsMap.toApi .tremolo

/-- Whether a tremolo is not a mark, private/mx/impl/OrnamentsFunctions.cpp 150-157. -/
def isOtherTremolo (x : MarkXml Core.OrnamentsChoice) : Bool :=
  decide (x.choice = .tremolo) && decide ((x.tremoloType.map (fun t => (parseEnum t : Core.StartStopSingle))).getD .single ≠ .single)

/-- `OrnamentsFunctions::parseOrnamentsSet`, private/mx/impl/OrnamentsFunctions.cpp 42-65 and 78-210, for one element; the inner `none` is an element that is skipped. -/
def readOrnament (tick : Int) (x : MarkXml Core.OrnamentsChoice) : Option (Option MarkData) :=
  if isOtherTremolo x then some none else do
  let p ← readPosition markMembers x.position
  let q ← readPrint (ornamentPrint x.choice) x.print
  return some {
    markType := if x.choice = .tremolo then tremoloType (parseBounded .TremoloMarks x.text) else MapName.ornamentsMap.toApi x.choice
    name := if x.choice = .otherOrnament then (if x.text = [] then chars "other-ornament" else x.text) else ornamentName x.choice
    tickTimePosition := tick, printData := q, positionData := p }

/-- Names given by the reader of technical marks, private/mx/impl/TechnicalFunctions.cpp 76-179 (only those that are reached). -/
def technicalName : Core.TechnicalChoice → Str
  | .upBow => chars "up-bow" | .downBow => chars "down-bow" | .harmonic => chars "harmonic" | .openString => chars "open-string" | .thumbPosition => chars "thumb-position"
  | .doubleTongue => chars "double-tongue" | .tripleTongue => chars "triple-tongue" | .stopped => chars "stopped" | .snapPizzicato => chars "snap-pizzicato"
  | .heel => chars "heel" | .toe => chars "toe" | _ => []

/-- The print members of a technical mark. -/
def technicalPrint (c : Core.TechnicalChoice) : PrintMembers := { color := decide (c = .harmonic ∨ c = .heel ∨ c = .toe), printObject := decide (c = .harmonic) }

/-- `TechnicalFunctions::parseTechnicalMarks`, private/mx/impl/TechnicalFunctions.cpp 47-180, for one element; those with an unspecified type are skipped. -/
def readTechnical (tick : Int) (x : MarkXml Core.TechnicalChoice) : Option (Option MarkData) :=
  if (MapName.technicalMarkMap.toApi x.choice : Api.MarkType) = .unspecified ∧ x.choice ≠ .otherTechnical then some none else do
  let p ← readPosition markMembers x.position
  let q ← readPrint (technicalPrint x.choice) x.print
  return some {
    markType := MapName.technicalMarkMap.toApi x.choice, name := if x.choice = .otherTechnical then x.text else technicalName x.choice
    tickTimePosition := tick, printData := q, positionData := p }

/-- `Dynamics::fromXElementImpl`, private/mx/core/elements/Dynamics.cpp 92-117. -/
def readDynamicsValue (x : DynamicsXml) : OpenValue Core.DynamicsEnum :=
  (OpenValue.ofEnum Core.DynamicsEnum.mf).setText (if x.child = chars "other-dynamics" then x.text else x.child)

/-- `DynamicsReader::parseDynamics`, private/mx/impl/DynamicsReader.cpp 25-36: the print data is not read. -/
def readDynamics (tick : Int) (x : DynamicsXml) : Option MarkData :=
  (readPosition dynamicsMembers x.position).map fun p =>
    { markType := MapName.dynamicsMap.toApi (readDynamicsValue x).enum, name := (readDynamicsValue x).valueString, tickTimePosition := tick, positionData := p }

/-- The type of a fermata by shape and direction, private/mx/impl/FermataFunctions.cpp 25-86. -/
def fermataType : Core.FermataShape → Option Core.UprightInverted → Api.MarkType
  | .emptystring, none => .fermata
  | .emptystring, some .upright => .fermataUpright
  | .emptystring, some .inverted => .fermataInverted
  | .normal, none => .fermataNormal
  | .normal, some .upright => .fermataNormalUpright
  | .normal, some .inverted => .fermataNormalInverted
  | .angled, none => .fermataAngled
  | .angled, some .upright => .fermataAngledUpright
  | .angled, some .inverted => .fermataAngledInverted
  | .square, none => .fermataSquare
  | .square, some .upright => .fermataSquareUpright
  | .square, some .inverted => .fermataSquareInverted

/-- `FermataFunctions::parseFermata`, private/mx/impl/FermataFunctions.cpp 21-96: `parseMarkDataAttributes` is given the pointer, which has no attributes. -/
def readFermata (tick : Int) (x : FermataXml) : MarkData :=
  { MarkData.make (fermataType (parseEnum x.text) (x.type.map parseEnum)) with tickTimePosition := tick }

/-- `ArpeggiateFunctions::parseArpeggiate`, private/mx/impl/ArpeggiateFunctions.cpp 21-43: as for the fermata, no attributes are read. -/
def readArpeggiate (tick : Int) (direction : Option Str) : MarkData :=
  { MarkData.make ((direction.map (fun d => if (parseEnum d : Core.UpDown) = .up then Api.MarkType.arpeggiateUp else .arpeggiateDown)).getD .arpeggiate) with tickTimePosition := tick }

/-- `AccidentalMarkFunctions::parseAccidentalMark`, private/mx/impl/AccidentalMarkFunctions.cpp 21-34. -/
def readAccidentalMark (tick : Int) (text : Str) (position : PositionXml) : Option MarkData :=
  (readPosition markMembers position).map fun p =>
    { markType := MapName.accidentalMarkMap.toApi (parseEnum text : Core.AccidentalValue), name := StringEnum.toStr (parseEnum text : Core.AccidentalValue), tickTimePosition := tick, positionData := p }

/-- Items read one after the other; the skipped ones give nothing. -/
def readAll {α : Type} (f : α → Option (Option MarkData)) (l : List α) : Option (List MarkData) := (l.mapM f).map (fun r => r.filterMap id)

/-- The marks of one notation, private/mx/impl/NoteFunctions.cpp 289-337. -/
def readNotation (tick : Int) : NotationXml → Option (List MarkData)
  | .articulations l => l.mapM (readArticulation tick)
  | .ornaments l a => do
    let o ← readAll (readOrnament tick) l
    let m ← a.mapM (fun x => readAccidentalMark tick x.1 x.2)
    return o ++ m
  | .technical l => readAll (readTechnical tick) l
  | .dynamics d => (readDynamics tick d).map (fun m => [m])
  | .fermata f => some [readFermata tick f]
  | .arpeggiate d => some [readArpeggiate tick d]
  | .nonArpeggiate => some [{ MarkData.make .nonArpeggiate with tickTimePosition := tick }]
  | .accidentalMark t p => (readAccidentalMark tick t p).map (fun m => [m])

/-- The marks of a note, private/mx/impl/NoteFunctions.cpp 251-348, at the tick of its start. -/
def readMarks (tick : Int) (l : List NotationXml) : Option (List MarkData) := (l.mapM (readNotation tick)).map List.flatten

end Mx
