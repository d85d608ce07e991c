import Verif.Model.Directions
import Verif.Model.Date

/-
Model of the texts of a score: titles, creators, rights, encoding and texts on pages.
private/mx/impl/ScoreWriter.cpp, ScoreReader.cpp, EncodingFunctions.cpp, PageTextFunctions.cpp.
The elements are modelled as in the document: attributes as texts, texts of elements as they are (see C26 and C53 for their escaping in the file). The font of a page text is written without its colour, as that of words (`wordsPrint`).
-/
namespace Mx
open Directions

/-- `api::SupportedItem`, include/mx/api/EncodingData.h 16-32. -/
structure SupportedItem where
  elementName : Str := []
  attributeName : Str := []
  specificValue : Str := []
  isSupported : Bool := true
deriving Repr, DecidableEq

/-- `api::EncodingDate`, include/mx/api/EncodingData.h 48-56. -/
structure EncodingDate where
  year : Int := -1
  month : Int := -1
  day : Int := -1
deriving Repr, DecidableEq

/-- `api::EncodingData`, include/mx/api/EncodingData.h 58-67; a field of `miscelaneousFields` is the pair of its key and its value. -/
structure EncodingData where
  encodingDate : EncodingDate := {}
  encoder : Str := []
  encodingDescription : Str := []
  software : List Str := []
  supportedItems : List SupportedItem := []
  miscelaneousFields : List (Str × Str) := []
deriving Repr, DecidableEq

/-- `api::PageTextData`, include/mx/api/PageTextData.h 21-29. -/
structure PageTextData where
  text : Str := []
  pageNumber : Int := 0
  positionData : PositionData := {}
  fontData : FontData := {}
  description : Str := []
deriving Repr, DecidableEq

/-- The texts of `api::ScoreData`, include/mx/api/ScoreData.h 34-46; `is30` stands for `musicXmlVersion`, an enumeration of two values. -/
structure ScoreTexts where
  is30 : Bool := false
  musicXmlType : Str := chars "partwise"
  workTitle : Str := []
  workNumber : Str := []
  movementTitle : Str := []
  movementNumber : Str := []
  composer : Str := []
  lyricist : Str := []
  arranger : Str := []
  publisher : Str := []
  copyright : Str := []
  encoding : EncodingData := {}
  pageTextItems : List PageTextData := []
deriving Repr, DecidableEq

/-! ### The elements -/

/-- A `creator` or `rights` element: its `type` and its text. -/
structure TypedText where
  type : Option Str := none
  text : Str := []
deriving Repr, DecidableEq

/-- An element within `encoding`, private/mx/core/elements/EncodingChoice.h. -/
inductive EncodingXml where
  | date (text : Str)
  | encoder (text : Str)
  | software (text : Str)
  | description (text : Str)
  | supports (type : Str) (element : Str) (attr : Option Str) (value : Option Str)
deriving Repr, DecidableEq

/-- The elements within `identification`. -/
structure IdentificationXml where
  creators : List TypedText := []
  rights : List TypedText := []
  encoding : Option (List EncodingXml) := none
  miscellaneous : Option (List (Str × Str)) := none
deriving Repr, DecidableEq

/-- A `credit` with words (the first `credit-words`) or with something else. -/
structure CreditXml where
  page : Option Str := none
  types : List Str := []
  isWords : Bool := true
  text : Str := []
  position : PositionXml := {}
  print : PrintXml := {}
deriving Repr, DecidableEq

/-- The attribute `version` and the elements before the part list, without `defaults`. -/
structure HeaderXml where
  version : Option Str := none
  workNumber : Option Str := none
  workTitle : Option Str := none
  movementNumber : Option Str := none
  movementTitle : Option Str := none
  identification : Option IdentificationXml := none
  credits : List CreditXml := []
deriving Repr, DecidableEq

/-- The position members of `CreditWordsAttributes`, private/mx/core/elements/CreditWordsAttributes.h 26-75. -/
def creditMembers : PositionMembers := { halign := true, valign := true, placement := false }

/-! ### Writing -/

/-- A text that is written if it is not empty. -/
def ifText (s : Str) : Option Str := if s = [] then none else some s

/-- `tryDate` and the three comparisons, private/mx/impl/EncodingFunctions.cpp 38-50. -/
def writeDate (d : EncodingDate) : List EncodingXml :=
  let t := Date.make d.year d.month d.day
  if d.year = t.year ∨ d.month = t.month ∨ d.day = t.day then [.date t.toStr] else []

/-- private/mx/impl/EncodingFunctions.cpp 72-100. An empty element name leaves the token of the attribute empty. -/
def writeSupported (s : SupportedItem) : EncodingXml :=
  .supports (StringEnum.toStr (if s.isSupported then Core.YesNo.yes else Core.YesNo.no)) (xsToken s.elementName) ((ifText s.attributeName).map xsToken) ((ifText s.specificValue).map xsToken)

/-- The elements of `createEncoding`, private/mx/impl/EncodingFunctions.cpp 23-100. -/
def writeEncoding (e : EncodingData) : List EncodingXml :=
  (if e.encoder = [] then [] else [.encoder e.encoder]) ++ writeDate e.encodingDate ++
  (if e.encodingDescription = [] then [] else [.description e.encodingDescription]) ++ e.software.map .software ++ e.supportedItems.map writeSupported

/-- private/mx/impl/EncodingFunctions.cpp 102-111. -/
def writeMisc (e : EncodingData) : Option (List (Str × Str)) :=
  if e.miscelaneousFields = [] then none else some (e.miscelaneousFields.map fun m => (xsToken m.1, m.2))

/-- A creator, private/mx/impl/ScoreWriter.cpp 92-120. -/
def writeTyped (type : Str) (s : Str) : List TypedText := if s = [] then [] else [{ type := some (xsToken type), text := s }]

/-- private/mx/impl/ScoreWriter.cpp 92-122. -/
def writeIdentification (s : ScoreTexts) : Option IdentificationXml :=
  let creators := writeTyped (chars "composer") s.composer ++ writeTyped (chars "lyricist") s.lyricist
  let rights := writeTyped (chars "copyright") s.copyright
  let encoding := writeEncoding s.encoding
  let misc := writeMisc s.encoding
  if creators = [] ∧ rights = [] ∧ encoding = [] ∧ misc = none then none
  else some {
    creators := creators, rights := rights
    encoding := if encoding = [] ∧ misc = none then none else some encoding
    miscellaneous := misc }

/-- `createPageTextItems`, private/mx/impl/PageTextFunctions.cpp 18-51. -/
def writePageText (p : PageTextData) : Option CreditXml := do
  let position ← writePosition creditMembers p.positionData
  let print ← writePrint wordsPrint { fontData := p.fontData }
  return {
    page := if p.pageNumber > 0 then some (IntRange.ofKind .PositiveInteger p.pageNumber).toStr else none
    types := if p.description = [] then [] else [p.description]
    text := p.text, position := position, print := print }

/-- private/mx/impl/ScoreWriter.cpp 54-124. -/
def writeHeader (s : ScoreTexts) : Option HeaderXml := do
  let credits ← s.pageTextItems.mapM writePageText
  return {
    version := if s.is30 then some (chars "3.0") else none
    workNumber := ifText s.workNumber, workTitle := ifText s.workTitle
    movementNumber := ifText s.movementNumber, movementTitle := ifText s.movementTitle
    identification := writeIdentification s
    credits := credits }

/-! ### Reading -/

/-- One creator, private/mx/impl/ScoreReader.cpp 213-244; the flag is `isComposerFound`. -/
def readCreator (s : ScoreTexts × Bool) (c : TypedText) : ScoreTexts × Bool :=
  let t := (c.type.map xsToken).getD []
  let s := if t = chars "composer" ∧ s.2 = false then ({ s.1 with composer := c.text }, true) else s
  let s := if s.2 = false ∧ c.type = none then ({ s.1 with composer := c.text }, s.2) else s
  let s := if t = chars "lyricist" then ({ s.1 with lyricist := c.text }, s.2) else s
  let s := if t = chars "arranger" then ({ s.1 with lyricist := c.text }, s.2) else s
  if t = chars "publisher" then ({ s.1 with lyricist := c.text }, s.2) else s

/-- One `rights`, private/mx/impl/ScoreReader.cpp 246-259; the flag is `isCopyrightFound`. -/
def readRights (s : ScoreTexts × Bool) (c : TypedText) : ScoreTexts × Bool :=
  let s := if c.type.map xsToken = some (chars "copyright") ∧ s.2 = false then ({ s.1 with copyright := c.text }, true) else s
  if s.2 = false ∧ c.type = none then ({ s.1 with copyright := c.text }, s.2) else s

/-- What `createEncoding` has found, private/mx/impl/EncodingFunctions.cpp 117-120. -/
structure EncodingFound where
  data : EncodingData := {}
  date : Bool := false
  encoder : Bool := false
  description : Bool := false

/-- One element of `createEncoding`, private/mx/impl/EncodingFunctions.cpp 123-177; the date is parsed by private/mx/core/elements/EncodingDate.cpp 69-75. -/
def readEncodingItem (f : EncodingFound) : EncodingXml → EncodingFound
  | .date t => if f.date then f else
      let d := Date.ofString t
      { f with data := { f.data with encodingDate := ⟨d.year, d.month, d.day⟩ }, date := true }
  | .encoder t => if f.encoder then f else { f with data := { f.data with encoder := t }, encoder := true }
  | .description t => if f.description then f else { f with data := { f.data with encodingDescription := t }, description := true }
  | .software t => { f with data := { f.data with software := f.data.software ++ [t] } }
  | .supports type element attr value =>
      { f with data := { f.data with supportedItems := f.data.supportedItems ++ [{
          elementName := xsToken element, attributeName := (attr.map xsToken).getD [], specificValue := (value.map xsToken).getD []
          isSupported := decide ((parseEnum type : Core.YesNo) = .yes) }] } }

/-- private/mx/impl/ScoreReader.cpp 260-280. -/
def readEncoding (i : IdentificationXml) : EncodingData :=
  let e := ((i.encoding.getD []).foldl readEncodingItem {}).data
  { e with miscelaneousFields := e.miscelaneousFields ++ (i.miscellaneous.getD []).map fun m => (xsToken m.1, m.2) }

/-- private/mx/impl/ScoreReader.cpp 210-281. -/
def readIdentification (s : ScoreTexts) : Option IdentificationXml → ScoreTexts
  | none => s
  | some i =>
    let s := (i.creators.foldl readCreator (s, false)).1
    let s := (i.rights.foldl readRights (s, false)).1
    { s with encoding := readEncoding i }

/-- `createPageTextItems`, private/mx/impl/PageTextFunctions.cpp 58-86. -/
def readPageText (c : CreditXml) : Option PageTextData := do
  let position ← readPosition creditMembers c.position
  let print ← readPrint wordsPrint c.print
  return { text := c.text, pageNumber := (c.page.map (parseBounded .PositiveInteger)).getD 0, positionData := position, fontData := print.fontData, description := (c.types.head?).getD [] }

/-- private/mx/impl/ScoreReader.cpp 171-288; images are skipped, private/mx/impl/PageTextFunctions.cpp 60-64. -/
def readHeader (x : HeaderXml) : Option ScoreTexts := do
  let texts ← (x.credits.filter (·.isWords)).mapM readPageText
  let s : ScoreTexts := {
    is30 := decide (x.version.map xsToken = some (chars "3.0"))
    workTitle := x.workTitle.getD [], workNumber := x.workNumber.getD []
    movementTitle := x.movementTitle.getD [], movementNumber := x.movementNumber.getD [] }
  return { readIdentification s x.identification with pageTextItems := texts }

end Mx
