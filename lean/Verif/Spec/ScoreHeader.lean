import Verif.Model.ScoreHeader
import Verif.Spec.Calendar
import Verif.Spec.Tokens
import Verif.Spec.Directions
import Verif.Spec.Instruments

/-
What becomes of the texts of a score when they are written and read again.
-/
open Spec
namespace Mx.Spec
open Directions

/-- The page texts that can be written: all numbers fit. -/
def PageTextFits (p : PageTextData) : Prop :=
  InInt p.pageNumber ∧ PositionFits p.positionData ∧ SizeFits p.fontData ∧ FamilyFits p.fontData.fontFamily ∧ LinesFit p.fontData

def TextsFit (s : ScoreTexts) : Prop := ∀ p ∈ s.pageTextItems, PageTextFits p

/-- The nearest day of the calendar: each of the three numbers is moved into its range, the day last. -/
def nearestDate (d : EncodingDate) : EncodingDate :=
  let y := nearestIn 1 9999 d.year
  let m := nearestIn 1 12 d.month
  { year := y, month := m, day := nearestIn 1 (monthLength y m) d.day }

/-- The date that comes back: the nearest one if at least one of the three numbers need not be changed for it, otherwise none. -/
def keptDate (d : EncodingDate) : EncodingDate :=
  if d.year = (nearestDate d).year ∨ d.month = (nearestDate d).month ∨ d.day = (nearestDate d).day then nearestDate d else {}

/-- Names come back as words with single spaces between them. -/
def keptSupported (s : SupportedItem) : SupportedItem :=
  { elementName := joined [' '] (words s.elementName), attributeName := joined [' '] (words s.attributeName)
    specificValue := joined [' '] (words s.specificValue), isSupported := s.isSupported }

def keptEncoding (e : EncodingData) : EncodingData :=
  { encodingDate := keptDate e.encodingDate, encoder := e.encoder, encodingDescription := e.encodingDescription, software := e.software
    supportedItems := e.supportedItems.map keptSupported
    miscelaneousFields := e.miscelaneousFields.map fun m => (joined [' '] (words m.1), m.2) }

def keptPageText (p : PageTextData) : PageTextData :=
  { text := p.text, pageNumber := max 0 p.pageNumber, positionData := keptPosition creditMembers p.positionData
    fontData := (keptPrint wordsPrint { fontData := p.fontData }).fontData, description := p.description }

/-- The texts that come back. Arranger and publisher are lost. -/
def keptTexts (s : ScoreTexts) : ScoreTexts :=
  { is30 := s.is30, workTitle := s.workTitle, workNumber := s.workNumber, movementTitle := s.movementTitle, movementNumber := s.movementNumber
    composer := s.composer, lyricist := s.lyricist, copyright := s.copyright
    encoding := keptEncoding s.encoding, pageTextItems := s.pageTextItems.map keptPageText }

/-! ### Texts that come back unchanged -/

def PlainDate (d : EncodingDate) : Prop := d = {} ∨ ValidDate d.year d.month d.day

structure PlainEncoding (e : EncodingData) : Prop where
  date : PlainDate e.encodingDate
  supported : ∀ s ∈ e.supportedItems, Normalised s.elementName ∧ Normalised s.attributeName ∧ Normalised s.specificValue
  misc : ∀ m ∈ e.miscelaneousFields, Normalised m.1

structure PlainPageText (p : PageTextData) : Prop where
  number : 0 ≤ p.pageNumber ∧ p.pageNumber ≤ INT_MAX
  position : PlainAt creditMembers p.positionData
  font : PlainFont p.fontData

/-- Texts without arranger and publisher, in the form in which a document holds them. -/
structure PlainTexts (s : ScoreTexts) : Prop where
  type : s.musicXmlType = chars "partwise"
  arranger : s.arranger = []
  publisher : s.publisher = []
  encoding : PlainEncoding s.encoding
  pages : ∀ p ∈ s.pageTextItems, PlainPageText p

/-! ### Who wrote it -/

/-- The type of a creator, or nothing. -/
def creatorType (c : TypedText) : Str := (c.type.map fun t => joined [' '] (words t)).getD []

/-- The composer of a document: the first creator of this type, otherwise the last creator without a type. -/
def composerOf (l : List TypedText) : Str :=
  match l.find? (fun c => decide (creatorType c = chars "composer")) with
  | some c => c.text
  | none => ((l.filter (fun c => c.type.isNone)).getLast?.map (·.text)).getD []

/-- What is taken for the lyricist: the last creator that is a lyricist, an arranger or a publisher. -/
def lyricistOf (l : List TypedText) : Str :=
  ((l.filter (fun c => decide (creatorType c = chars "lyricist" ∨ creatorType c = chars "arranger" ∨ creatorType c = chars "publisher"))).getLast?.map (·.text)).getD []

end Mx.Spec
