import Verif.Model.Directions
import Verif.Spec.Marks
import Verif.Proofs.Marks

/-
What becomes of directions and chord symbols when they are written and read again.
-/
open Spec
namespace Mx.Spec
open Directions

/-! ### The parts of a direction that can be written -/

def WedgeStopFits (w : WedgeStop) : Prop := NumFits w.spread ∧ PositionFits w.positionData
def WedgeStartFits (w : WedgeStart) : Prop := NumFits w.spread ∧ PositionFits w.positionData ∧ LineFits w.lineData
def WordsFit (w : WordsData) : Prop := PositionFits w.positionData ∧ SizeFits w.fontData ∧ FamilyFits w.fontData.fontFamily ∧ LinesFit w.fontData

/-- The only tempo that is supported is a number of beats per minute. -/
def TempoFits (t : TempoData) : Prop := t.tempoType = .beatsPerMinute ∧ InInt t.beatsPerMinute.beatsPerMinute

/-- A character that may begin the name of a processing instruction. -/
def NameStart (c : Char) : Prop := c.isAlpha = true ∨ c = '_' ∨ c = ':' ∨ c.toNat > 127

/-- A character of the name of a processing instruction. -/
def NameChar (c : Char) : Prop := NameStart c ∨ c.isDigit = true ∨ c = '-' ∨ c = '.'

/-- Name and data can be the parts of an XML processing instruction. -/
structure MiscFits (m : MiscData) : Prop where
  start : ∀ c, m.name.head? = some c → NameStart c
  name : ∀ c ∈ m.name, NameChar c
  notXml : m.name.map Char.toLower ≠ chars "xml"
  data : ¬ ['?', '>'] <:+: m.data
  space : ∀ c, m.data.head? = some c → c ≠ ' ' ∧ c ≠ '\t' ∧ c ≠ '\r' ∧ c ≠ '\n'

def ChordFits (c : ChordData) : Prop := PositionFits c.positionData ∧ InInt c.rootAlter ∧ InInt c.bassAlter ∧ ∀ m ∈ c.miscData, MiscFits m

/-- Everything in the direction can be written. -/
structure DirectionFits (d : DirectionData) : Prop where
  marks : ∀ m ∈ d.marks, MarkFits m
  wedgeStops : ∀ w ∈ d.wedgeStops, WedgeStopFits w
  wedgeStarts : ∀ w ∈ d.wedgeStarts, WedgeStartFits w
  ottavaStarts : ∀ o ∈ d.ottavaStarts, LineFits o.spannerStart.lineData
  bracketStarts : ∀ b ∈ d.bracketStarts, InInt b.numberLevel
  tempos : ∀ t ∈ d.tempos, TempoFits t
  words : ∀ w ∈ d.words, WordsFit w
  chords : ∀ c ∈ d.chords, ChordFits c

/-! ### What comes back -/

/-- The placement of the direction: the last placement of a pedal mark replaces that of the direction. -/
def finalPlacement (d : DirectionData) : Api.Placement :=
  ((d.marks.filter (fun m => isMarkPedal m.markType && decide (m.positionData.placement ≠ .unspecified))).getLast?.map (fun m => m.positionData.placement)).getD d.placement

/-- A mark of the direction: dynamics as in a note, pedal marks with the placement of the direction, and all others are lost. -/
def keptDirectionMark (d : DirectionData) (m : MarkData) : Option MarkData :=
  if isMarkDynamic m.markType then some (keptMark d.tickTimePosition m)
  else if isMarkPedal m.markType then
    some { markType := m.markType, name := defaultMarkName m.markType, tickTimePosition := d.tickTimePosition
           positionData := { keptPosition textMembers m.positionData with placement := finalPlacement d } }
  else none

/-- The number of the wedge is lost. -/
def keptWedgeStop (w : WedgeStop) : WedgeStop := { spread := keptNum w.spread, positionData := keptPosition spannerMembers w.positionData }

/-- Number and colour of the wedge are lost. -/
def keptWedgeStart (w : WedgeStart) : WedgeStart :=
  { wedgeType := if w.wedgeType = .unspecified then .crescendo else w.wedgeType, spread := keptNum w.spread, lineData := keptLine w.lineData
    positionData := keptPosition spannerMembers w.positionData }

/-- Only the end of the ottava itself comes back. -/
def keptOttavaStop (cursorTick : Int) (_ : SpannerStop) : SpannerStop := { tickTimePosition := cursorTick }

/-- The type of the ottava and the lengths of dashes and spaces come back. -/
def keptOttavaStart (cursorTick : Int) (o : OttavaStart) : OttavaStart :=
  { ottavaType := if o.ottavaType = .unspecified then .o8va else o.ottavaType
    spannerStart := { tickTimePosition := cursorTick, lineData := { keptLine o.spannerStart.lineData with lineType := .unspecified } } }

/-- Only the number of the bracket comes back, and 1 if there is none. -/
def keptBracketStart (cursorTick : Int) (d : DirectionData) (s : SpannerStart) : SpannerStart :=
  { numberLevel := if s.numberLevel > 0 then min 6 s.numberLevel else 1, tickTimePosition := cursorTick, positionData := { placement := finalPlacement d } }

/-- Beat unit, dots and number of the tempo. -/
def keptTempo (t : TempoData) : TempoData :=
  { tempoType := .beatsPerMinute
    beatsPerMinute := {
      durationName := if t.beatsPerMinute.durationName = .unspecified then .maxima else t.beatsPerMinute.durationName, dots := max 0 t.beatsPerMinute.dots
      beatsPerMinute := t.beatsPerMinute.beatsPerMinute } }

/-- The colour of the words is lost. -/
def keptWords (w : WordsData) : WordsData :=
  { text := w.text, positionData := keptPosition textMembers w.positionData, fontData := (keptPrint wordsPrint { fontData := w.fontData }).fontData }

def keptMisc (m : MiscData) : MiscData := { name := if m.name = [] then chars "default-name" else m.name, data := m.data }

/-- A chord: position and miscellaneous data are those of the whole symbol. -/
def keptChord (d : DirectionData) (c : ChordData) : ChordData :=
  { root := if c.root = .unspecified then .c else c.root, rootAlter := c.rootAlter
    chordKind := if c.chordKind = .unspecified then .none else c.chordKind, text := xsToken c.text, useSymbols := c.useSymbols
    bass := c.bass, bassAlter := if c.bass = .unspecified then 0 else c.bassAlter
    extensions := c.extensions.map (fun e => { e with printObject := .unspecified })
    miscData := (d.chords.flatMap (fun c => c.miscData)).map keptMisc
    positionData := keptPosition harmonyMembers ((d.chords.head?.map (fun c => c.positionData)).getD {}) }

/-- There is something in the direction that gives a `<direction>`. -/
def WritesDirection (d : DirectionData) : Prop :=
  (∃ m ∈ d.marks, isMarkDynamic m.markType = true ∨ isMarkPedal m.markType = true) ∨ d.wedgeStops ≠ [] ∨ d.wedgeStarts ≠ [] ∨ d.ottavaStops ≠ [] ∨ d.ottavaStarts ≠ [] ∨
  d.bracketStarts ≠ [] ∨ d.tempos ≠ [] ∨ d.words ≠ []

instance (d : DirectionData) : Decidable (WritesDirection d) := by unfold WritesDirection; infer_instance

/-- What comes back of the direction without its chords. -/
def keptDirection (staffIndex cursorTick : Int) (d : DirectionData) : DirectionData :=
  { tickTimePosition := d.tickTimePosition, placement := finalPlacement d, isStaffValueSpecified := d.isStaffValueSpecified || decide (staffIndex ≠ 0)
    tempos := d.tempos.map keptTempo, marks := d.marks.filterMap (keptDirectionMark d)
    wedgeStarts := d.wedgeStarts.map keptWedgeStart, wedgeStops := d.wedgeStops.map keptWedgeStop
    ottavaStarts := d.ottavaStarts.map (keptOttavaStart cursorTick), ottavaStops := d.ottavaStops.map (keptOttavaStop cursorTick)
    bracketStarts := d.bracketStarts.map (keptBracketStart cursorTick d), words := d.words.map keptWords }

/-- What comes back of the chords. -/
def keptHarmony (d : DirectionData) : DirectionData :=
  { tickTimePosition := d.tickTimePosition, placement := ((d.chords.head?.map (fun c => c.positionData.placement)).getD .unspecified)
    isStaffValueSpecified := d.isStaffValueSpecified, chords := d.chords.map (keptChord d) }

/-- The directions that come back of one direction that is written at a staff and a tick. -/
def keptDirections (staffIndex cursorTick : Int) (d : DirectionData) : List DirectionData :=
  (if WritesDirection d then [keptDirection staffIndex cursorTick d] else []) ++ (if d.chords ≠ [] then [keptHarmony d] else [])

/-! ### Directions that come back unchanged -/

/-- A position that a struct of attributes without a placement and with at most a horizontal alignment can hold. -/
structure PlainAt (m : PositionMembers) (p : PositionData) : Prop where
  fits : PositionFits p
  defaultX : PlainNum p.defaultX
  defaultY : PlainNum p.defaultY
  relativeX : PlainNum p.relativeX
  relativeY : PlainNum p.relativeY
  placement : m.placement = false → p.placement = .unspecified
  valign : m.valign = false → p.verticalAlignment = .unspecified
  halign : m.halign = false → p.horizontalAlignment = .unspecified

/-- A dynamic mark, as a document can hold it. -/
structure PlainDynamic (d : DirectionData) (m : MarkData) : Prop where
  dynamic : isMarkDynamic m.markType = true
  type : keptType m = (m.markType, m.name)
  tick : m.tickTimePosition = d.tickTimePosition
  print : m.printData = {}
  position : PlainAt dynamicsMembers m.positionData

/-- A pedal mark, as a document can hold it: its placement is that of the direction. -/
structure PlainPedal (d : DirectionData) (m : MarkData) : Prop where
  pedal : m.markType = .pedal ∨ m.markType = .damp
  name : m.name = defaultMarkName m.markType
  tick : m.tickTimePosition = d.tickTimePosition
  print : m.printData = {}
  position : PlainAt textMembers { m.positionData with placement := .unspecified }
  placement : m.positionData.placement = d.placement

def PlainLine (l : LineData) : Prop := LineFits l ∧ PlainNum l.dashLength ∧ PlainNum l.spaceLength ∧ l.lineHook = .unspecified ∧ l.endLength = {}

def PlainWedgeStop (w : WedgeStop) : Prop := w.numberLevel = -1 ∧ NumFits w.spread ∧ PlainNum w.spread ∧ PlainAt spannerMembers w.positionData

def PlainWedgeStart (w : WedgeStart) : Prop :=
  w.numberLevel = -1 ∧ w.wedgeType ≠ .unspecified ∧ NumFits w.spread ∧ PlainNum w.spread ∧ PlainLine w.lineData ∧ PlainAt spannerMembers w.positionData ∧ w.colorData = {}

def PlainOttavaStop (cursorTick : Int) (s : SpannerStop) : Prop := s = { tickTimePosition := cursorTick }

def PlainOttavaStart (cursorTick : Int) (o : OttavaStart) : Prop :=
  o.ottavaType ≠ .unspecified ∧ o.spannerStart = { tickTimePosition := cursorTick, lineData := o.spannerStart.lineData } ∧ PlainLine o.spannerStart.lineData ∧
  o.spannerStart.lineData.lineType = .unspecified

def PlainBracketStart (cursorTick : Int) (d : DirectionData) (s : SpannerStart) : Prop :=
  1 ≤ s.numberLevel ∧ s.numberLevel ≤ 6 ∧ s = { numberLevel := s.numberLevel, tickTimePosition := cursorTick, positionData := { placement := d.placement } }

def PlainTempo (t : TempoData) : Prop :=
  t = { tempoType := .beatsPerMinute, beatsPerMinute := t.beatsPerMinute } ∧ t.beatsPerMinute.durationName ≠ .unspecified ∧ 0 ≤ t.beatsPerMinute.dots ∧
  InInt t.beatsPerMinute.beatsPerMinute

/-- A font that the document can hold. -/
structure PlainFont (f : FontData) : Prop where
  size : SizeFits f
  point : f.sizeType ≠ .point → f.sizePoint = -1
  css : f.sizeType = .css ↔ f.sizeCss ≠ .unspecified
  family : FamilyFits f.fontFamily
  underline : 0 ≤ f.underline ∧ f.underline ≤ 3
  overline : 0 ≤ f.overline ∧ f.overline ≤ 3
  lineThrough : 0 ≤ f.lineThrough ∧ f.lineThrough ≤ 3

def PlainWords (w : WordsData) : Prop := PlainAt textMembers w.positionData ∧ PlainFont w.fontData ∧ w.isColorSpecified = false ∧ w.colorData = {}

/-- A direction without chords, as a document can hold it in one element on the staff with the index `staffIndex` at the time `cursorTick`. -/
structure PlainDirection (staffIndex cursorTick : Int) (d : DirectionData) : Prop where
  notEmpty : WritesDirection d
  staff : staffIndex = 0 ∨ d.isStaffValueSpecified = true
  marks : ∀ m ∈ d.marks, PlainDynamic d m ∨ PlainPedal d m
  wedgeStops : ∀ w ∈ d.wedgeStops, PlainWedgeStop w
  wedgeStarts : ∀ w ∈ d.wedgeStarts, PlainWedgeStart w
  ottavaStops : ∀ o ∈ d.ottavaStops, PlainOttavaStop cursorTick o
  ottavaStarts : ∀ o ∈ d.ottavaStarts, PlainOttavaStart cursorTick o
  bracketStarts : ∀ b ∈ d.bracketStarts, PlainBracketStart cursorTick d b
  tempos : ∀ t ∈ d.tempos, PlainTempo t
  words : ∀ w ∈ d.words, PlainWords w
  chords : d.chords = []
  bracketStops : d.bracketStops = []
  segnos : d.segnos = []
  codas : d.codas = []
  rehearsals : d.rehearsals = []

/-- One chord without anything else, as a document can hold it. -/
structure PlainChord (d : DirectionData) (c : ChordData) : Prop where
  only : d = { tickTimePosition := d.tickTimePosition, placement := d.placement, isStaffValueSpecified := d.isStaffValueSpecified, chords := [c] }
  placement : c.positionData.placement = d.placement
  position : PlainAt harmonyMembers c.positionData
  root : c.root ≠ .unspecified
  rootAlter : InInt c.rootAlter
  kind : c.chordKind ≠ .unspecified
  text : Normalised c.text
  bass : c.bass = .unspecified → c.bassAlter = 0
  bassAlter : InInt c.bassAlter
  extensions : ∀ e ∈ c.extensions, e.printObject = .unspecified
  misc : ∀ m ∈ c.miscData, MiscFits m ∧ m.name ≠ []

/-! ### Ottavas in MusicXML -/

/-- The documentation of the type `octave-shift` in the MusicXML schema (Documents/musicxml.xsd): "a treble clef line noted with 8va will be indicated with an octave-shift down from the pitch data
indicated in the notes. A size of 8 indicates one octave; a size of 15 indicates two octaves." -/
def documentedShift : Api.OttavaType → Option (Str × Nat)
  | .o8va => some (chars "down", 8)
  | .o8vb => some (chars "up", 8)
  | .o15ma => some (chars "down", 15)
  | .o15mb => some (chars "up", 15)
  | .unspecified => none

end Mx.Spec
