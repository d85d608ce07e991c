import Verif.Model.Marks

/-
Model of directions and chord symbols: private/mx/impl/DirectionWriter.cpp, DirectionReader.cpp, DynamicsWriter.cpp, DynamicsReader.cpp, MetronomeReader.cpp,
SpannerFunctions.h and of the processing instructions of `<harmony>`.

Elements are modelled by the texts and attributes that are written or read.  Texts are those that an XML reader sees.  A computation fails with `throws` when the code throws, and with `undefined`
when a number does not fit (as in `Notations`).
-/
namespace Mx.Directions

/-- A computation that fails only when a number does not fit. -/
def orUndefined {α : Type} : Option α → Res α
  | some a => .ok a
  | none => .error .undefined

/-! ### The data of the API -/

/-- `api::SpannerStart`, include/mx/api/SpannerData.h 18-35. -/
structure SpannerStart where
  numberLevel : Int := -1
  tickTimePosition : Int := 0
  positionData : PositionData := {}
  printData : PrintData := {}
  lineData : LineData := {}
deriving Repr, DecidableEq

/-- `api::SpannerStop`, include/mx/api/SpannerData.h 37-50. -/
structure SpannerStop where
  numberLevel : Int := -1
  tickTimePosition : Int := 0
  positionData : PositionData := {}
deriving Repr, DecidableEq

/-- `api::WedgeStart`, include/mx/api/WedgeData.h 23-44. -/
structure WedgeStart where
  numberLevel : Int := -1
  wedgeType : Api.WedgeType := .unspecified
  spread : MaybeNum := {}
  lineData : LineData := {}
  positionData : PositionData := {}
  colorData : ColorData := {}
deriving Repr, DecidableEq

/-- `api::WedgeStop`, include/mx/api/WedgeData.h 46-61. -/
structure WedgeStop where
  numberLevel : Int := -1
  positionData : PositionData := {}
  spread : MaybeNum := {}
deriving Repr, DecidableEq

/-- `api::OttavaStart`, include/mx/api/OttavaData.h 21-33. -/
structure OttavaStart where
  spannerStart : SpannerStart := {}
  ottavaType : Api.OttavaType := .unspecified
deriving Repr, DecidableEq

/-- `api::WordsData`, include/mx/api/WordsData.h 16-34. -/
structure WordsData where
  text : Str := []
  positionData : PositionData := {}
  fontData : FontData := {}
  isColorSpecified : Bool := false
  colorData : ColorData := {}
deriving Repr, DecidableEq

/-- `api::BeatsPerMinute`, include/mx/api/TempoData.h 22-35. -/
structure BeatsPerMinute where
  durationName : Api.DurationName := .unspecified
  dots : Int := -1
  beatsPerMinute : Int := -1
deriving Repr, DecidableEq

/-- `api::TempoData`, include/mx/api/TempoData.h 62-79, as `TempoData{}` makes it; metric modulations are never read or written and are left out. `tempoText` is the text of `TempoText`. -/
structure TempoData where
  tickTime : Int := 0
  isParenthetical : Api.Bool := .unspecified
  printData : PrintData := {}
  positionData : PositionData := {}
  tempoType : Api.TempoType := .unspecified
  beatsPerMinute : BeatsPerMinute := {}
  tempoText : Str := []
deriving Repr, DecidableEq

/-- `api::SegnoData` and `api::CodaData`, include/mx/api/SegnoData.h 15-28, CodaData.h 15-28. -/
structure SignData where
  positionData : PositionData := {}
  isColorSpecified : Bool := false
  colorData : ColorData := {}
deriving Repr, DecidableEq

/-- `api::RehearsalData`, include/mx/api/RehearsalData.h 15-35. -/
structure RehearsalData where
  text : Str := []
  positionData : PositionData := {}
  isColorSpecified : Bool := false
  colorData : ColorData := {}
  fontData : FontData := {}
deriving Repr, DecidableEq

/-- `api::Extension`, include/mx/api/ChordData.h 84-130, private/mx/api/ChordData.cpp 16-23. -/
structure Extension where
  extensionType : Api.ExtensionType := .add
  extensionAlter : Api.ExtensionAlter := .none
  extensionNumber : Api.ExtensionNumber := .first
  printObject : Api.Bool := .unspecified
deriving Repr, DecidableEq

/-- `api::MiscData`: name and data of a processing instruction. -/
structure MiscData where
  name : Str := []
  data : Str := []
deriving Repr, DecidableEq

/-- `api::ChordData`, include/mx/api/ChordData.h 140-156, private/mx/api/ChordData.cpp 26-39. -/
structure ChordData where
  root : Api.Step := .c
  rootAlter : Int := 0
  chordKind : Api.ChordKind := .unspecified
  text : Str := []
  useSymbols : Api.Bool := .unspecified
  bass : Api.Step := .unspecified
  bassAlter : Int := 0
  extensions : List Extension := []
  miscData : List MiscData := []
  positionData : PositionData := {}
deriving Repr, DecidableEq

/-- `api::DirectionData`, include/mx/api/DirectionData.h 30-90; the member `voice` is neither read nor written. -/
structure DirectionData where
  tickTimePosition : Int := 0
  placement : Api.Placement := .unspecified
  isStaffValueSpecified : Bool := true
  tempos : List TempoData := []
  marks : List MarkData := []
  wedgeStarts : List WedgeStart := []
  wedgeStops : List WedgeStop := []
  ottavaStarts : List OttavaStart := []
  ottavaStops : List SpannerStop := []
  bracketStarts : List SpannerStart := []
  bracketStops : List SpannerStop := []
  words : List WordsData := []
  chords : List ChordData := []
  segnos : List SignData := []
  codas : List SignData := []
  rehearsals : List RehearsalData := []
deriving Repr, DecidableEq

/-! ### The elements -/

/-- `<words>` and `<rehearsal>`. -/
structure WordsXml where
  text : Str := []
  position : PositionXml := {}
  print : PrintXml := {}
deriving Repr, DecidableEq

/-- `<segno>` and `<coda>`. -/
structure SignXml where
  position : PositionXml := {}
  print : PrintXml := {}
deriving Repr, DecidableEq

/-- `<wedge>`. -/
structure WedgeXml where
  type : Str
  number : Option Str := none
  spread : Option Str := none
  line : LineXml := {}
  position : PositionXml := {}
deriving Repr, DecidableEq

/-- `<bracket>` and `<octave-shift>`; `size` is an attribute of the latter. -/
structure SpannerXml where
  type : Str
  number : Option Str := none
  size : Option Str := none
  line : LineXml := {}
  position : PositionXml := {}
  print : PrintXml := {}
deriving Repr, DecidableEq

/-- `<pedal>`. -/
structure PedalXml where
  type : Str
  line : Option Str := none
  sign : Option Str := none
  position : PositionXml := {}
deriving Repr, DecidableEq

/-- The contents of `<metronome>`. -/
inductive MetronomeXml where
  | perMinute (beatUnit : Str) (dots : Nat) (text : Str)
  | beatUnits
  | noteRelation
deriving Repr, DecidableEq

/-- `<direction-type>`. -/
inductive DirectionTypeXml where
  | rehearsal (l : List WordsXml)
  | segno (l : List SignXml)
  | words (l : List WordsXml)
  | coda (l : List SignXml)
  | wedge (w : WedgeXml)
  | dynamics (l : List DynamicsXml)
  | bracket (b : SpannerXml)
  | pedal (p : PedalXml)
  | metronome (m : MetronomeXml)
  | octaveShift (s : SpannerXml)
  | dampAll
  /-- dashes, harp-pedals, damp, eyeglasses, string-mute, scordatura, image, principal-voice, accordion-registration, percussion, other-direction -/
  | other
deriving Repr, DecidableEq

/-- `<direction>`. -/
structure DirectionXml where
  placement : Option Str := none
  types : List DirectionTypeXml := []
  offset : Option Str := none
  staff : Option Str := none
deriving Repr, DecidableEq

/-- `<degree>`. -/
structure DegreeXml where
  value : Str
  alter : Str
  type : Str
  printObject : Option Str := none
deriving Repr, DecidableEq

/-- The elements of one chord in `<harmony>`; `isRoot` is false for a `<function>`. -/
structure ChordXml where
  isRoot : Bool := true
  rootStep : Str := []
  rootAlter : Option Str := none
  kind : Str := []
  kindText : Option Str := none
  useSymbols : Option Str := none
  bass : Option (Str × Option Str) := none
  degrees : List DegreeXml := []
deriving Repr, DecidableEq

/-- `<harmony>`; the texts of the processing instructions behind the start tag. -/
structure HarmonyXml where
  instructions : List Str := []
  position : PositionXml := {}
  chords : List ChordXml := []
  offset : Option Str := none
  staff : Option Str := none
deriving Repr, DecidableEq

/-- What `DirectionWriter` makes and `DirectionReader` reads. -/
inductive ElementXml where
  | direction (d : DirectionXml)
  | harmony (h : HarmonyXml)
deriving Repr, DecidableEq

/-! ### The members of the structs of attributes -/

/-- private/mx/core/elements/WedgeAttributes.h 21-58; also `BracketAttributes` and `OctaveShiftAttributes`. -/
def spannerMembers : PositionMembers := { placement := false }

/-- private/mx/core/elements/PedalAttributes.h 23-58, WordsAttributes.h 31-79 and RehearsalAttributes.h. -/
def textMembers : PositionMembers := { halign := true, placement := false }

/-- private/mx/core/elements/HarmonyAttributes.h 25-61. -/
def harmonyMembers : PositionMembers := {}

/-- private/mx/core/EmptyPrintObjectStyleAlignAttributes.h 27-51: `<segno>` and `<coda>`. -/
def signMembers : PositionMembers := { halign := true, valign := true, placement := false }

/-- The print members of `WordsAttributes` and `RehearsalAttributes`: there is no colour. -/
def wordsPrint : PrintMembers := { lines := true }

/-- The print members of `OctaveShiftAttributes`. -/
def octavePrint : PrintMembers := {}

/-- The print members of `BracketAttributes`. -/
def bracketPrint : PrintMembers := { font := false, color := true }

/-- The print members of `EmptyPrintStyleAlignAttributes`. -/
def signPrint : PrintMembers := { color := true }

/-! ### Writing -/

/-- The text of an `int` as a decimal, e.g. private/mx/impl/DirectionWriter.cpp 107, 383, 425. -/
def decimalText (k : DecimalKind) (n : Int) : Option Str := (DecimalRange.make k (n : ℚ)).map DecimalRange.toStr

/-- The dynamics of a new `<direction-type>`, private/mx/core/elements/DirectionType.cpp 35-66 and private/mx/core/Enums.cpp 950-955. -/
def newDynamics : DynamicsXml := { child := StringEnum.toStr Core.DynamicsEnum.mf }

/-- `DynamicsWriter` as used in private/mx/impl/DirectionWriter.cpp 118-127: the dynamics are added behind the one that the new `<direction-type>` has and this one is removed. -/
def writeDynamicType (m : MarkData) : Option DirectionTypeXml :=
  (writeDynamics m).map fun x => .dynamics (([newDynamics] ++ [x]).drop 1)

/-- private/mx/impl/DirectionWriter.cpp 129-158. -/
def writePedal (m : MarkData) : Option DirectionTypeXml :=
  (writePosition textMembers m.positionData).map fun p =>
    .pedal {
      type := StringEnum.toStr (if m.markType = .damp then Core.StartStopChangeContinue.stop else Core.StartStopChangeContinue.start)
      line := some (StringEnum.toStr Core.YesNo.no), sign := some (StringEnum.toStr Core.YesNo.yes), position := p }

/-- The types that one mark adds, private/mx/impl/DirectionWriter.cpp 112-159. -/
def writeMarkType (m : MarkData) : Option (List DirectionTypeXml) :=
  if isMarkDynamic m.markType then (writeDynamicType m).map fun x => [x]
  else if isMarkPedal m.markType then (writePedal m).map fun x => [x]
  else some []

/-- The placement of the direction, private/mx/impl/DirectionWriter.cpp 89-93 and 137-142. -/
def placementText (p : Api.Placement) : Option Str :=
  if p ≠ .unspecified then some (StringEnum.toStr (MapName.placementMap.toCore p : Core.AboveBelow)) else none

/-- The effect of one mark on the placement of the direction, private/mx/impl/DirectionWriter.cpp 129-142. -/
def placementStep (old : Option Str) (m : MarkData) : Option Str :=
  if isMarkPedal m.markType = true ∧ m.positionData.placement ≠ .unspecified then placementText m.positionData.placement else old

/-- private/mx/impl/DirectionWriter.cpp 161-177. -/
def writeWedgeStop (w : WedgeStop) : Option DirectionTypeXml := do
  let s ← writeNum .TenthsValue w.spread
  let p ← writePosition spannerMembers w.positionData
  return .wedge { type := StringEnum.toStr Core.WedgeType.stop, spread := s, position := p }

/-- The type of a new `<wedge>` is `crescendo`, private/mx/core/elements/WedgeAttributes.cpp 14 and private/mx/impl/DirectionWriter.cpp 187-190. -/
def wedgeTypeOf (t : Api.WedgeType) : Core.WedgeType := if t ≠ .unspecified then MapName.wedgeMap.toCore t else .crescendo

/-- private/mx/impl/DirectionWriter.cpp 179-203; there is no colour. -/
def writeWedgeStart (w : WedgeStart) : Option DirectionTypeXml := do
  let s ← writeNum .TenthsValue w.spread
  let p ← writePosition spannerMembers w.positionData
  let l ← writeLine w.lineData
  return .wedge { type := StringEnum.toStr (wedgeTypeOf w.wedgeType), spread := s, position := p, line := l }

/-- private/mx/impl/DirectionWriter.cpp 205-214. -/
def writeOttavaStop (_ : SpannerStop) : DirectionTypeXml := .octaveShift { type := StringEnum.toStr Core.UpDownStopContinue.stop }

/-- private/mx/impl/DirectionWriter.cpp 227-254 on top of the defaults, private/mx/core/elements/OctaveShiftAttributes.cpp 14-16. -/
def ottavaParts : Api.OttavaType → Core.UpDownStopContinue × Int
  | .o15ma => (.up, 15)
  | .o15mb => (.down, 15)
  | .o8va => (.up, 8)
  | .o8vb => (.down, 8)
  | .unspecified => (.up, 8)

/-- private/mx/impl/DirectionWriter.cpp 216-255; `OctaveShiftAttributes` has no line type. -/
def writeOttavaStart (o : OttavaStart) : Option DirectionTypeXml :=
  (writeLine o.spannerStart.lineData).map fun l =>
    .octaveShift {
      type := StringEnum.toStr (ottavaParts o.ottavaType).1, size := some (IntRange.ofKind .PositiveInteger (ottavaParts o.ottavaType).2).toStr, line := { l with lineType := none } }

/-- private/mx/impl/DirectionWriter.cpp 257-265 with `setAttributesFromSpannerStart`, SpannerFunctions.h 52-66; the type of a new bracket is the first enumerator, private/mx/core/elements/BracketAttributes.cpp 14. -/
def writeBracketStart (s : SpannerStart) : DirectionTypeXml := .bracket { type := StringEnum.toStr Core.StartStopContinue.start, number := writeNumber s.numberLevel }

/-- private/mx/impl/DirectionWriter.cpp 267-298. -/
def writeTempo (t : TempoData) : Res DirectionTypeXml :=
  if t.tempoType ≠ .beatsPerMinute then .error .throws
  else .ok (.metronome (.perMinute (StringEnum.toStr (MapName.durationMap.toCore t.beatsPerMinute.durationName : Core.NoteTypeValue)) t.beatsPerMinute.dots.toNat
    (showInt t.beatsPerMinute.beatsPerMinute)))

/-- private/mx/impl/DirectionWriter.cpp 317-327; there is no colour. -/
def writeWords (w : WordsData) : Option WordsXml := do
  let p ← writePosition textMembers w.positionData
  let q ← writePrint wordsPrint { fontData := w.fontData }
  return { text := w.text, position := p, print := q }

/-- One step of the loop over the words: the words are added, and the first time the `<words>` that the new `<direction-type>` has is removed, private/mx/impl/DirectionWriter.cpp 306-315. -/
def addWords (s : List WordsXml × Bool) (x : WordsXml) : List WordsXml × Bool := if s.2 then (s.1 ++ [x], true) else ((s.1 ++ [x]).drop 1, true)

/-- private/mx/impl/DirectionWriter.cpp 300-334. -/
def writeWordsType (l : List WordsData) : Option (List DirectionTypeXml) :=
  if l.length > 0 then
    (l.mapM writeWords).map fun xs =>
      let s := xs.foldl addWords ([{}], false)
      if s.2 then [.words s.1] else []
  else some []

/-- All types that the direction adds, in their order: private/mx/impl/DirectionWriter.cpp 112-334. -/
def directionTypes (d : DirectionData) : Res (List DirectionTypeXml) := do
  let marks ← orUndefined (d.marks.mapM writeMarkType)
  let wedgeStops ← orUndefined (d.wedgeStops.mapM writeWedgeStop)
  let wedgeStarts ← orUndefined (d.wedgeStarts.mapM writeWedgeStart)
  let ottavaStarts ← orUndefined (d.ottavaStarts.mapM writeOttavaStart)
  let tempos ← d.tempos.mapM writeTempo
  let words ← orUndefined (writeWordsType d.words)
  return marks.flatten ++ wedgeStops ++ wedgeStarts ++ d.ottavaStops.map writeOttavaStop ++ ottavaStarts ++ d.bracketStarts.map writeBracketStart ++ tempos ++ words

/-- `addDirectionType`, private/mx/impl/DirectionWriter.cpp 354-364: the types of the direction and `myIsFirstDirectionTypeAdded`. -/
def addDirectionType (s : List DirectionTypeXml × Bool) (x : DirectionTypeXml) : List DirectionTypeXml × Bool :=
  let types := s.1 ++ [x]
  (if s.2 = false ∧ types.length = 2 then types.drop 1 else types, true)

/-- The one type of a new `<direction>`, private/mx/core/elements/DirectionType.cpp 35-66. -/
def newType : DirectionTypeXml := .rehearsal [{}]

/-- `Semitones` of a root or bass, private/mx/impl/DirectionWriter.cpp 422-426, 433-437. -/
def writeChordAlter (n : Int) : Option (Option Str) := if n ≠ 0 then (decimalText .Semitones n).map some else some none

/-- private/mx/impl/DirectionWriter.cpp 428-438. -/
def writeBass (c : ChordData) : Option (Option (Str × Option Str)) :=
  if c.bass ≠ .unspecified then (writeChordAlter c.bassAlter).map fun a => some (StringEnum.toStr (MapName.stepMap.toCore c.bass : Core.StepEnum), a) else some none

/-- private/mx/impl/DirectionWriter.cpp 473-486. -/
def extensionValue : Api.ExtensionNumber → Int
  | .first => 1
  | .second => 2
  | .third => 3
  | .fourth => 4
  | .fifth => 5
  | .sixth => 6
  | .seventh => 7
  | .ninth => 9
  | .eleventh => 11
  | .thirteenth => 13

/-- private/mx/impl/DirectionWriter.cpp 488-495. -/
def extensionSemitones : Api.ExtensionAlter → Int
  | .doubleFlat => -2
  | .doubleSharp => 2
  | .flat => -1
  | .sharp => 1
  | .none => 0

/-- private/mx/impl/DirectionWriter.cpp 460-471. -/
def degreeType : Api.ExtensionType → Core.DegreeTypeValue
  | .add => .add
  | .remove => .subtract
  | .alter => .alter

/-- private/mx/impl/DirectionWriter.cpp 456-498: `print-object` is not written. -/
def writeExtension (e : Extension) : Option DegreeXml :=
  (decimalText .Semitones (extensionSemitones e.extensionAlter)).map fun a =>
    { value := (IntRange.ofKind .PositiveInteger (extensionValue e.extensionNumber)).toStr, alter := a, type := StringEnum.toStr (degreeType e.extensionType) }

/-- private/mx/impl/DirectionWriter.cpp 420-498. -/
def writeChord (c : ChordData) : Option ChordXml := do
  let a ← writeChordAlter c.rootAlter
  let b ← writeBass c
  let ds ← c.extensions.mapM writeExtension
  return {
    rootStep := StringEnum.toStr (MapName.stepMap.toCore (if c.root = .unspecified then .c else c.root) : Core.StepEnum), rootAlter := a
    kind := StringEnum.toStr (MapName.kindMap.toCore c.chordKind : Core.KindValue)
    kindText := if c.text ≠ [] then some (xsToken c.text) else none
    useSymbols := if c.useSymbols ≠ .unspecified then some (StringEnum.toStr (if c.useSymbols = .yes then Core.YesNo.yes else Core.YesNo.no)) else none
    bass := b, degrees := ds }

/-- `ProcessingInstruction::setName` on a new instruction, private/mx/core/ProcessingInstruction.cpp 19-33, 45-51. -/
def instructionName (s : Str) : Str := if s ≠ [] then s else chars "default-name"

/-- `ProcessingInstruction::toStream`, private/mx/core/ProcessingInstruction.cpp 66-74. -/
def writeInstruction (m : MiscData) : Str := chars "<?" ++ instructionName m.name ++ [' '] ++ m.data ++ chars "?>"

/-- The offset, private/mx/impl/DirectionWriter.cpp 101-110 and 380-384. -/
def offsetText (offset : Int) : Option (Option Str) := if offset ≠ 0 then (decimalText .DivisionsValue offset).map some else some none

/-- `createHarmonyElements`, private/mx/impl/DirectionWriter.cpp 367-513: the first chord uses the group that a new `<harmony>` has. -/
def createHarmony (staffIndex offset : Int) (d : DirectionData) : Option (List ElementXml) :=
  match d.chords with
  | [] => some []
  | c :: cs => do
    let p ← writePosition harmonyMembers c.positionData
    let chords ← (c :: cs).mapM writeChord
    let o ← offsetText offset
    return [.harmony {
      instructions := ((c :: cs).map (fun c => c.miscData.map writeInstruction)).flatten, position := p, chords := chords, offset := o
      staff := if d.isStaffValueSpecified then some (IntRange.ofKind .PositiveInteger (staffIndex + 1)).toStr else none }]

/-- `getDirectionLikeThings`, private/mx/impl/DirectionWriter.cpp 81-351, at a cursor on a staff and at a tick. -/
def getDirectionLikeThings (staffIndex cursorTick : Int) (d : DirectionData) : Res (List ElementXml) := do
  let offset ← chkR (d.tickTimePosition - cursorTick)
  let o ← orUndefined (offsetText offset)
  let types ← directionTypes d
  let s := types.foldl addDirectionType ([newType], false)
  let harmony ← orUndefined (createHarmony staffIndex offset d)
  return (if s.2 then [.direction {
    placement := d.marks.foldl placementStep (placementText d.placement), types := s.1, offset := o
    staff := if d.isStaffValueSpecified = true ∨ staffIndex ≠ 0 then some (IntRange.ofKind .PositiveInteger (staffIndex + 1)).toStr else none }] else []) ++ harmony

/-! ### Reading -/

/-- `roundTo`, private/mx/utility/Round.h 12-15, and the rounding of offsets, private/mx/impl/DirectionReader.cpp 126. -/
def roundTo (v : ℚ) : Option Int := chk ⌈v - 1 / 2⌉

/-- The value of a decimal element. -/
def decimalValue (k : DecimalKind) (s : Str) : Option ℚ := ((DecimalRange.make k 0).bind (fun d => d.parse s)).map (fun r => r.2.getValue)

/-- `parseWords`, private/mx/impl/DirectionReader.cpp 352-366: `isColorSpecified` is not set. -/
def readWords (x : WordsXml) : Option WordsData := do
  let p ← readPosition textMembers x.position
  let q ← readPrint wordsPrint x.print
  return { text := x.text, positionData := p, fontData := q.fontData, colorData := q.color }

/-- `parseRehearsal`, private/mx/impl/DirectionReader.cpp 319-334: the font is not read. -/
def readRehearsal (x : WordsXml) : Option RehearsalData := do
  let p ← readPosition textMembers x.position
  let q ← readPrint wordsPrint x.print
  return { text := x.text, positionData := p, colorData := q.color }

/-- `parseSegno`, `parseCoda`, private/mx/impl/DirectionReader.cpp 337-349, 369-381: `isColorSpecified` is not set. -/
def readSign (x : SignXml) : Option SignData := do
  let p ← readPosition signMembers x.position
  let q ← readPrint signPrint x.print
  return { positionData := p, colorData := q.color }

/-- The number of a wedge, private/mx/impl/DirectionReader.cpp 398-401, and of a spanner, SpannerFunctions.h 25-29. -/
def readLevel (x : Option Str) : Int := readNumber x

/-- `parseWedge` of a stop, private/mx/impl/DirectionReader.cpp 386-410. -/
def readWedgeStop (x : WedgeXml) : Option WedgeStop := do
  let s ← readNum .TenthsValue x.spread
  let p ← readPosition spannerMembers x.position
  return { numberLevel := readLevel x.number, positionData := p, spread := s }

/-- `parseWedge` otherwise, private/mx/impl/DirectionReader.cpp 386-393, 411-428; there is no colour. -/
def readWedgeStart (x : WedgeXml) : Option WedgeStart := do
  let s ← readNum .TenthsValue x.spread
  let p ← readPosition spannerMembers x.position
  let l ← readLine x.line
  return { numberLevel := readLevel x.number, wedgeType := MapName.wedgeMap.toApi (parseEnum x.type : Core.WedgeType), spread := s, lineData := l, positionData := p }

/-- The placement of the direction as read, private/mx/impl/DirectionReader.cpp 141-157. -/
def readPlacement (x : Option Str) : Api.Placement := (x.map (fun t => (MapName.placementMap.toApi (parseEnum t : Core.AboveBelow) : Api.Placement))).getD .unspecified

/-- `parsePositionData`, private/mx/impl/DirectionReader.h 79-95. -/
def orPlacement (p : PositionData) (placement : Api.Placement) : PositionData := if p.placement = .unspecified then { p with placement := placement } else p

/-- `checkNumber` on a bracket: a missing number is read as the value of a new `NumberLevel`, private/mx/impl/DirectionReader.cpp 478, 487. -/
def readBracketNumber (x : Option Str) : Int := (x.map (parseBounded .NumberLevel)).getD 1

/-- `parseBracket` of a stop, private/mx/impl/DirectionReader.cpp 474-482. -/
def readBracketStop (tick : Int) (placement : Api.Placement) (x : SpannerXml) : Option SpannerStop :=
  (readPosition spannerMembers x.position).map fun p =>
    { tickTimePosition := tick, numberLevel := readBracketNumber x.number, positionData := orPlacement p placement }

/-- `parseBracket` of a start, private/mx/impl/DirectionReader.cpp 483-493. -/
def readBracketStart (tick : Int) (placement : Api.Placement) (x : SpannerXml) : Option SpannerStart := do
  let p ← readPosition spannerMembers x.position
  let l ← readLine x.line
  let q ← readPrint bracketPrint x.print
  return { tickTimePosition := tick, numberLevel := readBracketNumber x.number, positionData := orPlacement p placement, lineData := l, printData := q }

/-- `parsePedal`, private/mx/impl/DirectionReader.cpp 497-527, for a start or a stop; the time is set by `fixTimes`. -/
def readPedal (tick : Int) (placement : Option Str) (isStop : Bool) (x : PedalXml) : Option MarkData :=
  (readPosition textMembers x.position).map fun p =>
    { MarkData.make (if isStop then .damp else .pedal) with
      tickTimePosition := tick
      positionData := { p with placement := (placement.map (fun t => if (parseEnum t : Core.AboveBelow) = .above then Api.Placement.above else Api.Placement.below)).getD .unspecified } }

/-- `getSpannerStop` in `parseOctaveShift`, private/mx/impl/DirectionReader.cpp 549-556, SpannerFunctions.h 36-47. -/
def readOttavaStop (tick : Int) (x : SpannerXml) : Option SpannerStop :=
  (readPosition spannerMembers x.position).map fun p => { numberLevel := readLevel x.number, tickTimePosition := tick, positionData := p }

/-- The type of an ottava, private/mx/impl/DirectionReader.cpp 558-583. -/
def ottavaType (type : Core.UpDownStopContinue) (size : Option Str) : Api.OttavaType :=
  let amount := (size.map (parseBounded .PositiveInteger)).getD 8
  if type = .up ∧ amount > 8 then .o15ma else if type = .up then .o8va else if amount > 8 then .o15mb else .o8vb

/-- `parseOctaveShift` of a start, private/mx/impl/DirectionReader.cpp 558-589, SpannerFunctions.h 21-34; there is no line type. -/
def readOttavaStart (tick : Int) (x : SpannerXml) : Option OttavaStart := do
  let p ← readPosition spannerMembers x.position
  let q ← readPrint octavePrint x.print
  let l ← readLine { x.line with lineType := none }
  return {
    spannerStart := { numberLevel := readLevel x.number, tickTimePosition := tick, positionData := p, printData := q, lineData := l }
    ottavaType := ottavaType (parseEnum x.type) x.size }

/-- `MetronomeReader::getTempoData`, private/mx/impl/MetronomeReader.cpp 37-121. -/
def readTempo : MetronomeXml → Res TempoData
  | .noteRelation => .error .throws
  | .beatUnits => .ok {}
  | .perMinute unit dots text => do
    let r ← orUndefined (stringToInt text (-1))
    let name := (MapName.durationMap.toApi (parseEnum unit : Core.NoteTypeValue) : Api.DurationName)
    return if r.1 then { tempoType := .beatsPerMinute, beatsPerMinute := { durationName := name, dots := (dots : Int), beatsPerMinute := r.2 } }
      else { tempoType := .tempoText, beatsPerMinute := { durationName := name, dots := (dots : Int) }, tempoText := text }

/-- The constant environment of reading a direction: the tick of the cursor, that of the direction, and the placement. -/
structure Env where
  cursorTick : Int
  tick : Int
  placement : Option Str
deriving Repr, DecidableEq

/-- `parseDirectionType`, private/mx/impl/DirectionReader.cpp 200-316. The marks get the time of the direction at once (`fixTimes`, 183-189).  `<damp-all>` is read by `parseRehearsal`, with the
rehearsal mark that every new `<direction-type>` has. -/
def parseDirectionType (e : Env) (d : DirectionData) : DirectionTypeXml → Res DirectionData
  | .rehearsal l => do return { d with rehearsals := d.rehearsals ++ (← orUndefined (l.mapM readRehearsal)) }
  | .dampAll => do return { d with rehearsals := d.rehearsals ++ (← orUndefined ([({} : WordsXml)].mapM readRehearsal)) }
  | .segno l => do return { d with segnos := d.segnos ++ (← orUndefined (l.mapM readSign)) }
  | .coda l => do return { d with codas := d.codas ++ (← orUndefined (l.mapM readSign)) }
  | .words l => do return { d with words := d.words ++ (← orUndefined (l.mapM readWords)) }
  | .wedge w =>
    if (parseEnum w.type : Core.WedgeType) = .stop then do return { d with wedgeStops := d.wedgeStops ++ [← orUndefined (readWedgeStop w)] }
    else do return { d with wedgeStarts := d.wedgeStarts ++ [← orUndefined (readWedgeStart w)] }
  | .dynamics l => do return { d with marks := d.marks ++ (← orUndefined (l.mapM (readDynamics e.tick))) }
  | .bracket b =>
    if (parseEnum b.type : Core.StartStopContinue) = .stop then do return { d with bracketStops := d.bracketStops ++ [← orUndefined (readBracketStop e.cursorTick (readPlacement e.placement) b)] }
    else if (parseEnum b.type : Core.StartStopContinue) = .start then do
      return { d with bracketStarts := d.bracketStarts ++ [← orUndefined (readBracketStart e.cursorTick (readPlacement e.placement) b)] }
    else .ok d
  | .pedal p =>
    if (parseEnum p.type : Core.StartStopChangeContinue) = .start ∨ (parseEnum p.type : Core.StartStopChangeContinue) = .stop then do
      return { d with marks := d.marks ++ [← orUndefined (readPedal e.tick e.placement (decide ((parseEnum p.type : Core.StartStopChangeContinue) = .stop)) p)] }
    else .ok d
  | .metronome m => do return { d with tempos := d.tempos ++ [← readTempo m] }
  | .octaveShift s =>
    if (parseEnum s.type : Core.UpDownStopContinue) = .continue_ then .ok d
    else if (parseEnum s.type : Core.UpDownStopContinue) = .stop then do return { d with ottavaStops := d.ottavaStops ++ [← orUndefined (readOttavaStop e.cursorTick s)] }
    else do return { d with ottavaStarts := d.ottavaStarts ++ [← orUndefined (readOttavaStart e.cursorTick s)] }
  | .other => .ok d

/-- `updateTimeForOffset`, private/mx/impl/DirectionReader.cpp 120-138. -/
def timeWithOffset (tick : Int) : Option Str → Option Int
  | none => some tick
  | some s => ((decimalValue .DivisionsValue s).bind roundTo).bind (fun o => chk (tick + o))

/-- The alteration of a root or bass, private/mx/impl/DirectionReader.cpp 664-667, 695-698. -/
def readChordAlter : Option Str → Option Int
  | none => some 0
  | some s => (decimalValue .Semitones s).bind roundTo

/-- private/mx/impl/DirectionReader.cpp 690-699. -/
def readBass : Option (Str × Option Str) → Option (Api.Step × Int)
  | none => some (.unspecified, 0)
  | some (s, a) => (readChordAlter a).map fun a => (MapName.stepMap.toApi (parseEnum s : Core.StepEnum), a)

/-- private/mx/impl/DirectionReader.cpp 712-718. -/
def extensionType : Core.DegreeTypeValue → Api.ExtensionType
  | .alter => .alter
  | .add => .add
  | .subtract => .remove

/-- private/mx/impl/DirectionReader.cpp 720-739. -/
def extensionAlter (a : Int) : Api.ExtensionAlter :=
  if a ≤ -2 then .doubleFlat else if a = -1 then .flat else if a = 0 then .none else if a = 1 then .sharp else .doubleSharp

/-- private/mx/impl/DirectionReader.cpp 741-754; `none`: the degree is dropped. -/
def extensionNumber (v : Int) : Option Api.ExtensionNumber :=
  if v = 1 then some .first else if v = 2 then some .second else if v = 3 then some .third else if v = 4 then some .fourth else if v = 5 then some .fifth else if v = 6 then some .sixth
  else if v = 7 then some .seventh else if v = 9 then some .ninth else if v = 11 then some .eleventh else if v = 13 then some .thirteenth else none

/-- One step of the loop over the degrees, private/mx/impl/DirectionReader.cpp 703-772. -/
def readDegree (x : DegreeXml) : Option (Option Extension) :=
  ((decimalValue .Semitones x.alter).bind roundTo).map fun a =>
    (extensionNumber (parseBounded .PositiveInteger x.value)).map fun n =>
      { extensionType := extensionType (parseEnum x.type), extensionAlter := extensionAlter a, extensionNumber := n
        printObject := (x.printObject.map (fun t => if (parseEnum t : Core.YesNo) = .yes then Api.Bool.yes else Api.Bool.no)).getD .unspecified }

/-- `ct_start_symbol`, private/mx/ezxml/src/private/private/pugixml.cpp 1837. -/
def isNameStart (c : Char) : Bool := decide (c.toNat > 127 ∨ 'a' ≤ c ∧ c ≤ 'z' ∨ 'A' ≤ c ∧ c ≤ 'Z' ∨ c = '_' ∨ c = ':')

/-- `ct_symbol`, private/mx/ezxml/src/private/private/pugixml.cpp 1836. -/
def isNameChar (c : Char) : Bool := isNameStart c || decide ('0' ≤ c ∧ c ≤ '9' ∨ c = '-' ∨ c = '.')

/-- `ct_space`, private/mx/ezxml/src/private/private/pugixml.cpp 1833. -/
def isXmlSpace (c : Char) : Bool := decide (c = '\r' ∨ c = '\n' ∨ c = ' ' ∨ c = '\t')

/-- The text up to the next `?>`. -/
def untilEnd : Str → Str
  | [] => []
  | c :: r => if c = '?' ∧ r.head? = some '>' then [] else c :: untilEnd r

/-- `declaration`, private/mx/ezxml/src/private/private/pugixml.cpp 3166. -/
def isXmlName (s : Str) : Bool := decide (s.map Char.toLower = chars "xml")

/-- Reading a processing instruction: `parse_question`, private/mx/ezxml/src/private/private/pugixml.cpp 3148-3240, with `parse_pi` and `parse_declaration` (PugiDoc.cpp 13-14), and
`ElementInterface::fromXElement`, private/mx/core/ElementInterface.cpp 119-167.  Loading fails on a bad name and on the name `xml`, which only a declaration at
the start of the document may have. -/
def readInstruction (s : Str) : Res (Option MiscData) :=
  let r := s.drop 2
  let name := r.takeWhile isNameChar
  let rest := r.dropWhile isNameChar
  if (r.head?.map isNameStart).getD false = false then .error .throws
  else if isXmlName name then .error .throws
  else if (rest.head?.map isXmlSpace).getD false then .ok (some { name := name, data := untilEnd (rest.dropWhile isXmlSpace) })
  else if rest.take 2 = chars "?>" then .ok (some { name := name })
  else .error .throws

/-- `parseHarmony`, private/mx/impl/DirectionReader.cpp 659-786. -/
def readChord (misc : List MiscData) (h : HarmonyXml) (x : ChordXml) : Option ChordData := do
  let ra ← readChordAlter x.rootAlter
  let b ← readBass x.bass
  let ds ← x.degrees.mapM readDegree
  let p ← readPosition harmonyMembers h.position
  return {
    root := MapName.stepMap.toApi (parseEnum x.rootStep : Core.StepEnum), rootAlter := ra
    chordKind := MapName.kindMap.toApi (parseEnum x.kind : Core.KindValue)
    text := (x.kindText.map xsToken).getD []
    useSymbols := (x.useSymbols.map (fun t => if (parseEnum t : Core.YesNo) = .yes then Api.Bool.yes else Api.Bool.no)).getD .unspecified
    bass := b.1, bassAlter := b.2, extensions := ds.filterMap id, miscData := misc, positionData := p }

/-- `getDirectionData` on a `<direction>`, private/mx/impl/DirectionReader.cpp 89-189. -/
def readDirection (cursorTick : Int) (x : DirectionXml) : Res DirectionData := do
  let tick ← orUndefined (timeWithOffset cursorTick x.offset)
  x.types.foldlM (parseDirectionType { cursorTick := cursorTick, tick := tick, placement := x.placement })
    { tickTimePosition := tick, isStaffValueSpecified := x.staff.isSome, placement := readPlacement x.placement }

/-- `getDirectionData` on a `<harmony>`, private/mx/impl/DirectionReader.cpp 89-189: only the groups with a root are read. -/
def readHarmony (cursorTick : Int) (h : HarmonyXml) : Res DirectionData := do
  let tick ← orUndefined (timeWithOffset cursorTick h.offset)
  let misc ← h.instructions.mapM readInstruction
  let chords ← orUndefined ((h.chords.filter (fun c => c.isRoot)).mapM (readChord (misc.filterMap id) h))
  return { tickTimePosition := tick, isStaffValueSpecified := h.staff.isSome, placement := readPlacement h.position.placement, chords := chords }

/-- `DirectionReader`, called for each element in private/mx/impl/MeasureReader.cpp 390-423. -/
def getDirectionData (cursorTick : Int) : ElementXml → Res DirectionData
  | .direction d => readDirection cursorTick d
  | .harmony h => readHarmony cursorTick h

end Mx.Directions
