import Verif.Model.Notations
import Verif.Model.Sounds

/-
Model of the part names and the instrument of a part: private/mx/impl/PartWriter.cpp `getScorePart`, private/mx/impl/PartReader.cpp `parseScorePart`.

Simplifications: texts of elements pass unchanged from writer to reader (escaping is in Model/Strings.lean); the print and position data of the display
texts, which neither side uses, and the `print-object` attributes, which are always written as "no" and never read, are left out.
-/
namespace Mx

/-- `api::MidiData`, include/mx/api/PartData.h 26-75. -/
structure MidiData where
  virtualLibrary : Str := []
  virtualName : Str := []
  device : Str := []
  name : Str := []
  bank : Int := -1
  channel : Int := -1
  program : Int := -1
  unpitched : Int := -1
  volume : MaybeNum := {}
  pan : MaybeNum := {}
  elevation : MaybeNum := {}
deriving Repr, DecidableEq

/-- `api::InstrumentData`, include/mx/api/PartData.h 77-96. -/
structure InstrumentData where
  uniqueId : Str := []
  name : Str := []
  abbreviation : Str := []
  sound : Api.SoundID := .unspecified
  soloOrEnsemble : Api.SoloOrEnsemble := .unspecified
  midi : MidiData := {}
deriving DecidableEq

/-- `api::PartData`, include/mx/api/PartData.h 98-137, without the measures and the transposition. -/
structure PartHead where
  uniqueId : Str := []
  name : Str := []
  abbreviation : Str := []
  displayName : Str := []
  displayAbbreviation : Str := []
  instrument : InstrumentData := {}
deriving DecidableEq

/-- `DisplayTextOrAccidentalText`, private/mx/core/elements/DisplayTextOrAccidentalText.h. -/
inductive DisplayItem where
  | text (s : Str)
  | accidental (a : Core.AccidentalValue)
deriving Repr, DecidableEq

/-- `<score-instrument>`, private/mx/core/elements/ScoreInstrument.cpp 20-31; `isEnsemble` is the choice between `<ensemble>` and `<solo>`,
the two virtual texts are the children of `<virtual-instrument>`. -/
structure ScoreInstrumentXml where
  id : Str
  name : Str := []
  abbreviation : Option Str := none
  sound : Option Str := none
  isEnsemble : Option Bool := none
  virtualLibrary : Option Str := none
  virtualName : Option Str := none
deriving Repr, DecidableEq

/-- `<midi-instrument>`, private/mx/core/elements/MidiInstrument.cpp 21-39. -/
structure MidiInstrumentXml where
  id : Str
  channel : Option Str := none
  name : Option Str := none
  bank : Option Str := none
  program : Option Str := none
  unpitched : Option Str := none
  volume : Option Str := none
  pan : Option Str := none
  elevation : Option Str := none
deriving Repr, DecidableEq

/-- `MidiDeviceInstrumentGroup`, private/mx/core/elements/MidiDeviceInstrumentGroup.cpp 15-20. -/
structure MidiGroupXml where
  device : Option Str := none
  instrument : Option MidiInstrumentXml := none
deriving Repr, DecidableEq

/-- `<score-part>`, private/mx/core/elements/ScorePart.cpp 65-110. -/
structure ScorePartXml where
  id : Str
  name : Str
  nameDisplay : Option (List DisplayItem) := none
  abbreviation : Option Str := none
  abbreviationDisplay : Option (List DisplayItem) := none
  instruments : List ScoreInstrumentXml := []
  midi : List MidiGroupXml := []
deriving Repr, DecidableEq

/-- A computation that is undefined where it has no result. -/
def orUndefined {α : Type} : Option α → Res α
  | some x => .ok x
  | none => .error .undefined

/-- `if( text.size() > 0 )`, as in private/mx/impl/PartWriter.cpp 79. -/
def textOrNone (s : Str) : Option Str := if s.length > 0 then some s else none

/-- `addScoreInstrument`, private/mx/impl/PartWriter.cpp 104-143. -/
def addsScoreInstrument (i : InstrumentData) : Bool :=
  i.name.length > 0 ∨ i.abbreviation.length > 0 ∨ i.soloOrEnsemble ≠ .unspecified ∨ i.midi.virtualName.length > 0 ∨ i.midi.virtualLibrary.length > 0

/-- `setHasMidiInstrument( true )`, private/mx/impl/PartWriter.cpp 169-210. -/
def addsMidiInstrument (m : MidiData) : Bool :=
  m.bank ≥ 0 ∨ m.channel ≥ 0 ∨ m.program ≥ 0 ∨ m.elevation.isSpecified ∨ m.pan.isSpecified ∨ m.volume.isSpecified

/-- `addMidiElement`, private/mx/impl/PartWriter.cpp 157-210. -/
def addsMidi (m : MidiData) : Bool := m.device.length > 0 ∨ addsMidiInstrument m

/-- The instrument sound, private/mx/impl/PartWriter.cpp 145-150 with private/mx/core/elements/InstrumentSound.cpp 52. -/
def writeInstrumentSound (s : Api.SoundID) : Res (Option Str) :=
  if s ≠ .unspecified ∧ s ≠ .errorBadString then (playbackSoundToString (instrumentMap.toCore s)).map some else .ok none

/-- Solo or ensemble, private/mx/impl/PartWriter.cpp 117-124. -/
def writeEnsemble (s : Api.SoloOrEnsemble) : Option Bool := if s ≠ .unspecified then some (s = .ensemble) else none

/-- The `<score-instrument>` element, private/mx/impl/PartWriter.cpp 103-150. -/
def makeScoreInstrument (id : Str) (i : InstrumentData) : Res ScoreInstrumentXml :=
  (writeInstrumentSound i.sound).map fun sound =>
    { id := id, name := i.name, abbreviation := textOrNone i.abbreviation, sound := sound, isEnsemble := writeEnsemble i.soloOrEnsemble
      virtualLibrary := textOrNone i.midi.virtualLibrary, virtualName := textOrNone i.midi.virtualName }

/-- The id of the `<score-instrument>` element, private/mx/impl/PartWriter.cpp 105, 215-227: without texts and without id a new number is taken from the
document manager (`unique`). -/
def scoreInstrumentId (unique : Int) (i : InstrumentData) : Str :=
  if addsScoreInstrument i then xsID i.uniqueId
  else if i.uniqueId.length = 0 then xsID (chars "ID" ++ showInt unique) else xsID i.uniqueId

/-- The `<score-instrument>` elements, private/mx/impl/PartWriter.cpp 152-155, 215-230. -/
def writeScoreInstruments (unique : Int) (i : InstrumentData) : Res (List ScoreInstrumentXml) :=
  if addsScoreInstrument i ∨ addsMidi i.midi then (makeScoreInstrument (scoreInstrumentId unique i) i).map (fun x => [x]) else .ok []

/-- A MIDI number, private/mx/impl/PartWriter.cpp 169-189: written if not negative. -/
def writeMidi (k : IntKind) (v : Int) : Option Str := if v ≥ 0 then some (IntRange.ofKind k v).toStr else none

/-- The `<midi-instrument>` element, private/mx/impl/PartWriter.cpp 160-210. -/
def makeMidiInstrument (i : InstrumentData) : Option MidiInstrumentXml := do
  let volume ← writeNum .Percent i.midi.volume
  let pan ← writeNum .RotationDegrees i.midi.pan
  let elevation ← writeNum .RotationDegrees i.midi.elevation
  return { id := xsID i.uniqueId, channel := writeMidi .Midi16 i.midi.channel, bank := writeMidi .Midi16384 i.midi.bank
           program := writeMidi .Midi128 i.midi.program, volume := volume, pan := pan, elevation := elevation }

/-- The `<midi-instrument>` element if there is one, private/mx/impl/PartWriter.cpp 172-210. -/
def optionalMidiInstrument (i : InstrumentData) : Option (Option MidiInstrumentXml) :=
  if addsMidiInstrument i.midi then (makeMidiInstrument i).map some else some none

/-- The MIDI elements, private/mx/impl/PartWriter.cpp 157-214. -/
def writeMidiGroups (i : InstrumentData) : Res (List MidiGroupXml) :=
  if addsMidi i.midi then (orUndefined (optionalMidiInstrument i)).map fun x => [{ device := textOrNone i.midi.device, instrument := x }]
  else .ok []

/-- A display text, private/mx/impl/PartWriter.cpp 87-102. -/
def writeDisplay (s : Str) : Option (List DisplayItem) := if s.length > 0 then some [.text s] else none

/-- `getScorePart`, private/mx/impl/PartWriter.cpp 70-232. -/
def getScorePart (unique : Int) (p : PartHead) : Res ScorePartXml := do
  let instruments ← writeScoreInstruments unique p.instrument
  let midi ← writeMidiGroups p.instrument
  return { id := xsID p.uniqueId, name := p.name, abbreviation := textOrNone p.abbreviation, nameDisplay := writeDisplay p.displayName
           abbreviationDisplay := writeDisplay p.displayAbbreviation, instruments := instruments, midi := midi }

/-! ### Reading -/

/-- One item of `extractDisplayText`, private/mx/impl/PartReader.cpp 231-245: the second test for a flat can never succeed. -/
def displayItemText : DisplayItem → Str
  | .text s => s
  | .accidental a => if a = .flat then chars "b" else if a = .flat then chars "#" else []

/-- `extractDisplayText`, private/mx/impl/PartReader.cpp 226-248. -/
def extractDisplayText (items : List DisplayItem) : Str := (items.map displayItemText).flatten

/-- Reading `<instrument-sound>`, private/mx/core/elements/InstrumentSound.cpp 69-75, private/mx/impl/PartReader.cpp 274-278. -/
def readInstrumentSound : Option Str → Res Api.SoundID
  | none => .ok .unspecified
  | some s => (playbackSoundFromString s).map instrumentMap.toApi

/-- Reading solo or ensemble, private/mx/impl/PartReader.cpp 261-272. -/
def readEnsemble : Option Bool → Api.SoloOrEnsemble
  | none => .unspecified
  | some true => .ensemble
  | some false => .solo

/-- `parseScoreInstrument` and `parseVirtualInstrument`, private/mx/impl/PartReader.cpp 251-298. -/
def parseScoreInstrument (x : ScoreInstrumentXml) (i : InstrumentData) : Res InstrumentData :=
  (readInstrumentSound x.sound).map fun sound =>
    { i with uniqueId := x.id, name := x.name, abbreviation := x.abbreviation.getD i.abbreviation, soloOrEnsemble := readEnsemble x.isEnsemble, sound := sound
             midi := { i.midi with virtualName := x.virtualName.getD i.midi.virtualName, virtualLibrary := x.virtualLibrary.getD i.midi.virtualLibrary } }

/-- Reading a MIDI number, private/mx/core/elements/MidiBank.cpp 69-75, private/mx/impl/PartReader.cpp 316-344. -/
def readMidi (k : IntKind) (old : Int) : Option Str → Int
  | none => old
  | some s => parseBounded k s

/-- `parseMidiInstrument`, private/mx/impl/PartReader.cpp 314-363, on new data. -/
def parseMidiInstrument (x : MidiInstrumentXml) (m : MidiData) : Option MidiData := do
  let volume ← readNum .Percent x.volume
  let pan ← readNum .RotationDegrees x.pan
  let elevation ← readNum .RotationDegrees x.elevation
  return { m with channel := readMidi .Midi16 m.channel x.channel, name := x.name.getD m.name, bank := readMidi .Midi16384 m.bank x.bank
                  program := readMidi .Midi128 m.program x.program, unpitched := readMidi .Midi128 m.unpitched x.unpitched
                  volume := volume, pan := pan, elevation := elevation }

/-- `parseMidiDeviceInstrumentGroup`, private/mx/impl/PartReader.cpp 301-312. -/
def parseMidiGroup (g : MidiGroupXml) (m : MidiData) : Option MidiData :=
  match g.instrument with
  | none => some { m with device := g.device.getD m.device }
  | some x => parseMidiInstrument x { m with device := g.device.getD m.device }

/-- The first instrument, private/mx/impl/PartReader.cpp 214-217. -/
def readInstrument : List ScoreInstrumentXml → Res InstrumentData
  | [] => .ok {}
  | x :: _ => parseScoreInstrument x {}

/-- The first MIDI group, private/mx/impl/PartReader.cpp 219-222. -/
def readMidiGroups (i : InstrumentData) : List MidiGroupXml → Res InstrumentData
  | [] => .ok i
  | g :: _ => (orUndefined (parseMidiGroup g i.midi)).map fun m => { i with midi := m }

/-- The abbreviation for display, private/mx/impl/PartReader.cpp 209-212: taken from the name for display; a `PartNameDisplay` that is not in the document is empty
(private/mx/core/elements/PartNameDisplay.cpp 14-17). -/
def readDisplayAbbreviation (x : ScorePartXml) : Str := if x.abbreviationDisplay.isSome then extractDisplayText (x.nameDisplay.getD []) else []

/-- `parseScorePart`, private/mx/impl/PartReader.cpp 194-223. -/
def parseScorePart (x : ScorePartXml) : Res PartHead := do
  let i ← readInstrument x.instruments
  let i ← readMidiGroups i x.midi
  return { uniqueId := x.id, name := x.name, displayName := (x.nameDisplay.map extractDisplayText).getD [], abbreviation := x.abbreviation.getD []
           displayAbbreviation := readDisplayAbbreviation x, instrument := i }

end Mx
