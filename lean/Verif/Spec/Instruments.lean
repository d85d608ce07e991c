import Verif.Model.Instruments
import Verif.Spec.Notations
import Verif.Spec.DecimalRanges

/-
Specification for instruments and part names (C47).
-/
open Spec
namespace Mx.Spec

/-- The number nearest to `v` among `lo`, …, `hi`. -/
def nearestIn (lo hi v : Int) : Int := max lo (min hi v)

/-- What comes back of a MIDI number that is at most `hi`: negative numbers mean "none" and come back as −1, the smallest number of MusicXML is 1. -/
def keptMidiNumber (hi v : Int) : Int := if v < 0 then -1 else nearestIn 1 hi v

/-- MIDI numbers are absent (−1) or in the range of MusicXML. -/
def MidiNumberFits (hi v : Int) : Prop := v = -1 ∨ (1 ≤ v ∧ v ≤ hi)

/-- Numbers that the decimal classes can represent, within `lo` … `hi`, if specified. -/
def DegreesFit (lo hi : ℚ) (n : MaybeNum) : Prop := n.isSpecified = true → HasDecimals 6 n.value ∧ lo ≤ n.value ∧ n.value ≤ hi

/-- MIDI data whose numbers can be written: 32 bit integers, volume 0 … 100, pan and elevation −180 … 180 with at most six decimals. -/
structure MidiFits (m : MidiData) : Prop where
  bank : InInt m.bank
  channel : InInt m.channel
  program : InInt m.program
  volume : DegreesFit 0 100 m.volume
  pan : DegreesFit (-180) 180 m.pan
  elevation : DegreesFit (-180) 180 m.elevation

/-- What comes back of MIDI data: the name and the unpitched note are not written. -/
def keptMidi (m : MidiData) : MidiData :=
  { m with name := [], unpitched := -1, bank := keptMidiNumber 16384 m.bank, channel := keptMidiNumber 16 m.channel, program := keptMidiNumber 128 m.program
           volume := keptNum m.volume, pan := keptNum m.pan, elevation := keptNum m.elevation }

/-- A sound that has a text. -/
def keptSound (s : Api.SoundID) : Api.SoundID := if s = .errorBadString then .unspecified else s

/-- An instrument with something besides its id and its sound. -/
def Written (i : InstrumentData) : Prop :=
  i.name ≠ [] ∨ i.abbreviation ≠ [] ∨ i.soloOrEnsemble ≠ .unspecified ∨ i.midi.virtualName ≠ [] ∨ i.midi.virtualLibrary ≠ [] ∨ i.midi.device ≠ [] ∨
  0 ≤ i.midi.bank ∨ 0 ≤ i.midi.channel ∨ 0 ≤ i.midi.program ∨ i.midi.volume.isSpecified = true ∨ i.midi.pan.isSpecified = true ∨ i.midi.elevation.isSpecified = true

instance (i : InstrumentData) : Decidable (Written i) := by unfold Written; infer_instance

/-- An instrument with a text of its own. -/
def HasText (i : InstrumentData) : Prop :=
  i.name ≠ [] ∨ i.abbreviation ≠ [] ∨ i.soloOrEnsemble ≠ .unspecified ∨ i.midi.virtualName ≠ [] ∨ i.midi.virtualLibrary ≠ []

instance (i : InstrumentData) : Decidable (HasText i) := by unfold HasText; infer_instance

/-- The id that comes back: the id of the instrument in the form of an XML name; if it is empty then "ID", or "ID" and a new number if there are only MIDI data. -/
def keptInstrumentId (unique : Int) (i : InstrumentData) : Str :=
  if i.uniqueId ≠ [] then xsID i.uniqueId else if HasText i then chars "ID" else chars "ID" ++ showInt unique

/-- What comes back of an instrument: nothing unless it has more than id and sound. -/
def keptInstrument (unique : Int) (i : InstrumentData) : InstrumentData :=
  if Written i then
    { uniqueId := keptInstrumentId unique i, name := i.name, abbreviation := i.abbreviation, sound := keptSound i.sound
      soloOrEnsemble := i.soloOrEnsemble, midi := keptMidi i.midi }
  else {}

/-- What comes back of the head of a part: the abbreviation for display is replaced by the name for display. -/
def keptHead (unique : Int) (p : PartHead) : PartHead :=
  { p with uniqueId := xsID p.uniqueId, displayAbbreviation := if p.displayAbbreviation = [] then [] else p.displayName, instrument := keptInstrument unique p.instrument }

/-- An instrument that has only data that come back. -/
structure PlainInstrument (i : InstrumentData) : Prop where
  written : Written i
  id : i.uniqueId ≠ [] ∧ xsID i.uniqueId = i.uniqueId
  sound : i.sound ≠ .errorBadString
  name : i.midi.name = []
  bank : MidiNumberFits 16384 i.midi.bank
  channel : MidiNumberFits 16 i.midi.channel
  program : MidiNumberFits 128 i.midi.program
  unpitched : i.midi.unpitched = -1
  volume : i.midi.volume = keptNum i.midi.volume
  pan : i.midi.pan = keptNum i.midi.pan
  elevation : i.midi.elevation = keptNum i.midi.elevation

/-- Write the `<score-part>`, then read it. -/
def headBack (unique : Int) (p : PartHead) : Res PartHead := (getScorePart unique p).bind parseScorePart

end Mx.Spec
