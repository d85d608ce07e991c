import Verif.Model.Instruments
import Verif.Spec.Decimal
import Verif.Spec.Properties
import Verif.Spec.Tokens

/-
What a `<score-part>` of a document says about the names, the instruments and the sound of a part, whatever the spelling of its numbers (C107).

Only the data types and the texts of instrument sounds are shared with the model.
-/
namespace Spec
open Mx

/-- An instrument of a part.  An empty text is the same as none. -/
structure InstrumentSaid where
  id : Str
  name : Str := []
  abbreviation : Str := []
  sound : Option Str := none
  isEnsemble : Option Bool := none
  virtualLibrary : Str := []
  virtualName : Str := []
deriving DecidableEq

/-- How MIDI plays an instrument: the id of the instrument and the numbers. -/
structure MidiInstrumentSaid where
  id : Str
  name : Str := []
  channel : Option Int := none
  bank : Option Int := none
  program : Option Int := none
  unpitched : Option Int := none
  volume : Option ℚ := none
  pan : Option ℚ := none
  elevation : Option ℚ := none
deriving DecidableEq

/-- A MIDI device with what it plays. -/
structure MidiSaid where
  device : Str := []
  instrument : Option MidiInstrumentSaid := none
deriving DecidableEq

/-- What is shown: characters and accidentals. -/
abbrev Shown := List (Char ⊕ Core.AccidentalValue)

/-- What a part list says about one part. -/
structure PartSaid where
  id : Str
  name : Str
  abbreviation : Str := []
  nameShown : Shown := []
  abbreviationShown : Option Shown := none
  instruments : List InstrumentSaid := []
  midi : List MidiSaid := []
deriving DecidableEq

/-- What the items of a display text show. -/
def shownBy : List DisplayItem → Shown
  | [] => []
  | .text s :: r => s.map .inl ++ shownBy r
  | .accidental a :: r => .inr a :: shownBy r

/-- An integer, or none. -/
def IntegerSays (x : Option Str) (v : Option Int) : Prop := (x = none ∧ v = none) ∨ ∃ t n, x = some t ∧ v = some n ∧ IntegerText t n

/-- A decimal number, or none. -/
def DecimalSays (x : Option Str) (v : Option ℚ) : Prop := (x = none ∧ v = none) ∨ ∃ t n, x = some t ∧ v = some n ∧ DecimalText t n

/-- What a `<score-instrument>` says. -/
def InstrumentSays (x : ScoreInstrumentXml) (a : InstrumentSaid) : Prop :=
  a = { id := x.id, name := x.name, abbreviation := x.abbreviation.getD [], sound := x.sound, isEnsemble := x.isEnsemble, virtualLibrary := x.virtualLibrary.getD [], virtualName := x.virtualName.getD [] }

/-- What a `<midi-instrument>` says. -/
structure MidiInstrumentSays (x : MidiInstrumentXml) (a : MidiInstrumentSaid) : Prop where
  id : a.id = x.id
  name : a.name = x.name.getD []
  channel : IntegerSays x.channel a.channel
  bank : IntegerSays x.bank a.bank
  program : IntegerSays x.program a.program
  unpitched : IntegerSays x.unpitched a.unpitched
  volume : DecimalSays x.volume a.volume
  pan : DecimalSays x.pan a.pan
  elevation : DecimalSays x.elevation a.elevation

/-- What a MIDI device and what follows it say. -/
structure MidiSays (x : MidiGroupXml) (a : MidiSaid) : Prop where
  device : a.device = x.device.getD []
  instrument : (x.instrument = none ∧ a.instrument = none) ∨ ∃ y b, x.instrument = some y ∧ a.instrument = some b ∧ MidiInstrumentSays y b

/-- What a `<score-part>` says. -/
structure PartSays (x : ScorePartXml) (a : PartSaid) : Prop where
  id : a.id = x.id
  name : a.name = x.name
  abbreviation : a.abbreviation = x.abbreviation.getD []
  nameShown : a.nameShown = shownBy (x.nameDisplay.getD [])
  abbreviationShown : a.abbreviationShown = x.abbreviationDisplay.map shownBy
  instruments : List.Forall₂ InstrumentSays x.instruments a.instruments
  midi : List.Forall₂ MidiSays x.midi a.midi

/-- The numbers of MIDI that the program keeps: those of MusicXML. -/
def Between (lo hi : Int) (v : Option Int) : Prop := ∀ n ∈ v, lo ≤ n ∧ n ≤ hi

/-- Decimal numbers with at most six places. -/
def DecimalBetween (lo hi : ℚ) (v : Option ℚ) : Prop := ∀ n ∈ v, lo ≤ n ∧ n ≤ hi ∧ HasDecimals 6 n

/-- The MIDI data of the instrument with this id that the program keeps: all but the MIDI name and the unpitched note, and there must be something. -/
structure MidiInstrumentKept (id : Str) (a : MidiInstrumentSaid) : Prop where
  id : a.id = id
  name : a.name = []
  unpitched : a.unpitched = none
  channel : Between 1 16 a.channel
  bank : Between 1 16384 a.bank
  program : Between 1 128 a.program
  volume : DecimalBetween 0 100 a.volume
  pan : DecimalBetween (-180) 180 a.pan
  elevation : DecimalBetween (-180) 180 a.elevation
  something : a.channel ≠ none ∨ a.bank ≠ none ∨ a.program ≠ none ∨ a.volume ≠ none ∨ a.pan ≠ none ∨ a.elevation ≠ none

/-- An instrument that has a text, or is a soloist or an ensemble. -/
def InstrumentSaid.hasText (a : InstrumentSaid) : Prop := a.name ≠ [] ∨ a.abbreviation ≠ [] ∨ a.isEnsemble ≠ none ∨ a.virtualName ≠ [] ∨ a.virtualLibrary ≠ []

/-- What the program keeps of a part: one instrument with a legal id and a sound of the standard list, and one MIDI device or MIDI instrument for it; names that show no accidentals; and an abbreviation is only shown
as the name is. -/
structure PartKept (a : PartSaid) : Prop where
  id : NCName a.id
  nameShown : ∃ s : Str, a.nameShown = s.map .inl
  abbreviationShown : a.abbreviationShown = none ∨ (a.abbreviationShown = some a.nameShown ∧ a.nameShown ≠ [])
  instruments : (a.instruments = [] ∧ a.midi = []) ∨
    ∃ i, a.instruments = [i] ∧ NCName i.id ∧ (∀ s ∈ i.sound, ∃ c, (c, s) ∈ playbackSoundMembers) ∧
      ((a.midi = [] ∧ i.hasText) ∨ ∃ m, a.midi = [m] ∧ (m.device ≠ [] ∨ m.instrument ≠ none) ∧ ∀ n ∈ m.instrument, MidiInstrumentKept i.id n)

end Spec
