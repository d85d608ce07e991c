import Verif.Proofs.Instruments

/-
Property C47: instruments, MIDI data and the names of a part.
-/
open Spec
namespace Mx.Props
open Mx.Spec

/-- A part with all data of an instrument. -/
def samplePart : PartHead :=
  { uniqueId := chars "P1", name := chars "Piano", abbreviation := chars "Pno.", displayName := chars "Grand Piano"
    instrument := { uniqueId := chars "P1-I1", name := chars "Steinway", abbreviation := chars "St.", soloOrEnsemble := .solo, sound := .keyboardPiano
                    midi := { virtualLibrary := chars "General MIDI", virtualName := chars "Piano", device := chars "SmartMusic", bank := 15489, channel := 1, program := 128
                              volume := ⟨true, 80⟩, pan := ⟨true, -359 / 2⟩, elevation := ⟨true, 90⟩ } } }

theorem samplePart_fits : MidiFits samplePart.instrument.midi :=
  ⟨by decide, by decide, by decide, fun _ => ⟨⟨80000000, by norm_num [samplePart]⟩, by norm_num [samplePart], by norm_num [samplePart]⟩,
   fun _ => ⟨⟨-179500000, by norm_num [samplePart]⟩, by norm_num [samplePart], by norm_num [samplePart]⟩,
   fun _ => ⟨⟨90000000, by norm_num [samplePart]⟩, by norm_num [samplePart], by norm_num [samplePart]⟩⟩

/-- **C47** exactly: what comes back of the names, the instrument and the MIDI data of every part (`unique` is the next unused number of the document manager). -/
theorem C47_part_head (unique : Int) (p : PartHead) (h : MidiFits p.instrument.midi) : headBack unique p = .ok (keptHead unique p) := head_back unique p h

example : headBack 1 samplePart = .ok samplePart := by
  rw [C47_part_head 1 samplePart samplePart_fits]
  decide +kernel

/-- **C47** Channel, bank and program that are absent or in the range of MusicXML, volume, pan and elevation come back unchanged. -/
theorem C47_midi (unique : Int) (p : PartHead) (h : MidiFits p.instrument.midi) (hb : MidiNumberFits 16384 p.instrument.midi.bank)
    (hc : MidiNumberFits 16 p.instrument.midi.channel) (hp : MidiNumberFits 128 p.instrument.midi.program) :
    ∃ q, headBack unique p = .ok q ∧ q.instrument.midi.bank = p.instrument.midi.bank ∧ q.instrument.midi.channel = p.instrument.midi.channel ∧
      q.instrument.midi.program = p.instrument.midi.program ∧ q.instrument.midi.volume = keptNum p.instrument.midi.volume ∧
      q.instrument.midi.pan = keptNum p.instrument.midi.pan ∧ q.instrument.midi.elevation = keptNum p.instrument.midi.elevation := by
  have key : ∀ {hi v : Int}, MidiNumberFits hi v → keptMidiNumber hi v = v := by
    intro hi v h
    unfold keptMidiNumber nearestIn
    rcases h with rfl | ⟨h1, h2⟩
    · rfl
    · rw [if_neg (by omega)]; omega
  have key' : ∀ {hi v : Int}, MidiNumberFits hi v → ¬ 0 ≤ v → v = -1 := by
    intro hi v h h0
    rcases h with rfl | ⟨h1, h2⟩
    · rfl
    · omega
  refine ⟨_, C47_part_head unique p h, ?_⟩
  show (keptInstrument unique p.instrument).midi.bank = _ ∧ (keptInstrument unique p.instrument).midi.channel = _ ∧ (keptInstrument unique p.instrument).midi.program = _ ∧
    (keptInstrument unique p.instrument).midi.volume = _ ∧ (keptInstrument unique p.instrument).midi.pan = _ ∧ (keptInstrument unique p.instrument).midi.elevation = _
  unfold keptInstrument
  by_cases hw : Written p.instrument
  · rw [if_pos hw]
    exact ⟨key hb, key hc, key hp, rfl, rfl, rfl⟩
  · rw [if_neg hw]
    unfold Written at hw
    push Not at hw
    obtain ⟨_, _, _, _, _, _, h1, h2, h3, h4, h5, h6⟩ := hw
    exact ⟨(key' hb (by omega)).symm, (key' hc (by omega)).symm, (key' hp (by omega)).symm, (keptNum_none h4).symm, (keptNum_none h5).symm, (keptNum_none h6).symm⟩

example : ∃ q, headBack 1 samplePart = .ok q ∧ q.instrument.midi.bank = 15489 ∧ q.instrument.midi.pan = ⟨true, -359 / 2⟩ := by
  obtain ⟨q, h, h1, _, _, _, h2, _⟩ := C47_midi 1 samplePart samplePart_fits (Or.inr (by decide)) (Or.inr (by decide)) (Or.inr (by decide))
  exact ⟨q, h, h1, h2⟩

/-- **C47** An instrument whose data can all be written comes back unchanged, whatever the rest of the part. -/
theorem C47_instrument_partial (unique : Int) (p : PartHead) (h : MidiFits p.instrument.midi) (hp : PlainInstrument p.instrument) :
    ∃ q, headBack unique p = .ok q ∧ q.instrument = p.instrument := by
  refine ⟨_, C47_part_head unique p h, ?_⟩
  have key : ∀ {hi v : Int}, MidiNumberFits hi v → keptMidiNumber hi v = v := by
    intro hi v h
    unfold keptMidiNumber nearestIn
    rcases h with rfl | ⟨h1, h2⟩
    · rfl
    · rw [if_neg (by omega)]; omega
  show keptInstrument unique p.instrument = _
  rw [keptInstrument, if_pos hp.written, keptInstrumentId, if_pos hp.id.1, hp.id.2, keptSound, if_neg hp.sound, keptMidi, key hp.bank, key hp.channel, key hp.program,
    ← hp.volume, ← hp.pan, ← hp.elevation, ← hp.name, ← hp.unpitched]

example : PlainInstrument samplePart.instrument :=
  ⟨Or.inl (by decide), ⟨by decide, by decide +kernel⟩, by decide, rfl, Or.inr (by decide), Or.inr (by decide), Or.inr (by decide), rfl, rfl, rfl, rfl⟩

/-- **C47** All sounds of the API come back with such an instrument. -/
theorem C47_every_sound (unique : Int) (p : PartHead) (h : MidiFits p.instrument.midi) (hw : Written p.instrument) (hs : p.instrument.sound ≠ .errorBadString) :
    ∃ q, headBack unique p = .ok q ∧ q.instrument.sound = p.instrument.sound := by
  refine ⟨_, C47_part_head unique p h, ?_⟩
  show (keptInstrument unique p.instrument).sound = _
  rw [keptInstrument, if_pos hw]
  exact if_neg hs

/-- **C47** is false for MIDI numbers from 0: the number 0 of each comes back as 1. -/
theorem C47_zero_becomes_one (unique : Int) (p : PartHead) (h : MidiFits p.instrument.midi) (h0 : p.instrument.midi.channel = 0) :
    ∃ q, headBack unique p = .ok q ∧ q.instrument.midi.channel = 1 := by
  refine ⟨_, C47_part_head unique p h, ?_⟩
  show (keptInstrument unique p.instrument).midi.channel = _
  have hw : Written p.instrument := by unfold Written; simp [h0]
  rw [keptInstrument, if_pos hw]
  show keptMidiNumber 16 p.instrument.midi.channel = _
  rw [h0]; rfl

/-- **C47** An instrument with nothing but an id and a sound is lost. -/
theorem C47_sound_alone_lost (unique : Int) (p : PartHead) (id : Str) (s : Api.SoundID) (h : p.instrument = { uniqueId := id, sound := s }) :
    ∃ q, headBack unique p = .ok q ∧ q.instrument = {} := by
  have hf : MidiFits p.instrument.midi := by rw [h]; exact ⟨(by decide : InInt (-1)), (by decide : InInt (-1)), (by decide : InInt (-1)), fun h => (by cases h), fun h => (by cases h), fun h => (by cases h)⟩
  refine ⟨_, C47_part_head unique p hf, ?_⟩
  show keptInstrument unique p.instrument = _
  have hw : ¬ Written p.instrument := by rw [h]; unfold Written; simp
  rw [keptInstrument, if_neg hw]

example : ∃ q, headBack 1 { instrument := { uniqueId := chars "P1-I1", sound := .keyboardPiano } } = .ok q ∧ q.instrument = {} :=
  C47_sound_alone_lost 1 _ (chars "P1-I1") .keyboardPiano rfl

/-- **C47** The MIDI name and the unpitched note are lost. -/
theorem C47_midi_name_lost (unique : Int) (p : PartHead) (h : MidiFits p.instrument.midi) :
    ∃ q, headBack unique p = .ok q ∧ q.instrument.midi.name = [] ∧ q.instrument.midi.unpitched = -1 := by
  refine ⟨_, C47_part_head unique p h, ?_⟩
  show (keptInstrument unique p.instrument).midi.name = _ ∧ (keptInstrument unique p.instrument).midi.unpitched = _
  unfold keptInstrument
  split <;> exact ⟨rfl, rfl⟩

/-- **C47** An instrument with only MIDI data and no id: the id of the `<midi-instrument>` is not the id of the `<score-instrument>` it has to refer to. -/
theorem C47_midi_instrument_id_differs (unique : Int) (p : PartHead) (h : MidiFits p.instrument.midi) (hid : p.instrument.uniqueId = []) (ht : ¬ HasText p.instrument)
    (hm : addsMidiInstrument p.instrument.midi = true) :
    ∃ x s g m, getScorePart unique p = .ok x ∧ x.instruments = [s] ∧ x.midi = [g] ∧ g.instrument = some m ∧ m.id = chars "ID" ∧ s.id = chars "ID" ++ showInt unique ∧ m.id ≠ s.id := by
  have hw : Written p.instrument := (written_iff _).mp (Or.inr (by unfold addsMidi; rw [hm]; simp))
  obtain ⟨s, h1, _⟩ := instrumentSound_back p.instrument.sound
  obtain ⟨x1, a1, _⟩ := volume_back h.volume
  obtain ⟨x2, a2, _⟩ := pan_back h.pan
  obtain ⟨x3, a3, _⟩ := pan_back h.elevation
  have ha : addsMidi p.instrument.midi = true := by unfold addsMidi; rw [hm]; simp
  refine ⟨_, _, _, _, by rw [getScorePart, writeScoreInstruments, if_pos ((written_iff _).mpr hw), makeScoreInstrument, h1, writeMidiGroups, if_pos ha,
    optionalMidiInstrument, if_pos hm, makeMidiInstrument, a1, a2, a3]; rfl, rfl, rfl, rfl, ?_, ?_, ?_⟩
  · show xsID _ = _
    rw [hid]; rfl
  · show scoreInstrumentId _ _ = _
    rw [scoreInstrumentId_eq, keptInstrumentId, if_neg (fun hn => hn hid), if_neg ht]
  · show xsID _ ≠ scoreInstrumentId _ _
    rw [scoreInstrumentId_eq, keptInstrumentId, if_neg (fun hn => hn hid), if_neg ht, hid]
    intro e
    have : (chars "ID").length = (chars "ID" ++ showInt unique).length := congrArg List.length e
    rw [List.length_append] at this
    exact showInt_ne_nil unique (List.length_eq_zero_iff.mp (by omega))

example : ∃ x s g m, getScorePart 1 { instrument := { midi := { channel := 1 } } } = .ok x ∧ x.instruments = [s] ∧ x.midi = [g] ∧ g.instrument = some m ∧
    m.id = chars "ID" ∧ s.id = chars "ID1" ∧ m.id ≠ s.id :=
  C47_midi_instrument_id_differs 1 _ ⟨by decide, by decide, by decide, fun h => (by cases h), fun h => (by cases h), fun h => (by cases h)⟩ rfl (by decide) (by decide)

/-- **C47** The abbreviation for display comes back as the name for display. -/
theorem C47_display_abbreviation_replaced (unique : Int) (p : PartHead) (h : MidiFits p.instrument.midi) (ha : p.displayAbbreviation ≠ []) :
    ∃ q, headBack unique p = .ok q ∧ q.displayName = p.displayName ∧ q.displayAbbreviation = p.displayName :=
  ⟨_, C47_part_head unique p h, rfl, if_neg ha⟩

/-- **C47** A name with a sharp sign is read without it, one with a flat is read with "b". -/
theorem C47_sharp_text_lost (s : Str) : extractDisplayText [.text s, .accidental .sharp] = s ∧ extractDisplayText [.text s, .accidental .flat] = s ++ chars "b" := by
  constructor <;> simp [extractDisplayText, displayItemText]

/-- **C47** A document with an instrument sound that is not one of the standard sounds (the schema allows any text) cannot be read. -/
theorem C47_unknown_sound_throws (x : ScorePartXml) (i : ScoreInstrumentXml) (l : List ScoreInstrumentXml) (hx : x.instruments = i :: l) (hs : i.sound = some (chars "my.sound")) :
    parseScorePart x = .error .throws := by
  rw [parseScorePart, hx, readInstrument, parseScoreInstrument, hs]
  have : readInstrumentSound (some (chars "my.sound")) = .error .throws := by decide +kernel
  rw [this]
  rfl

end Mx.Props
