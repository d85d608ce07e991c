import Verif.Spec.Instruments
import Verif.Proofs.Notations
import Verif.Proofs.Sounds
import Verif.Props.StringProps
import Verif.Props.IntegerProps

open Spec
namespace Mx
open Mx.Spec

theorem textOrNone_back (s : Str) : (textOrNone s).getD [] = s := by
  unfold textOrNone
  cases s with
  | nil => rfl
  | cons a l => rfl

theorem length_pos_iff_ne {s : Str} : (s.length > 0) ↔ s ≠ [] := List.length_pos_iff

theorem ofKind_value_bounds (k : IntKind) (hk : k.bounds.1 ≤ k.bounds.2) (v : Int) : (IntRange.ofKind k v).value = nearestIn k.bounds.1 k.bounds.2 v := by
  show clampInt k.bounds.1 k.bounds.2 v = _
  unfold clampInt nearestIn
  split
  · omega
  · split <;> omega

theorem parseBounded_write {k : IntKind} {v : Int} (h : InInt v) (hk : k.bounds.1 ≤ k.bounds.2) :
    parseBounded k (IntRange.ofKind k v).toStr = nearestIn k.bounds.1 k.bounds.2 v := by
  rw [parseBounded, IntRange.default, Props.C17_int_round_trip k v _ h]
  exact ofKind_value_bounds k hk v

theorem midi_back {k : IntKind} {hi v : Int} (h : InInt v) (h1 : k.bounds = (1, hi)) (hhi : 1 ≤ hi) : readMidi k (-1) (writeMidi k v) = keptMidiNumber hi v := by
  unfold writeMidi keptMidiNumber
  by_cases hv : v < 0
  · rw [if_neg (by omega), if_pos hv]; rfl
  · rw [if_pos (by omega), if_neg hv]
    show parseBounded k _ = _
    rw [parseBounded_write h (by rw [h1]; exact hhi), h1]

theorem instrumentSound_back (s : Api.SoundID) : ∃ x, writeInstrumentSound s = .ok x ∧ readInstrumentSound x = .ok (keptSound s) := by
  unfold writeInstrumentSound keptSound
  by_cases h : s ≠ .unspecified ∧ s ≠ .errorBadString
  · rw [if_pos h, if_neg h.2]
    obtain ⟨t, ht, _⟩ := sound_text (instrumentMap.toCore s)
    refine ⟨some t, by rw [ht]; rfl, ?_⟩
    rw [readInstrumentSound, sound_parse.mpr ht]
    show Except.ok _ = _
    rw [sound_toCore h.1 h.2]
  · rw [if_neg h]
    refine ⟨none, rfl, ?_⟩
    show Except.ok _ = _
    by_cases h2 : s = .errorBadString
    · rw [if_pos h2]
    · rw [if_neg h2]
      by_cases h1 : s = .unspecified
      · rw [h1]
      · exact absurd ⟨h1, h2⟩ h

theorem ensemble_back (s : Api.SoloOrEnsemble) : readEnsemble (writeEnsemble s) = s := by cases s <;> rfl

theorem degrees_fit {lo hi : ℚ} {n : MaybeNum} (hl : -180 ≤ lo) (hh : hi ≤ 180) (h : DegreesFit lo hi n) : NumFits n := by
  intro hs
  obtain ⟨h1, h2, h3⟩ := h hs
  refine ⟨h1, abs_le.mpr ⟨?_, ?_⟩⟩
  · exact le_trans (by norm_num) (le_trans hl h2)
  · exact le_trans h3 (le_trans hh (by norm_num))

theorem volume_back {n : MaybeNum} (h : DegreesFit 0 100 n) : ∃ x, writeNum .Percent n = some x ∧ readNum .Percent x = some (keptNum n) :=
  num_back_at (k := .Percent) (fun hs => (h hs).2) (degrees_fit (by norm_num) (by norm_num) h)

theorem pan_back {n : MaybeNum} (h : DegreesFit (-180) 180 n) : ∃ x, writeNum .RotationDegrees n = some x ∧ readNum .RotationDegrees x = some (keptNum n) :=
  num_back_at (k := .RotationDegrees) (fun hs => (h hs).2) (degrees_fit (by norm_num) (by norm_num) h)

theorem newId_legal (n : Int) : xsID (chars "ID" ++ showInt n) = chars "ID" ++ showInt n := by
  refine Props.C27_legal_names_kept _ ⟨'I', 'D' :: showInt n, rfl, Or.inl (by decide), ?_⟩
  intro x hx
  rcases List.mem_cons.mp hx with rfl | hx
  · exact Or.inl (by decide)
  · have hd : ∀ c ∈ Nat.toDigits 10 n.natAbs, Digit c := fun c hc => isDigit_iff.mp (toDigits_isDigit c hc)
    unfold showInt at hx
    split at hx
    · rcases List.mem_cons.mp hx with rfl | hx
      · exact Or.inr (Or.inr (Or.inr (Or.inl rfl)))
      · exact Or.inr (Or.inr (Or.inl (hd x hx)))
    · exact Or.inr (Or.inr (Or.inl (hd x hx)))

theorem addsScoreInstrument_iff (i : InstrumentData) : addsScoreInstrument i = true ↔ HasText i := by
  unfold addsScoreInstrument HasText
  simp only [decide_eq_true_eq, length_pos_iff_ne]

theorem written_iff (i : InstrumentData) : (addsScoreInstrument i = true ∨ addsMidi i.midi = true) ↔ Written i := by
  rw [addsScoreInstrument_iff]
  unfold HasText Written addsMidi addsMidiInstrument
  simp only [decide_eq_true_eq, length_pos_iff_ne, ge_iff_le]
  tauto

theorem scoreInstrumentId_eq (unique : Int) (i : InstrumentData) : scoreInstrumentId unique i = keptInstrumentId unique i := by
  unfold scoreInstrumentId keptInstrumentId
  by_cases hu : i.uniqueId = []
  · have hn : ¬ i.uniqueId ≠ [] := fun h => h hu
    rw [if_neg hn]
    by_cases ht : HasText i
    · rw [if_pos ((addsScoreInstrument_iff i).mpr ht), if_pos ht, hu]; rfl
    · rw [if_neg (fun h => ht ((addsScoreInstrument_iff i).mp h)), if_neg ht, hu, if_pos (show ([] : Str).length = 0 from rfl)]
      exact newId_legal unique
  · rw [if_pos hu]
    have : ¬ i.uniqueId.length = 0 := fun h => hu (List.length_eq_zero_iff.mp h)
    rw [if_neg this, ite_self]

/-- What the reader has after the `<score-instrument>` element. -/
def textsBack (unique : Int) (i : InstrumentData) : InstrumentData :=
  { uniqueId := keptInstrumentId unique i, name := i.name, abbreviation := i.abbreviation, sound := keptSound i.sound
    soloOrEnsemble := i.soloOrEnsemble, midi := { virtualName := i.midi.virtualName, virtualLibrary := i.midi.virtualLibrary } }

theorem scoreInstrument_back (unique : Int) (i : InstrumentData) (h : Written i) :
    ∃ x, writeScoreInstruments unique i = .ok x ∧ readInstrument x = .ok (textsBack unique i) := by
  obtain ⟨s, h1, h2⟩ := instrumentSound_back i.sound
  refine ⟨_, by rw [writeScoreInstruments, if_pos ((written_iff i).mpr h), makeScoreInstrument, h1]; rfl, ?_⟩
  rw [readInstrument, parseScoreInstrument]
  simp only
  rw [h2]
  show Except.ok _ = _
  simp only [textOrNone_back, ensemble_back, scoreInstrumentId_eq]
  rfl

theorem scoreInstrument_none (unique : Int) (i : InstrumentData) (h : ¬ Written i) : writeScoreInstruments unique i = .ok [] := by
  rw [writeScoreInstruments, if_neg (fun e => h ((written_iff i).mp e))]

theorem midiInstrument_back {i : InstrumentData} (h : MidiFits i.midi) (m : MidiData) (hb : m.bank = -1) (hc : m.channel = -1) (hp : m.program = -1) :
    ∃ x, makeMidiInstrument i = some x ∧ parseMidiInstrument x m = some
      { m with bank := keptMidiNumber 16384 i.midi.bank, channel := keptMidiNumber 16 i.midi.channel, program := keptMidiNumber 128 i.midi.program
               volume := keptNum i.midi.volume, pan := keptNum i.midi.pan, elevation := keptNum i.midi.elevation } := by
  obtain ⟨x1, a1, b1⟩ := volume_back h.volume
  obtain ⟨x2, a2, b2⟩ := pan_back h.pan
  obtain ⟨x3, a3, b3⟩ := pan_back h.elevation
  refine ⟨_, by rw [makeMidiInstrument, a1, a2, a3]; rfl, ?_⟩
  rw [parseMidiInstrument]
  simp only
  rw [b1, b2, b3, hb, hc, hp, midi_back h.bank rfl (by decide), midi_back h.channel rfl (by decide), midi_back h.program rfl (by decide)]
  rfl

theorem keptMidiNumber_neg {hi v : Int} (h : ¬ 0 ≤ v) : keptMidiNumber hi v = -1 := if_pos (by omega)

theorem keptNum_none {n : MaybeNum} (h : ¬ n.isSpecified = true) : keptNum n = {} := if_neg h

theorem not_addsMidiInstrument {m : MidiData} (h : ¬ addsMidiInstrument m = true) :
    keptMidiNumber 16384 m.bank = -1 ∧ keptMidiNumber 16 m.channel = -1 ∧ keptMidiNumber 128 m.program = -1 ∧
    keptNum m.volume = {} ∧ keptNum m.pan = {} ∧ keptNum m.elevation = {} := by
  unfold addsMidiInstrument at h
  rw [decide_eq_true_eq] at h
  push Not at h
  obtain ⟨h1, h2, h3, h4, h5, h6⟩ := h
  exact ⟨keptMidiNumber_neg (by omega), keptMidiNumber_neg (by omega), keptMidiNumber_neg (by omega), keptNum_none h6, keptNum_none h5, keptNum_none h4⟩

theorem midiGroups_back {i : InstrumentData} (h : MidiFits i.midi) (t : InstrumentData)
    (ht : t.midi = { virtualName := i.midi.virtualName, virtualLibrary := i.midi.virtualLibrary }) :
    ∃ x, writeMidiGroups i = .ok x ∧ readMidiGroups t x = .ok { t with midi := keptMidi i.midi } := by
  unfold writeMidiGroups
  by_cases ha : addsMidi i.midi = true
  · rw [if_pos ha]
    unfold optionalMidiInstrument
    by_cases hm : addsMidiInstrument i.midi = true
    · rw [if_pos hm]
      obtain ⟨x, h1, h2⟩ := midiInstrument_back h { t.midi with device := (textOrNone i.midi.device).getD t.midi.device } (by rw [ht]) (by rw [ht]) (by rw [ht])
      refine ⟨_, by rw [h1]; rfl, ?_⟩
      show Except.map _ (orUndefined (parseMidiInstrument x { t.midi with device := (textOrNone i.midi.device).getD t.midi.device })) = _
      rw [h2]
      show Except.ok _ = _
      rw [ht]
      simp only [textOrNone_back]
      rfl
    · rw [if_neg hm]
      refine ⟨_, rfl, ?_⟩
      show Except.ok { t with midi := { t.midi with device := (textOrNone i.midi.device).getD t.midi.device } } = _
      obtain ⟨h1, h2, h3, h4, h5, h6⟩ := not_addsMidiInstrument hm
      rw [ht, keptMidi, h1, h2, h3, h4, h5, h6]
      simp only [textOrNone_back]
  · rw [if_neg ha]
    refine ⟨[], rfl, ?_⟩
    unfold addsMidi at ha
    rw [decide_eq_true_eq] at ha
    push Not at ha
    obtain ⟨h1, h2, h3, h4, h5, h6⟩ := not_addsMidiInstrument ha.2
    have hd : i.midi.device = [] := by
      cases hd : i.midi.device with
      | nil => rfl
      | cons a l => rw [hd] at ha; exact absurd ha.1 (by simp)
    show Except.ok t = _
    rw [keptMidi, h1, h2, h3, h4, h5, h6, hd, ← ht]

theorem midiGroups_none {i : InstrumentData} (h : ¬ Written i) : writeMidiGroups i = .ok [] := by
  rw [writeMidiGroups, if_neg (fun e => h ((written_iff i).mp (Or.inr e)))]

theorem display_back (s : Str) : ((writeDisplay s).map extractDisplayText).getD [] = s := by
  cases s with
  | nil => rfl
  | cons a l => show ((a :: l) ++ []) = _; rw [List.append_nil]

theorem display_read (s : Str) : extractDisplayText ((writeDisplay s).getD []) = s := by
  cases s with
  | nil => rfl
  | cons a l => show ((a :: l) ++ []) = _; rw [List.append_nil]

theorem displayAbbreviation_back {x : ScorePartXml} {p : PartHead} (h1 : x.nameDisplay = writeDisplay p.displayName)
    (h2 : x.abbreviationDisplay = writeDisplay p.displayAbbreviation) :
    readDisplayAbbreviation x = if p.displayAbbreviation = [] then [] else p.displayName := by
  rw [readDisplayAbbreviation, h1, h2, display_read]
  cases h : p.displayAbbreviation with
  | nil => rfl
  | cons a l => rfl

theorem head_back (unique : Int) (p : PartHead) (h : MidiFits p.instrument.midi) : headBack unique p = .ok (keptHead unique p) := by
  unfold headBack
  by_cases hw : Written p.instrument
  · obtain ⟨x, a1, b1⟩ := scoreInstrument_back unique p.instrument hw
    obtain ⟨y, a2, b2⟩ := midiGroups_back h (textsBack unique p.instrument) rfl
    have e : getScorePart unique p = .ok { id := xsID p.uniqueId, name := p.name, abbreviation := textOrNone p.abbreviation, nameDisplay := writeDisplay p.displayName
                                           abbreviationDisplay := writeDisplay p.displayAbbreviation, instruments := x, midi := y } := by
      rw [getScorePart, a1, a2]; rfl
    rw [e]
    show parseScorePart _ = _
    rw [parseScorePart]
    simp only
    rw [b1]
    show (readMidiGroups (textsBack unique p.instrument) y).bind _ = _
    rw [b2]
    show Except.ok _ = _
    rw [displayAbbreviation_back (p := p) rfl rfl, display_back, textOrNone_back, keptHead, keptInstrument, if_pos hw]
    rfl
  · have e : getScorePart unique p = .ok { id := xsID p.uniqueId, name := p.name, abbreviation := textOrNone p.abbreviation, nameDisplay := writeDisplay p.displayName
                                           abbreviationDisplay := writeDisplay p.displayAbbreviation, instruments := [], midi := [] } := by
      rw [getScorePart, scoreInstrument_none unique _ hw, midiGroups_none hw]; rfl
    rw [e]
    show Except.ok _ = _
    rw [displayAbbreviation_back (p := p) rfl rfl, display_back, textOrNone_back, keptHead, keptInstrument, if_neg hw]

end Mx
