import Verif.Model.ScorePartThrough
import Verif.Spec.ScorePartSaid
import Verif.Proofs.Instruments
import Verif.Proofs.NoteKept
import Verif.Proofs.DirectionSaid

/-! Lemmas for `Verif/Props/ScorePartFileProps.lean`. -/
namespace Mx
open _root_.Spec

theorem text_kept (s : Str) : (textOrNone s).getD [] = s := textOrNone_back s

/-! ### Numbers -/

theorem decimal_range_says {k : DecimalKind} {v : ℚ} (hk : InRange k v) (h6 : HasDecimals 6 v) (hv : |v| ≤ 9999999999999999999) :
    ∃ s, (DecimalRange.make k v).map DecimalRange.toStr = some s ∧ DecimalText s v := by
  have hlt : |v| < 10 ^ PreciseDecimal.clampDigits 19 := lt_of_le_of_lt hv (by show (9999999999999999999 : ℚ) < 10 ^ 19; norm_num)
  obtain ⟨p, w, h1, h2, _, _, h3⟩ := Props.C19_text_is_nearest 19 6 v hlt
  obtain ⟨n, hn⟩ := h6
  have hw := h3 n (by show v * 10 ^ 6 = n; exact hn)
  refine ⟨p.toStr, ?_, by rw [← hw]; exact CanonicalDecimal.text h2⟩
  unfold DecimalRange.make
  rw [show DecimalKind.minClamp k (DecimalKind.maxClamp k v) = v from (Props.clamp_eq k v).1 hk, h1]
  rfl

theorem decimal_range_parse {k : DecimalKind} {s : Str} {v : ℚ} (h : DecimalText s v) (hk : InRange k v) (h6 : HasDecimals 6 v) (hv : |v| ≤ 9999999999999999999) :
    ((DecimalRange.make k 0).bind (fun d => d.parse s)).map (fun r => r.2.getValue) = some v := by
  obtain ⟨d0, h0⟩ : ∃ d0, DecimalRange.make k 0 = some d0 := Option.isSome_iff_exists.mp (by cases k <;> decide +kernel)
  have h64 : |v| < 2 ^ 16384 := lt_of_le_of_lt hv (lt_of_lt_of_le (by norm_num : (9999999999999999999 : ℚ) < 2 ^ 64) (pow_le_pow_right₀ (by norm_num) (by norm_num)))
  obtain ⟨n, hn⟩ := h6
  obtain ⟨d', e1, e2⟩ := Props.C18_kept k 0 v [] d0 d0 h0 rfl hk (lt_of_le_of_lt hv (by norm_num)) n hn
  rw [h0]
  show ((d0.parse s).map _) = _
  rw [(Props.C51_parse_accepts_numerals d0 s).1 _ h h64, e1]
  show some d'.getValue = _
  rw [e2]

/-- A number of the API. -/
def numOf (v : Option ℚ) : MaybeNum := match v with | none => {} | some n => { isSpecified := true, value := n }

theorem num_said {k : DecimalKind} {lo hi : ℚ} (hk : ∀ v, lo ≤ v → v ≤ hi → InRange k v) (hl : -180 ≤ lo) (hh : hi ≤ 180) {x : Option Str} {v : Option ℚ} (hs : DecimalSays x v) (hb : DecimalBetween lo hi v) :
    readNum k x = some (numOf v) ∧ ∃ y, writeNum k (numOf v) = some y ∧ DecimalSays y v := by
  rcases hs with ⟨rfl, rfl⟩ | ⟨t, n, rfl, rfl, ht⟩
  · exact ⟨rfl, none, rfl, .inl ⟨rfl, rfl⟩⟩
  · obtain ⟨b1, b2, b3⟩ := hb n rfl
    have habs : |n| ≤ 9999999999999999999 := abs_le.mpr ⟨le_trans (by norm_num) (le_trans hl b1), le_trans b2 (le_trans hh (by norm_num))⟩
    have hr := hk n b1 b2
    obtain ⟨s, s1, s2⟩ := decimal_range_says hr b3 habs
    refine ⟨?_, some s, ?_, .inr ⟨s, n, rfl, rfl, s2⟩⟩
    · rw [readNum, decimal_range_parse ht hr b3 habs]; rfl
    · rw [writeNum, if_pos (show (numOf (some n)).isSpecified = true from rfl)]
      show ((DecimalRange.make k n).map _).map _ = _
      rw [s1]; rfl

theorem midi_said {k : IntKind} {hi : Int} (hk : k.bounds = (1, hi)) (hh : hi ≤ INT_MAX) {x : Option Str} {v : Option Int} (hs : IntegerSays x v) (hb : Between 1 hi v) :
    readMidi k (-1) x = v.getD (-1) ∧ IntegerSays (writeMidi k (v.getD (-1))) v := by
  rcases hs with ⟨rfl, rfl⟩ | ⟨t, n, rfl, rfl, ht⟩
  · exact ⟨rfl, .inl ⟨rfl, rfl⟩⟩
  · obtain ⟨b1, b2⟩ := hb n rfl
    have hkn : k.bounds.1 ≤ n ∧ n ≤ k.bounds.2 := by rw [hk]; exact ⟨b1, b2⟩
    refine ⟨parseBounded_numeral ht ⟨le_trans (by decide) b1, le_trans b2 hh⟩ hkn, .inr ⟨_, n, if_pos ?_, rfl, bounded_says hkn⟩⟩
    show n ≥ 0
    omega

/-! ### Texts that are shown -/

theorem shown_text (s : Str) : shownBy [.text s] = s.map .inl := by rw [shownBy, shownBy, List.append_nil]

theorem shown_read {items : List DisplayItem} : ∀ {s : Str}, shownBy items = s.map .inl → extractDisplayText items = s := by
  induction items with
  | nil =>
    intro s h
    cases s with
    | nil => rfl
    | cons c s => cases h
  | cons i items ih =>
    intro s h
    cases i with
    | text t =>
      rw [shownBy] at h
      obtain ⟨a, b, rfl, h1, h2⟩ := List.map_eq_append_iff.mp h.symm
      have ha : a = t := List.map_injective_iff.mpr (fun _ _ e => Sum.inl.inj e) h1
      subst ha
      show a ++ extractDisplayText items = _
      rw [ih h2.symm]
    | accidental a =>
      rw [shownBy] at h
      cases s with
      | nil => cases h
      | cons c s => cases h

theorem shown_written (s : Str) : shownBy ((writeDisplay s).getD []) = s.map .inl := by
  cases s with
  | nil => rfl
  | cons c s => exact shown_text _

/-! ### Instruments -/

theorem instrumentSound_said {x : Option Str} (h : ∀ s ∈ x, ∃ c, (c, s) ∈ playbackSoundMembers) : ∃ i, readInstrumentSound x = .ok i ∧ writeInstrumentSound i = .ok x := by
  cases x with
  | none => exact ⟨_, rfl, rfl⟩
  | some s =>
    obtain ⟨c, hc⟩ := h s rfl
    have hp : playbackSoundToString c = .ok s := by
      unfold playbackSoundToString
      rw [mapFind_of_mem (by rw [sounds_order]; exact sounds_nodup) hc]
    obtain ⟨h1, h2, h3⟩ := sound_toApi c
    refine ⟨instrumentMap.toApi c, by rw [readInstrumentSound, sound_parse.mpr hp]; rfl, ?_⟩
    rw [writeInstrumentSound, if_pos ⟨h2, h3⟩, h1, hp]
    rfl

theorem sound_listed {c : Core.PlaybackSound} {s : Str} (h : playbackSoundToString c = .ok s) : (c, s) ∈ playbackSoundMembers := by
  obtain ⟨t, ht, hm⟩ := sound_text c
  rw [ht] at h
  cases h
  exact hm

theorem ensemble_said (x : Option Bool) : writeEnsemble (readEnsemble x) = x := by
  rcases x with _ | _ | _ <;> decide

/-- The MIDI data of the API. -/
def midiOf (i : InstrumentSaid) (l : List MidiSaid) : MidiData :=
  match l with
  | [] => { virtualName := i.virtualName, virtualLibrary := i.virtualLibrary }
  | m :: _ =>
    match m.instrument with
    | none => { virtualName := i.virtualName, virtualLibrary := i.virtualLibrary, device := m.device }
    | some n =>
      { virtualName := i.virtualName, virtualLibrary := i.virtualLibrary, device := m.device, channel := n.channel.getD (-1), bank := n.bank.getD (-1), program := n.program.getD (-1)
        volume := numOf n.volume, pan := numOf n.pan, elevation := numOf n.elevation }

/-- The instrument of the API, but for its sound. -/
def instrumentOf (sound : Api.SoundID) (i : InstrumentSaid) (l : List MidiSaid) : InstrumentData :=
  { uniqueId := i.id, name := i.name, abbreviation := i.abbreviation, sound := sound, soloOrEnsemble := readEnsemble i.isEnsemble, midi := midiOf i l }

theorem instruments_read {xs : List ScoreInstrumentXml} {i : InstrumentSaid} (hs : List.Forall₂ InstrumentSays xs [i]) {sound : Api.SoundID} (h : readInstrumentSound i.sound = .ok sound) :
    readInstrument xs = .ok (instrumentOf sound i []) := by
  cases hs with
  | cons h1 h2 =>
    cases h2
    rename_i x
    have h1 : i = _ := h1
    have hsnd : i.sound = x.sound := by rw [h1]
    rw [readInstrument, parseScoreInstrument, ← hsnd, h, h1]
    rfl

theorem midi_read {x : MidiGroupXml} {m : MidiSaid} (hs : MidiSays x m) {i : InstrumentSaid} (hk : ∀ n ∈ m.instrument, MidiInstrumentKept i.id n) (sound : Api.SoundID) :
    readMidiGroups (instrumentOf sound i []) [x] = .ok (instrumentOf sound i [m]) := by
  obtain ⟨dev, ins⟩ := x
  obtain ⟨dev', ins'⟩ := m
  obtain ⟨s1, s2⟩ := hs
  simp only at s1 s2
  subst s1
  rcases s2 with ⟨rfl, rfl⟩ | ⟨y, b, rfl, rfl, hb⟩
  · rfl
  · have hk := hk b rfl
    rw [readMidiGroups]
    show (orUndefined (parseMidiInstrument y { (midiOf i []) with device := dev.getD [] })).map _ = _
    rw [parseMidiInstrument, (num_said (k := .Percent) (fun _ a c => ⟨a, c⟩) (by norm_num) (by norm_num) hb.volume hk.volume).1,
      (num_said (k := .RotationDegrees) (fun _ a c => ⟨a, c⟩) (by norm_num) (by norm_num) hb.pan hk.pan).1,
      (num_said (k := .RotationDegrees) (fun _ a c => ⟨a, c⟩) (by norm_num) (by norm_num) hb.elevation hk.elevation).1]
    have e1 := (midi_said (k := .Midi16) rfl (by decide) hb.channel hk.channel).1
    have e2 := (midi_said (k := .Midi16384) rfl (by decide) hb.bank hk.bank).1
    have e3 := (midi_said (k := .Midi128) rfl (by decide) hb.program hk.program).1
    have e4 : y.unpitched = none := by
      rcases hb.unpitched with ⟨e, _⟩ | ⟨_, _, _, e, _⟩
      · exact e
      · rw [hk.unpitched] at e; cases e
    have e5 : y.name.getD [] = [] := by rw [← hb.name, hk.name]
    show Except.ok { instrumentOf sound i [] with midi := { (midiOf i []) with device := dev.getD [], channel := readMidi .Midi16 (-1) y.channel, name := y.name.getD [], bank := readMidi .Midi16384 (-1) y.bank, program := readMidi .Midi128 (-1) y.program, unpitched := readMidi .Midi128 (-1) y.unpitched, volume := numOf b.volume, pan := numOf b.pan, elevation := numOf b.elevation } } = _
    rw [e1, e2, e3, e4, e5]
    rfl

theorem midi_nonneg {hi : Int} {v : Option Int} (h : Between 1 hi v) : 0 ≤ v.getD (-1) ↔ v ≠ none := by
  cases v with
  | none => simp
  | some n => have := h n rfl; simp only [Option.getD_some, ne_eq, reduceCtorEq, not_false_eq_true, iff_true]; omega

theorem numOf_specified (v : Option ℚ) : (numOf v).isSpecified = true ↔ v ≠ none := by cases v <;> simp [numOf]

theorem adds_midi {i : InstrumentSaid} {m : MidiSaid} {n : MidiInstrumentSaid} (hm : m.instrument = some n) (hk : MidiInstrumentKept i.id n) : addsMidiInstrument (midiOf i [m]) = true := by
  unfold addsMidiInstrument midiOf
  simp only [hm, decide_eq_true_eq, ge_iff_le]
  rw [midi_nonneg hk.channel, midi_nonneg hk.bank, midi_nonneg hk.program, numOf_specified, numOf_specified, numOf_specified]
  have := hk.something
  tauto

theorem midi_written {i : InstrumentSaid} {m : MidiSaid} {x : MidiGroupXml} (hx : MidiSays x m) (h : m.device ≠ [] ∨ m.instrument ≠ none) (hid : NCName i.id) (hk : ∀ n ∈ m.instrument, MidiInstrumentKept i.id n) (sound : Api.SoundID) :
    addsMidi (midiOf i [m]) = true ∧ ∃ y, writeMidiGroups (instrumentOf sound i [m]) = .ok [y] ∧ MidiSays y m := by
  have hdev : (midiOf i [m]).device = m.device := by
    unfold midiOf
    cases h : m.instrument <;> simp only [h]
  have hadd : addsMidi (midiOf i [m]) = true := by
    unfold addsMidi
    rw [decide_eq_true_eq, length_pos_iff_ne, hdev]
    rcases h with h | h
    · exact .inl h
    · obtain ⟨n, hn⟩ := Option.ne_none_iff_exists'.mp h
      exact .inr (adds_midi hn (hk n hn))
  refine ⟨hadd, ?_⟩
  have hadd' : addsMidi (instrumentOf sound i [m]).midi = true := hadd
  rw [writeMidiGroups, if_pos hadd', optionalMidiInstrument]
  cases hn : m.instrument with
  | none =>
    have hno : ¬ addsMidiInstrument (instrumentOf sound i [m]).midi = true := by
      show ¬ addsMidiInstrument (midiOf i [m]) = true
      unfold addsMidiInstrument midiOf
      simp only [hn]
      decide
    rw [if_neg hno]
    refine ⟨_, rfl, ?_, .inl ⟨rfl, hn⟩⟩
    show m.device = (textOrNone (midiOf i [m]).device).getD []
    rw [text_kept, hdev]
  | some n =>
    have hkn := hk n hn
    have hb : ∃ y, MidiInstrumentSays y n := by
      rcases hx.instrument with ⟨_, e⟩ | ⟨y, b, _, e, hb⟩
      · rw [hn] at e; cases e
      · rw [hn] at e; cases e; exact ⟨y, hb⟩
    obtain ⟨z, hb⟩ := hb
    have hadd2 : addsMidiInstrument (instrumentOf sound i [m]).midi = true := adds_midi hn hkn
    rw [if_pos hadd2]
    have hmid : (instrumentOf sound i [m]).midi = { virtualName := i.virtualName, virtualLibrary := i.virtualLibrary, device := m.device, channel := n.channel.getD (-1), bank := n.bank.getD (-1), program := n.program.getD (-1), volume := numOf n.volume, pan := numOf n.pan, elevation := numOf n.elevation } := by
      show midiOf i [m] = _
      unfold midiOf
      simp only [hn]
    obtain ⟨v, v1, v2⟩ := (num_said (k := .Percent) (fun _ a c => ⟨a, c⟩) (by norm_num) (by norm_num) hb.volume hkn.volume).2
    obtain ⟨p, p1, p2⟩ := (num_said (k := .RotationDegrees) (fun _ a c => ⟨a, c⟩) (by norm_num) (by norm_num) hb.pan hkn.pan).2
    obtain ⟨e, e1, e2⟩ := (num_said (k := .RotationDegrees) (fun _ a c => ⟨a, c⟩) (by norm_num) (by norm_num) hb.elevation hkn.elevation).2
    rw [makeMidiInstrument, hmid]
    simp only [v1, p1, e1, Option.bind_eq_bind, Option.bind_some, Option.pure_def, Option.map_some]
    refine ⟨_, rfl, ?_, .inr ⟨_, n, rfl, hn, ?_⟩⟩
    · show m.device = (textOrNone m.device).getD []
      rw [text_kept]
    · refine { id := ?_, name := hkn.name, channel := (midi_said (k := .Midi16) rfl (by decide) hb.channel hkn.channel).2, bank := (midi_said (k := .Midi16384) rfl (by decide) hb.bank hkn.bank).2
               program := (midi_said (k := .Midi128) rfl (by decide) hb.program hkn.program).2, unpitched := .inl ⟨rfl, hkn.unpitched⟩, volume := v2, pan := p2, elevation := e2 }
      show n.id = xsID i.id
      rw [hkn.id, Props.C27_legal_names_kept _ hid]

theorem instrument_written (unique : Int) {i : InstrumentSaid} (l : List MidiSaid) {sound : Api.SoundID} (hw : writeInstrumentSound sound = .ok i.sound) (hid : NCName i.id)
    (h : i.hasText ∨ addsMidi (midiOf i l) = true) : ∃ y, writeScoreInstruments unique (instrumentOf sound i l) = .ok [y] ∧ InstrumentSays y i := by
  have hv : (midiOf i l).virtualName = i.virtualName ∧ (midiOf i l).virtualLibrary = i.virtualLibrary := by
    unfold midiOf
    cases l with
    | nil => exact ⟨rfl, rfl⟩
    | cons m l => cases h : m.instrument <;> simp only [h, and_self]
  have hadd : addsScoreInstrument (instrumentOf sound i l) = true ∨ addsMidi (instrumentOf sound i l).midi = true := by
    rcases h with h | h
    · left
      rw [addsScoreInstrument_iff]
      rcases h with h | h | h | h | h
      · exact .inl h
      · exact .inr (.inl h)
      · refine .inr (.inr (.inl ?_))
        show readEnsemble i.isEnsemble ≠ _
        obtain ⟨b, hb⟩ := Option.ne_none_iff_exists'.mp h
        rw [hb]
        cases b <;> decide
      · exact .inr (.inr (.inr (.inl (by show (midiOf i l).virtualName ≠ []; rw [hv.1]; exact h))))
      · exact .inr (.inr (.inr (.inr (by show (midiOf i l).virtualLibrary ≠ []; rw [hv.2]; exact h))))
    · exact .inr h
  have hne : i.id ≠ [] := by obtain ⟨c, t, e, _⟩ := hid; rw [e]; exact List.cons_ne_nil _ _
  have hsid : scoreInstrumentId unique (instrumentOf sound i l) = i.id := by
    rw [scoreInstrumentId_eq, Mx.Spec.keptInstrumentId, if_pos (show (instrumentOf sound i l).uniqueId ≠ [] from hne)]
    exact Props.C27_legal_names_kept _ hid
  refine ⟨_, by rw [writeScoreInstruments, if_pos hadd, makeScoreInstrument, show (instrumentOf sound i l).sound = sound from rfl, hw]; rfl, ?_⟩
  unfold InstrumentSays
  show i = { id := scoreInstrumentId unique (instrumentOf sound i l), name := i.name, abbreviation := (textOrNone i.abbreviation).getD [], sound := i.sound, isEnsemble := writeEnsemble (readEnsemble i.isEnsemble), virtualLibrary := (textOrNone (midiOf i l).virtualLibrary).getD [], virtualName := (textOrNone (midiOf i l).virtualName).getD [] }
  rw [hsid, text_kept, text_kept, text_kept, ensemble_said, hv.1, hv.2]

/-! ### Once through the program -/

theorem score_part_said (unique : Int) {x : ScorePartXml} {a : PartSaid} (hs : PartSays x a) (hk : PartKept a) : ∃ y, scorePartThrough unique x = .ok y ∧ PartSays y a := by
  obtain ⟨k1, ⟨s, k2⟩, k3, k4⟩ := hk
  have hinst : ∃ i, (readInstrument x.instruments).bind (fun i => readMidiGroups i x.midi) = .ok i ∧ ∃ is ms, writeScoreInstruments unique i = .ok is ∧ writeMidiGroups i = .ok ms ∧
      List.Forall₂ InstrumentSays is a.instruments ∧ List.Forall₂ MidiSays ms a.midi := by
    have h1 := hs.instruments
    have h2 := hs.midi
    rcases k4 with ⟨e1, e2⟩ | ⟨i, e1, hid, hsnd, h⟩
    · rw [e1] at h1 ⊢
      rw [e2] at h2 ⊢
      cases h1' : x.instruments with
      | cons => rw [h1'] at h1; cases h1
      | nil =>
        cases h2' : x.midi with
        | cons => rw [h2'] at h2; cases h2
        | nil => exact ⟨{}, rfl, [], [], by rfl, by rfl, .nil, .nil⟩
    · rw [e1] at h1 ⊢
      obtain ⟨sound, r1, w1⟩ := instrumentSound_said hsnd
      have hr := instruments_read h1 r1
      rw [hr]
      rcases h with ⟨e2, ht⟩ | ⟨m, e2, hm, hkm⟩
      · rw [e2] at h2 ⊢
        cases h2' : x.midi with
        | cons => rw [h2'] at h2; cases h2
        | nil =>
          obtain ⟨y, y1, y2⟩ := instrument_written unique [] w1 hid (.inl ht)
          refine ⟨instrumentOf sound i [], rfl, [y], [], y1, ?_, .cons y2 .nil, .nil⟩
          rw [writeMidiGroups, if_neg]
          show ¬ addsMidi (midiOf i []) = true
          unfold midiOf addsMidi addsMidiInstrument
          simp
      · rw [e2] at h2 ⊢
        cases h2' : x.midi with
        | nil => rw [h2'] at h2; cases h2
        | cons g gs =>
          rw [h2'] at h2
          cases h2 with
          | cons g1 g2 =>
            cases g2
            obtain ⟨ha, z, z1, z2⟩ := midi_written g1 hm hid hkm sound
            obtain ⟨y, y1, y2⟩ := instrument_written unique [m] w1 hid (.inr ha)
            exact ⟨instrumentOf sound i [m], midi_read g1 hkm sound, [y], [z], y1, z1, .cons y2 .nil, .cons z2 .nil⟩
  obtain ⟨i, hi, is, ms, w1, w2, f1, f2⟩ := hinst
  have hname : extractDisplayText (x.nameDisplay.getD []) = s := shown_read (by rw [← hs.nameShown, k2])
  have hname' : (x.nameDisplay.map extractDisplayText).getD [] = s := by
    rw [← hname]
    cases x.nameDisplay <;> rfl
  have hparse : parseScorePart x = .ok { uniqueId := x.id, name := x.name, displayName := s, abbreviation := x.abbreviation.getD [], displayAbbreviation := readDisplayAbbreviation x, instrument := i } := by
    rw [← hname', parseScorePart]
    cases hr : readInstrument x.instruments with
    | error e => rw [hr] at hi; cases hi
    | ok j =>
      rw [hr] at hi
      have hi : readMidiGroups j x.midi = .ok i := hi
      show (readMidiGroups j x.midi).bind _ = _
      rw [hi]
      rfl
  refine ⟨{ id := xsID x.id, name := x.name, abbreviation := textOrNone (x.abbreviation.getD []), nameDisplay := writeDisplay s, abbreviationDisplay := writeDisplay (readDisplayAbbreviation x), instruments := is, midi := ms }, ?_, ?_⟩
  · rw [scorePartThrough, hparse]
    show getScorePart unique _ = _
    rw [getScorePart, w1, w2]
    rfl
  · refine { id := ?_, name := hs.name, abbreviation := ?_, nameShown := ?_, abbreviationShown := ?_, instruments := f1, midi := f2 }
    · show a.id = xsID x.id
      rw [← hs.id, Props.C27_legal_names_kept _ k1]
    · show _ = (textOrNone (x.abbreviation.getD [])).getD []
      rw [text_kept]; exact hs.abbreviation
    · show _ = shownBy ((writeDisplay s).getD [])
      rw [shown_written, k2]
    · show _ = (writeDisplay (readDisplayAbbreviation x)).map shownBy
      have ha := hs.abbreviationShown
      rw [readDisplayAbbreviation, hname]
      rcases k3 with e | ⟨e, hne⟩
      · rw [e] at ha ⊢
        have : x.abbreviationDisplay = none := by
          cases hx : x.abbreviationDisplay with
          | none => rfl
          | some l => rw [hx] at ha; cases ha
        rw [this]
        rfl
      · rw [e] at ha ⊢
        have : x.abbreviationDisplay.isSome = true := by
          cases hx : x.abbreviationDisplay with
          | none => rw [hx] at ha; cases ha
          | some l => rfl
        rw [if_pos this, k2]
        cases s with
        | nil => rw [k2] at hne; exact absurd rfl hne
        | cons c s =>
          show some _ = some (shownBy [.text (c :: s)])
          rw [shown_text]

end Mx
