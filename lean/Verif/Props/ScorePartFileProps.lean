import Verif.Proofs.ScorePartSaid

/-!
# Property C107: the names, instruments and MIDI data of the parts of a file stay
-/
namespace Mx.Props
open _root_.Spec

/-- **C107 (partial)** Whatever a `<score-part>` says, within what the program keeps (`PartKept`: one instrument with a sound of the list and one MIDI device or instrument for it, MIDI numbers within the limits of MusicXML), it can be
loaded and saved, and it then says the same: id, names, abbreviations, what is shown, instrument, sound, solo or ensemble, virtual instrument, MIDI device, channel, bank, program, volume, pan and elevation.
Missing: the witnesses below. -/
theorem C107_score_part_partial (unique : Int) (x : ScorePartXml) (a : PartSaid) (hs : PartSays x a) (hk : PartKept a) : ∃ y, scorePartThrough unique x = .ok y ∧ PartSays y a := score_part_said unique hs hk

/-- **C107 (partial)** The same however many times the file goes through the program. -/
theorem C107_for_ever_partial (n : Nat) (x y : ScorePartXml) (a : PartSaid) (hs : PartSays x a) (hk : PartKept a) (h : ScorePartPasses n x y) : PartSays y a := by
  induction h with
  | zero x => exact hs
  | succ unique h _ ih =>
    obtain ⟨y, h1, h2⟩ := score_part_said unique hs hk
    rw [h1] at h
    cases h
    exact ih h2

/-- A violin with numbers in other spellings than those of the program. -/
def violinPart : ScorePartXml :=
  { id := chars "P1", name := chars "Violin", abbreviation := some (chars "Vl."), nameDisplay := some [.text (chars "Vio"), .text (chars "lin")]
    instruments := [{ id := chars "P1-I1", name := chars "Solo Violin", sound := some (chars "strings.violin"), isEnsemble := some false, virtualLibrary := some (chars "GM") }]
    midi := [{ device := some (chars "Synth"), instrument := some { id := chars "P1-I1", channel := some (chars "07"), program := some (chars "41"), volume := some (chars "80.50"), pan := some (chars "-090") } }] }

/-- What it says. -/
def violinSaid : PartSaid :=
  { id := chars "P1", name := chars "Violin", abbreviation := chars "Vl.", nameShown := (chars "Violin").map .inl
    instruments := [{ id := chars "P1-I1", name := chars "Solo Violin", sound := some (chars "strings.violin"), isEnsemble := some false, virtualLibrary := chars "GM" }]
    midi := [{ device := chars "Synth", instrument := some { id := chars "P1-I1", channel := some 7, program := some 41, volume := some (161 / 2), pan := some (-90) } }] }

theorem violin_says : PartSays violinPart violinSaid := by
  refine { id := rfl, name := rfl, abbreviation := rfl, nameShown := by decide, abbreviationShown := rfl, instruments := .cons rfl .nil, midi := .cons ⟨rfl, .inr ⟨_, _, rfl, rfl, ?_⟩⟩ .nil }
  exact { id := rfl, name := rfl, channel := .inr ⟨_, _, rfl, rfl, [], [], chars "07", [], rfl, by simp, by simp, by decide, by decide, .inr ⟨.inl rfl, rfl⟩⟩, bank := .inl ⟨rfl, rfl⟩, program := .inr ⟨_, _, rfl, rfl, [], [], chars "41", [], rfl, by simp, by simp, by decide, by decide, .inr ⟨.inl rfl, rfl⟩⟩, unpitched := .inl ⟨rfl, rfl⟩
          volume := .inr ⟨_, _, rfl, rfl, [], [], chars "80", chars "50", ['.'], [], [], rfl, by simp, by simp, by decide, by decide, by decide, .inl rfl, 0, .inl ⟨rfl, rfl⟩, .inr ⟨.inl rfl, by decide +kernel⟩⟩
          pan := .inr ⟨_, _, rfl, rfl, [], ['-'], chars "090", [], [], [], [], rfl, by simp, by simp, by decide, by decide, by decide, .inr ⟨rfl, rfl⟩, 0, .inl ⟨rfl, rfl⟩, .inl ⟨rfl, by decide +kernel⟩⟩, elevation := .inl ⟨rfl, rfl⟩ }

theorem violin_kept : PartKept violinSaid := by
  have none_int : ∀ lo hi, Between lo hi none := fun _ _ _ h => by cases h
  have none_dec : ∀ lo hi, DecimalBetween lo hi none := fun _ _ _ h => by cases h
  refine ⟨⟨'P', chars "1", rfl, by decide, by decide⟩, ⟨chars "Violin", rfl⟩, .inl rfl, .inr ⟨_, rfl, ⟨'P', chars "1-I1", rfl, by decide, by decide⟩, ?_, .inr ⟨_, rfl, .inl (by decide), ?_⟩⟩⟩
  · intro s h
    cases h
    exact ⟨.stringsViolin, by decide +kernel⟩
  · intro n h
    cases h
    exact { id := rfl, name := rfl, unpitched := rfl, channel := fun n h => by cases h; decide, bank := none_int _ _, program := fun n h => by cases h; decide
            volume := fun n h => by cases h; exact ⟨by norm_num, by norm_num, ⟨80500000, by norm_num⟩⟩, pan := fun n h => by cases h; exact ⟨by norm_num, by norm_num, ⟨-90000000, by norm_num⟩⟩
            elevation := none_dec _ _, something := .inl (by decide) }

example : ∃ y, scorePartThrough 1 violinPart = .ok y ∧ PartSays y violinSaid := C107_score_part_partial 1 violinPart violinSaid violin_says violin_kept

/-- What is written, whatever was read. -/
theorem through_written {unique : Int} {x y : ScorePartXml} (h : scorePartThrough unique x = .ok y) : ∃ p, parseScorePart x = .ok p ∧ getScorePart unique p = .ok y := by
  rw [scorePartThrough] at h
  cases hp : parseScorePart x with
  | error e => rw [hp] at h; cases h
  | ok p => rw [hp] at h; exact ⟨p, rfl, h⟩

theorem score_part_written {unique : Int} {p : PartHead} {y : ScorePartXml} (h : getScorePart unique p = .ok y) :
    writeScoreInstruments unique p.instrument = .ok y.instruments ∧ writeMidiGroups p.instrument = .ok y.midi ∧ y.nameDisplay = writeDisplay p.displayName ∧ y.abbreviationDisplay = writeDisplay p.displayAbbreviation := by
  rw [getScorePart] at h
  cases h1 : writeScoreInstruments unique p.instrument with
  | error e => rw [h1] at h; cases h
  | ok is =>
    cases h2 : writeMidiGroups p.instrument with
    | error e => rw [h1, h2] at h; cases h
    | ok ms => rw [h1, h2] at h; cases h; exact ⟨rfl, rfl, rfl, rfl⟩

/-- **C107** is not true of parts with more than one instrument, as those for drums: of every file, at most one instrument and one MIDI instrument of a part are left. -/
theorem C107_one_instrument (unique : Int) (x y : ScorePartXml) (h : scorePartThrough unique x = .ok y) : y.instruments.length ≤ 1 ∧ y.midi.length ≤ 1 := by
  obtain ⟨p, _, h⟩ := through_written h
  obtain ⟨h1, h2, _⟩ := score_part_written h
  constructor
  · rw [writeScoreInstruments] at h1
    split at h1
    · cases hm : makeScoreInstrument (scoreInstrumentId unique p.instrument) p.instrument with
      | error e => rw [hm] at h1; cases h1
      | ok m => rw [hm] at h1; rw [← Except.ok.inj h1]; exact le_refl _
    · rw [← Except.ok.inj h1]; exact Nat.zero_le _
  · rw [writeMidiGroups] at h2
    split at h2
    · cases hm : optionalMidiInstrument p.instrument with
      | none => rw [hm] at h2; cases h2
      | some m => rw [hm] at h2; rw [← Except.ok.inj h2]; exact le_refl _
    · rw [← Except.ok.inj h2]; exact Nat.zero_le _

/-- **C107** is not true of MIDI names and unpitched notes: of every file, none is left. -/
theorem C107_midi_name_and_unpitched (unique : Int) (x y : ScorePartXml) (h : scorePartThrough unique x = .ok y) : ∀ g ∈ y.midi, ∀ m ∈ g.instrument, m.name = none ∧ m.unpitched = none := by
  obtain ⟨p, _, h⟩ := through_written h
  obtain ⟨_, h2, _⟩ := score_part_written h
  intro g hg m hm
  rw [writeMidiGroups] at h2
  split at h2
  · cases ho : optionalMidiInstrument p.instrument with
    | none => rw [ho] at h2; cases h2
    | some o =>
      rw [ho] at h2
      have h2 : Except.ok [_] = Except.ok y.midi := h2
      rw [← Except.ok.inj h2, List.mem_singleton] at hg
      subst hg
      have hm : o = some m := hm
      subst hm
      rw [optionalMidiInstrument] at ho
      split at ho
      · obtain ⟨m', h3, h4⟩ := Option.map_eq_some_iff.mp ho
        cases h4
        rw [makeMidiInstrument] at h3
        obtain ⟨_, _, h3⟩ := Option.bind_eq_some_iff.mp h3
        obtain ⟨_, _, h3⟩ := Option.bind_eq_some_iff.mp h3
        obtain ⟨_, _, h3⟩ := Option.bind_eq_some_iff.mp h3
        cases h3
        exact ⟨rfl, rfl⟩
      · cases ho
  · rw [← Except.ok.inj h2] at hg
    cases hg

/-- **C107** is not true of accidentals that are shown in names ("Clarinet in B♭"): of every file, only characters are left. -/
theorem C107_no_accidentals (unique : Int) (x y : ScorePartXml) (h : scorePartThrough unique x = .ok y) : ∃ s : Str, shownBy (y.nameDisplay.getD []) = s.map .inl := by
  obtain ⟨p, _, h⟩ := through_written h
  obtain ⟨_, _, h3, _⟩ := score_part_written h
  exact ⟨p.displayName, by rw [h3, shown_written]⟩

/-- **C107** is not true of the abbreviations that are shown: of every file, what is left is the name that is shown, or nothing. -/
theorem C107_abbreviation_shown (unique : Int) (x y : ScorePartXml) (h : scorePartThrough unique x = .ok y) : y.abbreviationDisplay = none ∨ y.abbreviationDisplay = y.nameDisplay := by
  obtain ⟨p, hp, h⟩ := through_written h
  obtain ⟨_, _, h3, h4⟩ := score_part_written h
  rw [h3, h4]
  rw [parseScorePart] at hp
  cases h1 : readInstrument x.instruments with
  | error e => rw [h1] at hp; cases hp
  | ok i =>
    rw [h1] at hp
    have hp : (readMidiGroups i x.midi).bind _ = _ := hp
    cases h2 : readMidiGroups i x.midi with
    | error e => rw [h2] at hp; cases hp
    | ok j =>
      rw [h2] at hp
      cases hp
      show writeDisplay (readDisplayAbbreviation x) = none ∨ writeDisplay (readDisplayAbbreviation x) = writeDisplay ((x.nameDisplay.map extractDisplayText).getD [])
      rw [readDisplayAbbreviation]
      by_cases ha : x.abbreviationDisplay.isSome = true
      · right
        rw [if_pos ha]
        cases x.nameDisplay <;> rfl
      · left
        rw [if_neg ha]
        rfl

/-- **C107** is not true of sounds that are not on the standard list, which the schema allows: the file cannot be loaded. -/
theorem C107_other_sound (unique : Int) (x y : ScorePartXml) (i : ScoreInstrumentXml) (is : List ScoreInstrumentXml) (s : Str) (hx : x.instruments = i :: is) (hi : i.sound = some s) (hs : ∀ c, (c, s) ∉ playbackSoundMembers) :
    scorePartThrough unique x ≠ .ok y := by
  intro h
  obtain ⟨p, hp, _⟩ := through_written h
  rw [parseScorePart, hx, readInstrument, parseScoreInstrument, hi, readInstrumentSound] at hp
  cases hc : playbackSoundFromString s with
  | error e => rw [hc] at hp; cases hp
  | ok c => exact hs c (sound_listed (sound_parse.mp hc))

/-- **C107** is not true of an instrument that has nothing but a sound: it is gone. -/
theorem C107_sound_alone (unique : Int) : (scorePartThrough unique { id := chars "P1", name := chars "Violin", instruments := [{ id := chars "P1-I1", name := [], sound := some (chars "strings.violin") }] }).map (·.instruments) = .ok [] := by
  obtain ⟨s, h, _⟩ := instrumentSound_said (x := some (chars "strings.violin")) (fun s h => by cases h; exact ⟨.stringsViolin, by decide +kernel⟩)
  rw [scorePartThrough, parseScorePart, readInstrument, parseScoreInstrument, h]
  rfl

/-- The sharp of a name is lost, a flat becomes a letter. -/
example : (scorePartThrough 1 { id := chars "P1", name := chars "Horn", nameDisplay := some [.text (chars "Horn in F"), .accidental .sharp] }).map (·.nameDisplay) = .ok (some [.text (chars "Horn in F")]) := by decide +kernel
example : (scorePartThrough 1 { id := chars "P1", name := chars "Clarinet", nameDisplay := some [.text (chars "Clarinet in B"), .accidental .flat] }).map (·.nameDisplay) = .ok (some [.text (chars "Clarinet in Bb")]) := by decide +kernel

/-- The abbreviation that is shown is replaced. -/
example : (scorePartThrough 1 { id := chars "P1", name := chars "Horn", nameDisplay := some [.text (chars "Horn")], abbreviationDisplay := some [.text (chars "Hn.")] }).map (·.abbreviationDisplay) = .ok (some [.text (chars "Horn")]) := by decide +kernel

/-- Of two drums one is left. -/
example : (scorePartThrough 1 { id := chars "P1", name := chars "Drums", instruments := [{ id := chars "P1-I1", name := chars "Bass Drum" }, { id := chars "P1-I2", name := chars "Snare Drum" }] }).map (·.instruments) =
    .ok [{ id := chars "P1-I1", name := chars "Bass Drum" }] := by decide +kernel

/-- A sound that is not on the list. -/
example (unique : Int) (y : ScorePartXml) : scorePartThrough unique { id := chars "P1", name := chars "Drums", instruments := [{ id := chars "P1-I1", name := chars "Drum", sound := some (chars "drum.own") }] } ≠ .ok y :=
  C107_other_sound unique _ y _ _ _ rfl rfl (fun c h => by
    have h : chars "drum.own" ∈ playbackSoundMembers.map Prod.snd := List.mem_map_of_mem (f := Prod.snd) h
    exact absurd h (by decide +kernel))

end Mx.Props
