import Verif.Proofs.DirectionsPlain
import Verif.Props.StringProps

/-
C61: directions and chord symbols, C41: ottavas and extensions of chords, C62: what has been loaded can be written.
-/
open Spec
namespace Mx.Props
open Mx.Spec
open Directions

/-- Writing a direction at a place and reading all elements that this makes. -/
def directionAgain (staffIndex cursorTick : Int) (d : DirectionData) : Res (List DirectionData) := do
  let xs ← getDirectionLikeThings staffIndex cursorTick d
  xs.mapM (getDirectionData cursorTick)

/-! ### C61 -/

/-- **C61** exactly: what comes back of any direction, with all its parts, wherever the cursor is. -/
theorem C61_kept (staffIndex cursorTick : Int) (d : DirectionData) (h : DirectionFits d) (ht : InInt d.tickTimePosition) (ho : InInt (d.tickTimePosition - cursorTick)) :
    directionAgain staffIndex cursorTick d = .ok (keptDirections staffIndex cursorTick d) := by
  obtain ⟨xs, a, b⟩ := direction_back (staffIndex := staffIndex) h ht ho
  rw [directionAgain, a]
  exact b

/-- **C61** Nothing that comes back has another time than the direction. -/
theorem C61_time (staffIndex cursorTick : Int) (d : DirectionData) (h : DirectionFits d) (ht : InInt d.tickTimePosition) (ho : InInt (d.tickTimePosition - cursorTick)) :
    ∃ l, directionAgain staffIndex cursorTick d = .ok l ∧ ∀ x ∈ l, x.tickTimePosition = d.tickTimePosition ∧ ∀ m ∈ x.marks, m.tickTimePosition = d.tickTimePosition := by
  refine ⟨_, C61_kept staffIndex cursorTick d h ht ho, fun x hx => ?_⟩
  rw [keptDirections, List.mem_append] at hx
  rcases hx with hx | hx
  · split at hx
    · rw [List.mem_singleton.mp hx]
      refine ⟨rfl, fun m hm => ?_⟩
      obtain ⟨m', _, e⟩ := List.mem_filterMap.mp hm
      rw [keptDirectionMark] at e
      split at e
      · rw [← Option.some.inj e]; rfl
      · split at e
        · rw [← Option.some.inj e]
        · cases e
    · cases hx
  · split at hx
    · rw [List.mem_singleton.mp hx]
      exact ⟨rfl, fun m hm => by cases hm⟩
    · cases hx

/-- **C61 (partial)** A direction that holds nothing but what the document has a place for comes back unchanged, as one direction.  The full property would be for every direction;
the theorems below show that this is false. -/
theorem C61_direction_partial (staffIndex cursorTick : Int) (d : DirectionData) (h : PlainDirection staffIndex cursorTick d) (ht : InInt d.tickTimePosition)
    (ho : InInt (d.tickTimePosition - cursorTick)) : directionAgain staffIndex cursorTick d = .ok [d] := by
  rw [C61_kept staffIndex cursorTick d (plain_fits h) ht ho, kept_self h]

/-- **C61 (partial)** A chord symbol comes back unchanged, if it is the only thing in its direction. -/
theorem C61_chord_partial (staffIndex cursorTick : Int) (d : DirectionData) (c : ChordData) (h : PlainChord d c) (ht : InInt d.tickTimePosition)
    (ho : InInt (d.tickTimePosition - cursorTick)) : directionAgain staffIndex cursorTick d = .ok [d] := by
  rw [C61_kept staffIndex cursorTick d (chord_fits h) ht ho, chord_self h]

/-- Forte, a pedal mark, a wedge, an ottava, a tempo and words. -/
def sampleDirection : DirectionData :=
  { tickTimePosition := 7, placement := .below
    marks := [{ MarkData.make .f with tickTimePosition := 7 }, { MarkData.make .damp with tickTimePosition := 7, positionData := { placement := .below } }]
    wedgeStops := [{}], wedgeStarts := [{ wedgeType := .diminuendo, spread := ⟨true, 15⟩, lineData := { lineType := .dashed } }]
    ottavaStarts := [{ ottavaType := .o15mb, spannerStart := { tickTimePosition := 4 } }], bracketStarts := [{ numberLevel := 2, tickTimePosition := 4, positionData := { placement := .below } }]
    tempos := [{ tempoType := .beatsPerMinute, beatsPerMinute := { durationName := .quarter, dots := 1, beatsPerMinute := 108 } }]
    words := [{ text := chars "dolce", positionData := { horizontalAlignment := .center }, fontData := { style := .italic, underline := 1 } }, { text := chars "sub." }] }

theorem plainAt_empty (m : PositionMembers) : PlainAt m {} :=
  ⟨⟨(fun h => by cases h), (fun h => by cases h), (fun h => by cases h), (fun h => by cases h)⟩, fun _ => rfl, fun _ => rfl, fun _ => rfl, fun _ => rfl, fun _ => rfl, fun _ => rfl, fun _ => rfl⟩

theorem plainFont_empty : PlainFont {} :=
  ⟨fun h => (by cases h), fun _ => rfl, by decide, ⟨(fun x hx => by cases hx), by decide⟩, by decide, by decide, by decide⟩

theorem plainLine_empty (t : Api.LineType) : PlainLine { lineType := t } := ⟨⟨(fun h => by cases h), (fun h => by cases h)⟩, fun _ => rfl, fun _ => rfl, rfl, rfl⟩

theorem sampleDirection_plain : PlainDirection 2 4 sampleDirection where
  notEmpty := by decide
  staff := Or.inr rfl
  marks m hm := by
    rcases List.mem_cons.mp hm with rfl | hm
    · exact Or.inl ⟨by decide, by decide +kernel, rfl, rfl, plainAt_empty _⟩
    · rw [List.mem_singleton.mp hm]
      exact Or.inr ⟨Or.inr rfl, rfl, rfl, rfl, plainAt_empty _, rfl⟩
  wedgeStops w hw := by
    rw [List.mem_singleton.mp hw]
    exact ⟨rfl, (fun h => by cases h), fun _ => rfl, plainAt_empty _⟩
  wedgeStarts w hw := by
    rw [List.mem_singleton.mp hw]
    exact ⟨rfl, by decide, fun _ => ⟨⟨15000000, by norm_num⟩, by norm_num⟩, (fun h => by cases h), plainLine_empty _, plainAt_empty _, rfl⟩
  ottavaStops o ho := by cases ho
  ottavaStarts o ho := by
    rw [List.mem_singleton.mp ho]
    exact ⟨by decide, rfl, plainLine_empty _, rfl⟩
  bracketStarts b hb := by
    rw [List.mem_singleton.mp hb]
    exact ⟨by decide, by decide, rfl⟩
  tempos t ht := by
    rw [List.mem_singleton.mp ht]
    exact ⟨rfl, by decide, by decide, by decide⟩
  words w hw := by
    rcases List.mem_cons.mp hw with rfl | hw
    · refine ⟨⟨(plainAt_empty textMembers).fits, fun _ => rfl, fun _ => rfl, fun _ => rfl, fun _ => rfl, fun _ => rfl, fun _ => rfl, fun h => (by cases h)⟩, ?_, rfl, rfl⟩
      exact ⟨fun h => (by cases h), fun _ => rfl, by decide, ⟨(fun x hx => by cases hx), by decide⟩, by decide, by decide, by decide⟩
    · rw [List.mem_singleton.mp hw]
      exact ⟨plainAt_empty _, plainFont_empty, rfl, rfl⟩
  chords := rfl
  bracketStops := rfl
  segnos := rfl
  codas := rfl
  rehearsals := rfl

/-- The hypotheses of `C61_direction_partial` are met by a direction with seven kinds of contents, written on the third staff and with an offset of 3 ticks. -/
example : directionAgain 2 4 sampleDirection = .ok [sampleDirection] := C61_direction_partial 2 4 _ sampleDirection_plain (by decide) (by decide)

/-- A chord with a bass, two extensions and a processing instruction. -/
def sampleChord : ChordData :=
  { root := .e, rootAlter := -1, chordKind := .dominant, text := chars "Eb7", useSymbols := .yes, bass := .b, bassAlter := -1
    extensions := [{ extensionType := .alter, extensionAlter := .sharp, extensionNumber := .eleventh }, { extensionType := .remove, extensionNumber := .fifth }]
    miscData := [{ name := chars "app", data := chars "voicing=3?" }], positionData := { placement := .above } }

theorem normalised_of_noWhite {s : Str} (h : ∀ c ∈ s, ¬ White c) : Normalised s := by
  have hs : ' ' ∉ s := fun hh => h ' ' hh (by decide)
  refine ⟨fun c hc hw => absurd hw (h c hc), fun a b e => hs (by rw [e]; simp), fun e => hs (List.mem_of_head? e), fun e => hs (List.mem_of_getLast? e)⟩

theorem sampleChord_plain : PlainChord { tickTimePosition := 5, placement := .above, chords := [sampleChord] } sampleChord where
  only := rfl
  placement := rfl
  position := ⟨(plainAt_empty harmonyMembers).fits, fun _ => rfl, fun _ => rfl, fun _ => rfl, fun _ => rfl, fun h => (by cases h), fun _ => rfl, fun _ => rfl⟩
  root := by decide
  rootAlter := by decide
  kind := by decide
  text := normalised_of_noWhite (by decide)
  bass := fun h => absurd h (by decide)
  bassAlter := by decide
  extensions := by decide
  misc m hm := by
    rw [List.mem_singleton.mp hm]
    refine ⟨⟨?_, ?_, by decide, by decide, ?_⟩, by decide⟩
    · intro c hc; cases hc; exact Or.inl (by decide)
    · intro c hc
      exact Or.inl (Or.inl ((show ∀ c ∈ chars "app", c.isAlpha = true by decide) c hc))
    · intro c hc; cases hc; decide

/-- The hypotheses of `C61_chord_partial` are met. -/
example : directionAgain 1 5 { tickTimePosition := 5, placement := .above, chords := [sampleChord] } = .ok [{ tickTimePosition := 5, placement := .above, chords := [sampleChord] }] :=
  C61_chord_partial 1 5 _ sampleChord sampleChord_plain (by decide) (by decide)

/-! ### C61 is false in general -/

/-- **C61 is false for segnos, codas, rehearsal marks and the ends of brackets**: whatever they are, nothing is written. -/
theorem C61_not_written (staffIndex cursorTick : Int) (d : DirectionData) (ho : InInt (d.tickTimePosition - cursorTick))
    (h : d = { tickTimePosition := d.tickTimePosition, placement := d.placement, isStaffValueSpecified := d.isStaffValueSpecified, bracketStops := d.bracketStops
               segnos := d.segnos, codas := d.codas, rehearsals := d.rehearsals }) : getDirectionLikeThings staffIndex cursorTick d = .ok [] := by
  obtain ⟨o, o1⟩ : ∃ o, offsetText (d.tickTimePosition - cursorTick) = some o := by
    unfold offsetText
    split
    · obtain ⟨x, a, _⟩ := decimal_back (k := .DivisionsValue) trivial ho
      exact ⟨some x, by rw [a]; rfl⟩
    · exact ⟨none, rfl⟩
  have ht : directionTypes d = .ok [] := by rw [h]; rfl
  have hh : ∀ n, createHarmony staffIndex n d = some [] := by rw [h]; intro n; rfl
  rw [getDirectionLikeThings, chkR, if_pos ho]
  show (orUndefined (offsetText (d.tickTimePosition - cursorTick)) >>= _) = _
  rw [o1, ht, hh]
  rfl

/-- A `<segno>` in a document is read, and gone when the score is written. -/
example : getDirectionData 0 (.direction { types := [.segno [{}]] }) = .ok { segnos := [{}], isStaffValueSpecified := false } ∧
    getDirectionLikeThings 0 0 { segnos := [{}], isStaffValueSpecified := false } = .ok [] := by
  exact ⟨by decide +kernel, C61_not_written 0 0 _ (by decide) rfl⟩

/-- **C61 is false for wedges**: the number, which tells simultaneous wedges apart, and the colour are lost. -/
theorem C61_wedge_number_lost : directionAgain 0 0 { wedgeStarts := [{ numberLevel := 2, wedgeType := .crescendo, colorData := { red := 0 } }] } =
    .ok [{ wedgeStarts := [{ wedgeType := .crescendo }] }] := by decide +kernel

/-- **C61 is false for brackets**: only the number is written, and a bracket without a number comes back with the number 1. -/
theorem C61_bracket_lost : directionAgain 0 0 { bracketStarts := [{ lineData := { lineType := .dashed }, positionData := { defaultX := ⟨true, 5⟩ } }], bracketStops := [{}] } =
    .ok [{ bracketStarts := [{ numberLevel := 1 }] }] := by decide +kernel

/-- **C61 is false for ottavas**: numbers and positions are lost. -/
theorem C61_ottava_lost : directionAgain 0 0 { ottavaStarts := [{ ottavaType := .o8va, spannerStart := { numberLevel := 2, positionData := { defaultY := ⟨true, 30⟩ } } }]
                                               ottavaStops := [{ numberLevel := 2 }] } =
    .ok [{ ottavaStarts := [{ ottavaType := .o8va }], ottavaStops := [{}] }] := by decide +kernel

/-- **C61 is false for the colour of words.** -/
theorem C61_words_color_lost : directionAgain 0 0 { words := [{ text := chars "cresc.", isColorSpecified := true, colorData := { red := 0 } }] } = .ok [{ words := [{ text := chars "cresc." }] }] := by
  decide +kernel

/-- **C61 is false for directions with words and chords**: they come back as two directions. -/
theorem C61_split : directionAgain 0 0 { words := [{ text := chars "ad lib." }], chords := [{ root := .g, chordKind := .major }] } =
    .ok [{ words := [{ text := chars "ad lib." }] }, { chords := [{ root := .g, chordKind := .major }] }] := by decide +kernel

/-- **C61 is false for chords on a lower staff**: unlike a `<direction>`, a `<harmony>` gets a `<staff>` only if `isStaffValueSpecified` is set, so that the chords of such a direction move to the first
staff. -/
theorem C61_harmony_staff_lost (staffIndex : Int) (c : ChordData) (xs : List ElementXml)
    (h : getDirectionLikeThings staffIndex 0 { isStaffValueSpecified := false, chords := [c] } = .ok xs) : ∀ x ∈ xs, ∃ y : HarmonyXml, x = .harmony y ∧ y.staff = none := by
  have h0 : getDirectionLikeThings staffIndex 0 { isStaffValueSpecified := false, chords := [c] } =
      orUndefined (createHarmony staffIndex 0 { isStaffValueSpecified := false, chords := [c] }) := by
    rw [getDirectionLikeThings]
    show (orUndefined (createHarmony staffIndex 0 { isStaffValueSpecified := false, chords := [c] }) >>= _) = _
    cases createHarmony staffIndex 0 { isStaffValueSpecified := false, chords := [c] } <;> rfl
  rw [h0, createHarmony_cons rfl] at h
  cases hp : writePosition harmonyMembers c.positionData with
  | none => rw [hp] at h; cases h
  | some p =>
    cases hc : [c].mapM writeChord with
    | none => rw [hp, hc] at h; cases h
    | some cs =>
      rw [hp, hc] at h
      have h := Except.ok.inj h
      intro x hx
      rw [← h] at hx
      rw [List.mem_singleton.mp hx]
      exact ⟨_, rfl, rfl⟩

example : (getDirectionLikeThings 1 0 { isStaffValueSpecified := false, chords := [sampleChord] }).toOption.isSome = true ∧
    (getDirectionLikeThings 1 0 { isStaffValueSpecified := false, words := [{ text := chars "x" }] }).toOption.map (fun l => l.map (fun x => match x with | .direction d => d.staff | .harmony h => h.staff))
      = some [some (chars "2")] := by decide +kernel

/-- **C61 is false for pedal marks and other dynamics of one direction**: the placement of the pedal mark replaces that of the direction. -/
theorem C61_pedal_placement : directionAgain 0 0 { placement := .above, marks := [{ MarkData.make .pedal with positionData := { placement := .below } }] } =
    .ok [{ placement := .below, marks := [{ MarkData.make .pedal with positionData := { placement := .below } }] }] := by decide +kernel

/-- **C61 is false for chord symbols of several chords with processing instructions**: every chord gets the instructions of all, so that their number doubles with every round. -/
theorem C61_misc_doubles (n : Nat) (d : DirectionData) (a b : ChordData) (hd : d.chords = [a, b]) (ha : a.miscData.length = n) (hb : b.miscData.length = n) :
    ∀ c ∈ (keptHarmony d).chords, c.miscData.length = 2 * n := by
  intro c hc
  rw [keptHarmony] at hc
  obtain ⟨x, _, rfl⟩ := List.mem_map.mp hc
  rw [keptChord, hd]
  simp [ha, hb]
  omega

/-! ### C61: what is read wrongly -/

/-- **C61 is false for `<damp-all>`**: it is read as a rehearsal mark without text, which is then lost. -/
theorem C61_damp_all (cursorTick : Int) : getDirectionData cursorTick (.direction { types := [.dampAll] }) =
    .ok { tickTimePosition := cursorTick, isStaffValueSpecified := false, rehearsals := [{}] } := by
  rfl

/-- **C61 is false for a `<wedge>` of type `continue`**: it is read as the start of a wedge, and written as the start of a crescendo. -/
theorem C61_wedge_continue : getDirectionData 0 (.direction { types := [.wedge { type := StringEnum.toStr Core.WedgeType.continue_ }] }) = .ok { isStaffValueSpecified := false, wedgeStarts := [{}] } ∧
    getDirectionLikeThings 0 0 { isStaffValueSpecified := false, wedgeStarts := [{}] } = .ok [.direction { types := [.wedge { type := chars "crescendo" }] }] := by
  exact ⟨by decide +kernel, by decide +kernel⟩

/-- **C61 is false for a `<pedal>` of type `change`**: it is skipped. -/
theorem C61_pedal_change (cursorTick : Int) : getDirectionData cursorTick (.direction { types := [.pedal { type := StringEnum.toStr Core.StartStopChangeContinue.change }] }) =
    .ok { tickTimePosition := cursorTick, isStaffValueSpecified := false } := by rfl

/-! ### C41: ottavas and extensions -/

/-- **C41** Every kind of ottava comes back. -/
theorem C41_ottava (t : Api.OttavaType) (h : t ≠ .unspecified) : ottavaType (parseEnum (StringEnum.toStr (ottavaParts t).1)) (some (IntRange.ofKind .PositiveInteger (ottavaParts t).2).toStr) = t := by
  rw [(ottavaParts_back t).2.2, if_neg h]

/-- **C41 is false for what other programs understand**: all ottavas are written with the direction opposite to the one in the documentation of MusicXML, and are read so, too. -/
theorem C41_ottava_direction (t : Api.OttavaType) (dir : Str) (n : Nat) (h : documentedShift t = some (dir, n)) :
    StringEnum.toStr (ottavaParts t).1 ≠ dir ∧ (ottavaParts t).2 = n := by
  cases t <;> cases h <;> exact ⟨by decide +kernel, rfl⟩

/-- **C41** The extensions of a chord come back, except for `printObject`. -/
theorem C41_extension (e : Extension) : (writeExtension e).bind readDegree = some (some { e with printObject := .unspecified }) := by
  obtain ⟨x, a, b⟩ := extension_back e
  rw [a, Option.bind_some, b]

/-- **C41** Chord kinds come back; a chord without a kind comes back as "none". -/
theorem C41_chord_kind (t : Api.ChordKind) :
    (MapName.kindMap.toApi (parseEnum (StringEnum.toStr (MapName.kindMap.toCore t : Core.KindValue)) : Core.KindValue) : Api.ChordKind) = if t = .unspecified then .none else t := kind_back t

/-- **C41 is false for degrees that are no extensions**: e.g. an added 8 or 10 in a document is dropped. -/
theorem C41_degree_dropped (x : DegreeXml) (h : parseBounded .PositiveInteger x.value ∉ [1, 2, 3, 4, 5, 6, 7, 9, 11, 13]) (r : Option Extension) (hr : readDegree x = some r) : r = none := by
  rw [readDegree] at hr
  have : extensionNumber (parseBounded .PositiveInteger x.value) = none := by
    generalize parseBounded .PositiveInteger x.value = v at h
    simp only [List.mem_cons, List.not_mem_nil, or_false, not_or] at h
    obtain ⟨h1, h2, h3, h4, h5, h6, h7, h8, h9, h10⟩ := h
    unfold extensionNumber
    rw [if_neg h1, if_neg h2, if_neg h3, if_neg h4, if_neg h5, if_neg h6, if_neg h7, if_neg h8, if_neg h9, if_neg h10]
  rw [this] at hr
  cases ha : (decimalValue .Semitones x.alter).bind roundTo with
  | none => rw [ha] at hr; cases hr
  | some a => rw [ha] at hr; exact (Option.some.inj hr).symm

example : readDegree { value := chars "10", alter := chars "0", type := chars "add" } = some none := by decide +kernel

/-! ### C62 -/

theorem mapM_throws {l : List TempoData} (h : l.mapM writeTempo = .error .throws) : ∃ t ∈ l, t.tempoType ≠ .beatsPerMinute := by
  induction l with
  | nil => cases h
  | cons t l ih =>
    by_cases ht : t.tempoType ≠ .beatsPerMinute
    · exact ⟨t, by simp, ht⟩
    · rw [List.mapM_cons, writeTempo, if_neg ht] at h
      cases hl : l.mapM writeTempo with
      | ok xs => rw [hl] at h; cases h
      | error f =>
        rw [hl] at h
        have : f = .throws := Except.error.inj h
        rw [this] at hl
        obtain ⟨t', h1, h2⟩ := ih hl
        exact ⟨t', by simp [h1], h2⟩

theorem tempos_throw {l : List TempoData} (h : ∃ t ∈ l, t.tempoType ≠ .beatsPerMinute) : l.mapM writeTempo = .error .throws := by
  induction l with
  | nil => obtain ⟨t, h, _⟩ := h; cases h
  | cons t l ih =>
    rw [List.mapM_cons, writeTempo]
    by_cases ht : t.tempoType ≠ .beatsPerMinute
    · rw [if_pos ht]; rfl
    · rw [if_neg ht]
      obtain ⟨t', h1, h2⟩ := h
      rcases List.mem_cons.mp h1 with rfl | h1
      · exact absurd h2 ht
      · show (l.mapM writeTempo >>= _) = _
        rw [ih ⟨t', h1, h2⟩]
        rfl

/-- The direction types that stand for a tempo other than a number of beats per minute. -/
def OtherTempo : DirectionTypeXml → Prop
  | .metronome .beatUnits => True
  | .metronome (.perMinute _ _ text) => ¬ ∃ v, CanonicalInteger text v ∧ InInt v
  | _ => False

theorem orUndefined_throws {α : Type} {x : Option α} : orUndefined x ≠ .error .throws := by cases x <;> simp [orUndefined]

theorem chkR_throws {x : Int} : chkR x ≠ .error .throws := by
  unfold chkR
  split <;> simp

theorem bind_throws {α β : Type} {x : Res α} {f : α → Res β} (h : (x >>= f) = .error .throws) : x = .error .throws ∨ ∃ a, x = .ok a ∧ f a = .error .throws := by
  cases x with
  | ok a => exact Or.inr ⟨a, rfl, h⟩
  | error e => exact Or.inl (congrArg Except.error (Except.error.inj h))

theorem types_throw {d : DirectionData} (h : directionTypes d = .error .throws) : ∃ t ∈ d.tempos, t.tempoType ≠ .beatsPerMinute := by
  unfold directionTypes at h
  rcases bind_throws h with h | ⟨_, _, h⟩
  · exact absurd h orUndefined_throws
  rcases bind_throws h with h | ⟨_, _, h⟩
  · exact absurd h orUndefined_throws
  rcases bind_throws h with h | ⟨_, _, h⟩
  · exact absurd h orUndefined_throws
  rcases bind_throws h with h | ⟨_, _, h⟩
  · exact absurd h orUndefined_throws
  rcases bind_throws h with h | ⟨_, _, h⟩
  · exact mapM_throws h
  rcases bind_throws h with h | ⟨_, _, h⟩
  · exact absurd h orUndefined_throws
  cases h

/-- **C62 (partial)** Writing a direction fails with an exception only because of a tempo that is not a number of beats per minute.  Together with `C62_read` this is what is true of the
property; `C62_tempo` shows that the full property, writing what has been read never fails, is false. -/
theorem C62_write_partial (staffIndex cursorTick : Int) (d : DirectionData) (h : getDirectionLikeThings staffIndex cursorTick d = .error .throws) :
    ∃ t ∈ d.tempos, t.tempoType ≠ .beatsPerMinute := by
  unfold getDirectionLikeThings at h
  rcases bind_throws h with h | ⟨_, _, h⟩
  · exact absurd h chkR_throws
  rcases bind_throws h with h | ⟨_, _, h⟩
  · exact absurd h orUndefined_throws
  rcases bind_throws h with h | ⟨_, _, h⟩
  · exact types_throw h
  rcases bind_throws h with h | ⟨_, _, h⟩
  · exact absurd h orUndefined_throws
  cases h

theorem bind_ok {α β : Type} {x : Res α} {f : α → Res β} {b : β} (h : (x >>= f) = .ok b) : ∃ a, x = .ok a ∧ f a = .ok b := by
  cases x with
  | ok a => exact ⟨a, rfl, h⟩
  | error e => cases h

theorem readTempo_other {m : MetronomeXml} {t : TempoData} (h : readTempo m = .ok t) : t.tempoType ≠ .beatsPerMinute ↔ OtherTempo (.metronome m) := by
  cases m with
  | noteRelation => cases h
  | beatUnits => cases h; exact ⟨fun _ => trivial, fun _ => by decide⟩
  | perMinute unit dots text =>
    obtain ⟨r, h1, h2⟩ := bind_ok h
    have h2 := Except.ok.inj h2
    have h1 : stringToInt text (-1) = some r := by
      cases hs : stringToInt text (-1) with
      | none => rw [hs] at h1; cases h1
      | some r' => rw [hs] at h1; rw [Except.ok.inj h1]
    have hc := C36_canonical_partial text (-1)
    obtain ⟨b, v⟩ := r
    cases b with
    | true =>
      rw [if_pos (show (true, v).1 = true from rfl)] at h2
      rw [← h2]
      exact ⟨fun hh => absurd rfl hh, fun hh => absurd ⟨v, (hc.1 v).mp h1⟩ hh⟩
    | false =>
      rw [if_neg (show ¬ (false, v).1 = true from Bool.false_ne_true)] at h2
      rw [← h2]
      refine ⟨fun _ => ?_, fun _ hh => by cases hh⟩
      rintro ⟨w, hw⟩
      have := (hc.1 w).mpr hw
      rw [h1] at this
      cases this

theorem parse_tempos {e : Env} {d d' : DirectionData} {x : DirectionTypeXml} (h : parseDirectionType e d x = .ok d') :
    (∃ t ∈ d'.tempos, t.tempoType ≠ .beatsPerMinute) ↔ (∃ t ∈ d.tempos, t.tempoType ≠ .beatsPerMinute) ∨ OtherTempo x := by
  have same : ∀ d1 : DirectionData, d1.tempos = d.tempos → ¬ OtherTempo x →
      ((∃ t ∈ d1.tempos, t.tempoType ≠ .beatsPerMinute) ↔ (∃ t ∈ d.tempos, t.tempoType ≠ .beatsPerMinute) ∨ OtherTempo x) := by
    intro d1 h1 h2
    rw [h1, or_iff_left h2]
  cases x with
  | metronome m =>
    obtain ⟨t, h1, h2⟩ := bind_ok h
    rw [← Except.ok.inj h2, ← readTempo_other h1]
    simp [or_and_right, exists_or]
  | wedge w =>
    rw [parseDirectionType] at h
    split at h <;> (obtain ⟨_, _, h2⟩ := bind_ok h; rw [← Except.ok.inj h2]; exact same _ rfl id)
  | bracket b =>
    rw [parseDirectionType] at h
    split at h
    · obtain ⟨_, _, h2⟩ := bind_ok h
      rw [← Except.ok.inj h2]
      exact same _ rfl id
    · split at h
      · obtain ⟨_, _, h2⟩ := bind_ok h
        rw [← Except.ok.inj h2]
        exact same _ rfl id
      · rw [← Except.ok.inj h]
        exact same _ rfl id
  | pedal p =>
    rw [parseDirectionType] at h
    split at h
    · obtain ⟨_, _, h2⟩ := bind_ok h
      rw [← Except.ok.inj h2]
      exact same _ rfl id
    · rw [← Except.ok.inj h]
      exact same _ rfl id
  | octaveShift s =>
    rw [parseDirectionType] at h
    split at h
    · rw [← Except.ok.inj h]
      exact same _ rfl id
    · split at h <;> (obtain ⟨_, _, h2⟩ := bind_ok h; rw [← Except.ok.inj h2]; exact same _ rfl id)
  | other =>
    rw [← Except.ok.inj h]
    exact same _ rfl id
  | _ =>
    obtain ⟨_, _, h2⟩ := bind_ok h
    rw [← Except.ok.inj h2]
    exact same _ rfl id

/-- **C62** Reading gives a tempo that cannot be written exactly when the document has such a metronome mark. -/
theorem C62_read (cursorTick : Int) (x : DirectionXml) (d : DirectionData) (h : getDirectionData cursorTick (.direction x) = .ok d) :
    (∃ t ∈ d.tempos, t.tempoType ≠ .beatsPerMinute) ↔ ∃ y ∈ x.types, OtherTempo y := by
  obtain ⟨tick, _, h⟩ := bind_ok h
  have key : ∀ (l : List DirectionTypeXml) (e : Env) (a b : DirectionData), l.foldlM (parseDirectionType e) a = .ok b →
      ((∃ t ∈ b.tempos, t.tempoType ≠ .beatsPerMinute) ↔ (∃ t ∈ a.tempos, t.tempoType ≠ .beatsPerMinute) ∨ ∃ y ∈ l, OtherTempo y) := by
    intro l
    induction l with
    | nil => intro e a b h; cases h; simp
    | cons y l ih =>
      intro e a b h
      rw [List.foldlM_cons] at h
      obtain ⟨c, h1, h2⟩ := bind_ok h
      rw [ih e c b h2, parse_tempos h1, or_assoc]
      simp
  rw [key _ _ _ _ h]
  simp

/-- **C62 (partial)** A direction or chord symbol that has been loaded can be written again without an exception, on any staff and at any place, unless it has a metronome mark that is not a number of
beats per minute. -/
theorem C62_again_partial (cursorTick : Int) (x : ElementXml) (hx : ∀ y, x = .direction y → ∀ t ∈ y.types, ¬ OtherTempo t) (d : DirectionData) (h : getDirectionData cursorTick x = .ok d)
    (staffIndex cursorTick' : Int) : getDirectionLikeThings staffIndex cursorTick' d ≠ .error .throws := by
  intro hw
  obtain ⟨t, h1, h2⟩ := C62_write_partial _ _ _ hw
  cases x with
  | direction y =>
    obtain ⟨z, h3, h4⟩ := (C62_read cursorTick y d h).mp ⟨t, h1, h2⟩
    exact hx y rfl z h3 h4
  | harmony y =>
    obtain ⟨_, _, h⟩ := bind_ok h
    obtain ⟨_, _, h⟩ := bind_ok h
    obtain ⟨_, _, h⟩ := bind_ok h
    rw [← Except.ok.inj h] at h1
    cases h1

/-- **C62 is false**: whatever the metronome mark, if it is not a number of beats per minute, then the score that has been loaded cannot be written. -/
theorem C62_tempo (cursorTick : Int) (m : MetronomeXml) (hm : OtherTempo (.metronome m)) (d : DirectionData)
    (h : getDirectionData cursorTick (.direction { types := [.metronome m] }) = .ok d) (staffIndex : Int) : getDirectionLikeThings staffIndex cursorTick d = .error .throws := by
  have hx := (C62_read cursorTick { types := [.metronome m] } d h).mpr ⟨_, by simp, hm⟩
  obtain ⟨t, ht, hd⟩ : ∃ t, t.tempoType ≠ .beatsPerMinute ∧ d = { tickTimePosition := cursorTick, isStaffValueSpecified := false, tempos := [t] } := by
    obtain ⟨tick, h1, h⟩ := bind_ok h
    have h1 := Except.ok.inj h1
    obtain ⟨d1, h2, h3⟩ := bind_ok h
    have h3 := Except.ok.inj h3
    obtain ⟨t, _, h4⟩ := bind_ok h2
    have h4 := Except.ok.inj h4
    have hd : d = { tickTimePosition := cursorTick, isStaffValueSpecified := false, tempos := [t] } := by rw [← h3, ← h4, ← h1]; rfl
    refine ⟨t, ?_, hd⟩
    obtain ⟨t', h5, h6⟩ := hx
    rw [hd] at h5
    rwa [List.mem_singleton.mp h5] at h6
  have h0 : ({ tickTimePosition := cursorTick, isStaffValueSpecified := false, tempos := [t] } : DirectionData).tickTimePosition - cursorTick = 0 := Int.sub_self cursorTick
  rw [hd, getDirectionLikeThings, h0]
  show (directionTypes _ >>= _) = _
  have : directionTypes { tickTimePosition := cursorTick, isStaffValueSpecified := false, tempos := [t] } = .error .throws := by
    show ([t].mapM writeTempo >>= _) = _
    rw [tempos_throw ⟨t, by simp, ht⟩]
    rfl
  rw [this]
  rfl

/-- The witness: `<per-minute>c. 108</per-minute>` is read as text; the score cannot be written. -/
theorem C62_tempo_text : ∃ d, getDirectionData 0 (.direction { types := [.metronome (.perMinute (chars "quarter") 0 (chars "c. 108"))] }) = .ok d ∧
    ∀ staffIndex, getDirectionLikeThings staffIndex 0 d = .error .throws := by
  obtain ⟨d, hd⟩ : ∃ d, getDirectionData 0 (.direction { types := [.metronome (.perMinute (chars "quarter") 0 (chars "c. 108"))] }) = .ok d :=
    ⟨{ isStaffValueSpecified := false, tempos := [{ tempoType := .tempoText, beatsPerMinute := { durationName := .quarter, dots := 0 }, tempoText := chars "c. 108" }] }, by decide +kernel⟩
  refine ⟨d, hd, C62_tempo 0 _ ?_ d hd⟩
  rintro ⟨v, hv⟩
  have h1 := ((C36_canonical_partial (chars "c. 108") (-1)).1 v).mpr hv
  rw [show stringToInt (chars "c. 108") (-1) = some (false, -1) by decide +kernel] at h1
  cases h1

/-- **C62** A metronome mark of notes and relations, which the schema allows, cannot even be loaded. -/
theorem C62_note_relation (cursorTick : Int) (x : DirectionXml) (ho : x.offset = none) (h : x.types.head? = some (.metronome .noteRelation)) :
    getDirectionData cursorTick (.direction x) = .error .throws := by
  cases hx : x.types with
  | nil => rw [hx] at h; cases h
  | cons y l =>
    rw [hx] at h
    have h := Option.some.inj h
    show readDirection cursorTick x = _
    rw [readDirection, ho, hx, h]
    rfl

/-- Misc data whose name does not start like a name of XML make the written document unreadable: the writer does not check names. -/
theorem C62_misc_name : directionAgain 0 0 { chords := [{ root := .c, chordKind := .major, miscData := [{ name := chars "1app" }] }] } = .error .throws := by
  decide +kernel

end Mx.Props
