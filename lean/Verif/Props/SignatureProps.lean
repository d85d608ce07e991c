import Verif.Proofs.Transposition

/-
C28, C32, C39, C40, C43: transpositions, time signatures, clefs, keys and measure numbers.
-/
open Spec
namespace Mx.Props

/-! ### C28 -/

/-- **C28** A transposition is written, and the written element is read; the number of semitones survives, and the number of scale steps survives exactly
if it is the usual number for the semitones or if it is neither 0 nor seven times the number of whole octaves.
Missing: the other pairs, whose number of scale steps is replaced (see `C28_sharp_transposition_changed`), and pairs on which the arithmetic overflows. -/
theorem C28_transposition_partial (c d : Int) (hc : InInt c) (hm : c ≠ INT_MIN) (hd : InInt d) (hh : InInt (d - 7 * c.tdiv 12)) :
    ∃ x t, convertToTranspose ⟨c, d⟩ = some x ∧ convertToTransposeData x = some t ∧ t.chromatic = c ∧
      (t.diatonic = d ↔ d = usualDiatonic c ∨ (d ≠ 0 ∧ d ≠ 7 * c.tdiv 12)) := by
  obtain ⟨x, h1, h2⟩ := transposition_back hc hm hd hh
  refine ⟨x, _, h1, h2, rfl, ?_⟩
  show (if d ≠ 0 ∧ d ≠ 7 * c.tdiv 12 then d else usualDiatonic c) = d ↔ _
  split
  · rename_i h; exact ⟨fun _ => .inr h, fun _ => rfl⟩
  · rename_i h; exact ⟨fun e => .inl e.symm, fun e => (e.resolve_right h).symm⟩

/-- **C28** The transposition of a part, present or absent, whose number of scale steps is the usual one: it comes back as it was, except that a transposition
by nothing is not written. -/
theorem C28_usual_part (t : Option TransposeData) (h : ∀ u, t = some u → InInt u.chromatic ∧ u.chromatic ≠ INT_MIN ∧ u.diatonic = usualDiatonic u.chromatic) :
    ∃ x, writeTransposition t = some x ∧ readTransposition x = some (if t = some ⟨0, 0⟩ then none else t) := by
  cases t with
  | none => exact ⟨none, rfl, rfl⟩
  | some u =>
    obtain ⟨c, d⟩ := u
    obtain ⟨hc, hm, hd⟩ := h _ rfl
    simp only at hc hm hd
    by_cases h0 : c = 0 ∧ d = 0
    · obtain ⟨rfl, rfl⟩ := h0
      exact ⟨none, rfl, rfl⟩
    have hb := usual_bounds hc
    have hg := figureOut_usual c
    have ho := octave_bounds hc
    obtain ⟨x, h1, h2⟩ := transposition_back (d := d) hc hm (by subst hd; unfold InInt INT_MIN INT_MAX; omega)
      (by have := usual_near hc; subst hd; unfold InInt INT_MIN INT_MAX; omega)
    refine ⟨some x, ?_, ?_⟩
    · show (if TransposeData.isUsed ⟨c, d⟩ then _ else _) = _
      rw [if_pos (by simp only [TransposeData.isUsed, decide_eq_true_eq]; tauto), h1]
      rfl
    · show (convertToTransposeData x).map some = _
      have hne : ¬ (some (TransposeData.mk c d) = some ⟨0, 0⟩) := by intro e; rw [Option.some.injEq, TransposeData.mk.injEq] at e; exact h0 e
      rw [h2, if_neg hne, ← hd, ite_self]
      rfl

/-- **C28** Reading any transposition of whole semitones, however the numbers are written: the semitones of the octave change are added, and so are its
scale steps. -/
theorem C28_read (chromatic diatonic octave : Int) (sc sd so : Str) (tc : DecimalText sc (chromatic : ℚ)) (td : IntegerText sd diatonic)
    (to' : IntegerText so octave) (hc : InInt chromatic) (hd : InInt diatonic) (ho : InInt octave) (h12 : InInt (octave * 12))
    (hs : InInt (chromatic + octave * 12)) (hs' : InInt (diatonic + octave * 7)) :
    convertToTransposeData ⟨some sd, sc, some so⟩ = some ⟨chromatic + 12 * octave, diatonic + 7 * octave⟩ := by
  have h7 : InInt (octave * 7) := by unfold InInt INT_MIN INT_MAX at *; omega
  unfold convertToTransposeData readDiatonic
  simp only [parseSemitones_numeral tc hc, castInt_int hc, Option.bind_eq_bind, Option.bind_some, Option.map_some, Option.getD_some, parseInteger_text td hd,
    parseInteger_text to' ho, chk_eq h7, chk_eq hs', chk_eq h12, chk_eq hs]
  show some _ = _
  congr 2 <;> ring

/-- The transpositions named in the documentation of the api. -/
example : ∀ p ∈ [((24 : Int), (14 : Int)), (12, 7), (-2, -1), (-7, -4), (-9, -5), (-14, -8)], p.2 = usualDiatonic p.1 := by decide

/-- The clarinet in B flat notated for A sharp: not the usual number of scale steps, but it survives. -/
example : InInt (-2) ∧ (-2 : Int) ≠ INT_MIN ∧ InInt (-2 - 7 * (-2 : Int).tdiv 12) ∧ (-2 : Int) ≠ usualDiatonic (-2) ∧ (-2 : Int) ≠ 0 ∧ (-2 : Int) ≠ 7 * (-2 : Int).tdiv 12 := by decide

/-- **C28 is false**: a part that sounds a semitone above the written note on the same scale step (C sharp) is read as a part in D flat. -/
theorem C28_sharp_transposition_changed : (writeTransposition (some ⟨1, 0⟩)).bind readTransposition = some (some ⟨1, 1⟩) := by decide +kernel

/-- **C28 is false**: an augmented octave (13 semitones, 7 steps) is read as a minor ninth (8 steps). -/
theorem C28_augmented_octave_changed : (writeTransposition (some ⟨13, 7⟩)).bind readTransposition = some (some ⟨13, 8⟩) := by decide +kernel

/-- **C28 is false**: the smallest `int` as number of semitones is undefined behaviour. -/
theorem C28_smallest_int_undefined : writeTransposition (some ⟨INT_MIN, 1⟩) = none := by decide +kernel

/-! ### C39 -/

/-- **C39** After the setter of a clef its predicate holds, and no other. -/
theorem C39_setter (n m : ClefName) (c : ClefData) : (c.set n).is m = true ↔ m = n := by
  have key : ∀ n m : ClefName, (decide (n.sign.1 = m.tested.1 ∧ n.sign.2 = m.tested.2 ∧ (0 : Int) = 0) = true) ↔ m = n := by
    intro n m; cases n <;> cases m <;> decide
  exact key n m

/-- **C39** A predicate holds exactly for the clefs that the setter leaves unchanged. -/
theorem C39_predicate (n : ClefName) (c : ClefData) : c.is n = true ↔ c.set n = c := by
  obtain ⟨s, l, o, t, loc⟩ := c
  have e : n.tested = n.sign := by cases n <;> rfl
  rw [ClefData.is, ClefData.set, decide_eq_true_eq, e, ClefData.mk.injEq]
  constructor
  · rintro ⟨h1, h2, h3⟩; exact ⟨h1.symm, h2.symm, h3.symm, rfl, rfl⟩
  · rintro ⟨h1, h2, h3, _, _⟩; exact ⟨h1.symm, h2.symm, h3.symm⟩

/-- **C39** A clef with a line is written and read back with its sign, line, octave change and staff; its location is `midMeasure` inside a measure
and unspecified at the start.  Missing: the location of a clef at the start of a measure and the clef without sign (see below). -/
theorem C39_clef_partial (staffIndex tick : Int) (c : ClefData) (hs : c.symbol ≠ .none) (hl : 0 ≤ c.line) (hl' : c.line ≤ INT_MAX) (ho : InInt c.octaveChange)
    (hi : 0 ≤ staffIndex) (hi' : staffIndex < INT_MAX) :
    ∃ x, writeClef staffIndex c = some x ∧
      importClef tick x = (staffIndex, { c with tick := tick, location := if tick = 0 then .unspecified else .midMeasure }) := by
  have hn : InInt (staffIndex + 1) := by unfold InInt INT_MIN INT_MAX at *; omega
  have hline : InInt c.line := by unfold InInt INT_MIN INT_MAX at *; omega
  have hsign : MapName.clefMap.toApi (parseEnum (StringEnum.toStr (MapName.clefMap.toCore c.symbol : Core.ClefSign)) : Core.ClefSign) = c.symbol := by
    have := C23_round_trip .ClefSign (MapName.clefMap.toCore c.symbol)
    show MapName.clefMap.toApi (parseEnum (StringEnum.toStr (MapName.clefMap.toCore c.symbol : Core.ClefSign)) : Core.ClefSign) = _
    erw [this]
    cases hsym : c.symbol <;> first | exact absurd hsym hs | rfl
  refine ⟨_, by rw [writeClef, staffNumberText, if_pos hi, chk_eq hn]; rfl, ?_⟩
  have hoct : ((if c.octaveChange ≠ 0 then some (Integer.toStr ⟨c.octaveChange⟩) else none).map parseInteger).getD 0 = c.octaveChange := by
    by_cases h : c.octaveChange = 0
    · rw [if_neg (by simpa using h), h]; rfl
    · rw [if_pos h]
      exact parseInteger_showInt ho
  unfold importClef
  simp only [if_pos hl, ge_iff_le, Option.map_some, Option.getD_some]
  rw [hsign, parseBounded_text hn (by constructor <;> simp only [IntKind.bounds] <;> unfold INT_MAX at * <;> omega),
    parseBounded_text hline (by exact hline), hoct, add_sub_cancel_right]
  rfl

/-- **C39** A clef that is not written with a staff number is read on the first staff. -/
theorem C39_no_staff (staffIndex tick : Int) (c : ClefData) (h : staffIndex < 0) :
    ∃ x, writeClef staffIndex c = some x ∧ (importClef tick x).1 = 0 := by
  refine ⟨_, by rw [writeClef, staffNumberText, if_neg (not_le.mpr h)]; rfl, rfl⟩

example : (writeClef 1 { symbol := .f, line := 4, octaveChange := -1, tick := 0, location := .unspecified }).map (importClef 30) =
    some (1, { symbol := .f, line := 4, octaveChange := -1, tick := 30, location := .midMeasure }) := by decide +kernel

/-- **C39 is false**: the soprano clef (the C clef on the first line) is set on line 0, and the mezzo-soprano clef (on the second line) on line 1. -/
theorem C39_soprano_lines_wrong (c : ClefData) :
    ((c.set .soprano).symbol, (c.set .soprano).line) = (.c, 0) ∧ trueClef .soprano = (.c, 1) ∧
    ((c.set .mezzoSoprano).symbol, (c.set .mezzoSoprano).line) = (.c, 1) ∧ trueClef .mezzoSoprano = (.c, 2) := ⟨rfl, rfl, rfl, rfl⟩

/-- **C39** The other setters give the clef of music notation. -/
theorem C39_true_clefs (n : ClefName) (c : ClefData) (h1 : n ≠ .soprano) (h2 : n ≠ .mezzoSoprano) :
    ((c.set n).symbol, (c.set n).line) = trueClef n ∧ (c.set n).octaveChange = 0 := by
  cases n <;> first | exact ⟨rfl, rfl⟩ | exact absurd rfl h1 | exact absurd rfl h2

/-- **C39 is false**: the location of a clef at the start of a measure is lost. -/
theorem C39_location_lost : (writeClef 0 { location := .beforeBarline }).map (importClef 0) = some (0, { location := .unspecified }) := by decide +kernel

/-- **C39 is false**: a clef without a line gets one. -/
theorem C39_line_invented : (writeClef 0 { symbol := .percussion, line := -1 }).map (importClef 0) = some (0, { symbol := .percussion, line := 3 }) := by
  decide +kernel

/-! ### C40 -/

/-- **C40** A traditional key comes back with fifths, cancel and mode, on the staff for which it was written (-1: all staves).
Missing: the mode `unsupported`. -/
theorem C40_traditional_partial (numStaves tick staffIndex : Int) (k : KeyData) (hk : k.nonTraditional = []) (hf : InInt k.fifths) (hc : InInt k.cancel)
    (hm : k.mode ≠ .unsupported) (hs : staffIndex = -1 ∨ 0 ≤ staffIndex ∧ staffIndex < numStaves) (hn : numStaves ≤ INT_MAX) :
    ∃ x, writeKey staffIndex k = some x ∧ readKey numStaves tick x = some { k with tick := tick, staffIndex := staffIndex } := by
  obtain ⟨f, c, m, t, si, nt⟩ := k
  simp only at hk hf hc hm
  subst hk
  have hcan : ((if c ≠ 0 then some (IntRange.ofKind .FifthsValue c).toStr else none).map (parseBounded .FifthsValue)).getD 0 = c := by
    by_cases h : c = 0
    · rw [if_neg (by simpa using h), h]; rfl
    · rw [if_pos h]
      exact parseBounded_text hc hc
  have hmode : readKeyMode (if m = .major ∨ m = .minor then
      some (OpenValue.ofEnum (if m = .major then Core.ModeEnum.major else Core.ModeEnum.minor)).valueString else none) = m := by
    cases m
    · decide +kernel
    · exact absurd rfl hm
    · decide +kernel
    · decide +kernel
  have hfif := parseBounded_text (k := .FifthsValue) hf hf
  have fin : ∀ num, ((num : Option Str).map (fun n => if parseBounded .StaffNumber n - 1 > numStaves - 1 then -1 else parseBounded .StaffNumber n - 1)).getD (-1)
      = staffIndex → readKey numStaves tick ⟨num, writeTraditionalKey ⟨f, c, m, t, si, []⟩⟩ = some ⟨f, c, m, tick, staffIndex, []⟩ := by
    intro num hnum
    unfold readKey writeTraditionalKey
    simp only
    rw [hcan, hmode, hnum, hfif]
  rcases hs with rfl | ⟨h0, h1⟩
  · exact ⟨⟨none, _⟩, rfl, fin none rfl⟩
  · have hin : InInt (staffIndex + 1) := by unfold InInt INT_MIN INT_MAX at *; omega
    refine ⟨⟨some _, _⟩, by rw [writeKey, staffNumberText, if_pos h0, chk_eq hin]; rfl, fin _ ?_⟩
    show (if _ then _ else _) = _
    rw [parseBounded_text hin (by constructor <;> simp only [IntKind.bounds] <;> unfold INT_MAX at * <;> omega), if_neg (by omega)]
    omega

/-- A part of a custom key that can be represented in the written document. -/
def KeyPartFits (p : KeyComponent) : Prop := p.step ≠ .unspecified ∧ p.accidental ≠ .sharpSharp ∧ InInt p.alter ∧ CentsFit p.alter p.cents

/-- **C40** The steps, alterations, cents and accidentals of a custom key come back unchanged and in order.
Missing: parts without a step, the accidental `sharpSharp`, cents that point the other way than the alteration or have more than four decimals; the staff
and the time of the key. -/
theorem C40_custom_partial (numStaves tick staffIndex : Int) (k : KeyData) (hk : k.nonTraditional ≠ []) (hp : ∀ p ∈ k.nonTraditional, KeyPartFits p)
    (hs : -1 ≤ staffIndex ∧ staffIndex < INT_MAX) :
    ∃ x, writeKey staffIndex k = some x ∧ readKey numStaves tick x = some { nonTraditional := k.nonTraditional } := by
  have one : ∀ p : KeyComponent, KeyPartFits p → ∃ x, writeKeyPart p = some x ∧ readKeyPart x = some p := by
    rintro ⟨st, al, ce, ac⟩ ⟨h1, h2, h3, h4⟩
    simp only at h1 h2 h3 h4
    obtain ⟨s, e1, e2, e3⟩ := alter_text h3 h4
    refine ⟨_, by rw [writeKeyPart, e1]; rfl, ?_⟩
    have hsc : readKeyAlter (convertToAlter al ce) = some (al, ce) := by
      unfold readKeyAlter
      by_cases h : convertToAlter al ce = 0
      · obtain ⟨rfl, rfl⟩ := convertToAlter_zero h3 h4 h
        rw [if_neg (by simpa using h)]
      · rw [if_pos h, e3]
    have hstep : MapName.stepMap.toApi (parseEnum (StringEnum.toStr (MapName.stepMap.toCore (if st = .unspecified then .c else st : Api.Step) : Core.StepEnum)) :
        Core.StepEnum) = st := by
      cases st <;> first | exact absurd rfl h1 | rfl
    have hacc : ((if ac ≠ .none then some (StringEnum.toStr (MapName.accidentalMap.toCore ac : Core.AccidentalValue)) else none).map
        (fun a => (MapName.accidentalMap.toApi (parseEnum a : Core.AccidentalValue) : Api.Accidental))).getD .none = ac := by
      cases ac <;> first | exact absurd rfl h2 | rfl
    unfold readKeyPart
    simp only [e2, Option.bind_eq_bind, Option.bind_some]
    rw [hsc]
    show some _ = _
    rw [hacc, hstep]
  have all : ∀ l : List KeyComponent, (∀ p ∈ l, KeyPartFits p) → ∃ xs, l.mapM writeKeyPart = some xs ∧ xs.mapM readKeyPart = some l := by
    intro l
    induction l with
    | nil => intro _; exact ⟨[], rfl, rfl⟩
    | cons p l ih =>
      intro h
      obtain ⟨x, a1, a2⟩ := one p (h p (by simp))
      obtain ⟨xs, b1, b2⟩ := ih (fun q hq => h q (by simp [hq]))
      refine ⟨x :: xs, ?_, ?_⟩
      · rw [List.mapM_cons, a1, b1]; rfl
      · rw [List.mapM_cons, a2, b2]; rfl
  obtain ⟨xs, a1, a2⟩ := all _ hp
  have hnum : ∃ num, staffNumberText staffIndex = some num := by
    unfold staffNumberText
    split
    · rw [chk_eq (by unfold InInt INT_MIN INT_MAX at *; omega)]; exact ⟨_, rfl⟩
    · exact ⟨_, rfl⟩
  obtain ⟨num, hnum⟩ := hnum
  refine ⟨⟨num, .nonTraditional xs⟩, ?_, ?_⟩
  · rw [writeKey, hnum]
    show (if _ then _ else _) = _
    rw [if_neg hk, a1]
    rfl
  · show (xs.mapM readKeyPart).map _ = _
    rw [a2]
    rfl

/-- D minor on the second staff, cancelling two sharps. -/
example : (writeKey 1 { fifths := -1, cancel := 2, mode := .minor }).bind (readKey 2 8) = some { fifths := -1, cancel := 2, mode := .minor, tick := 8, staffIndex := 1 } := by
  decide +kernel

example : KeyPartFits ⟨.d, 1, 25, .sharpUp⟩ := by
  refine ⟨by decide, by decide, by decide, ?_, ?_, 250000, ?_⟩ <;> norm_num [abs_of_pos]

/-- **C40 is false**: a mode that is not major or minor is read as no mode at all, not as unsupported. -/
theorem C40_dorian_unspecified : (readKey 1 0 ⟨none, .traditional none (chars "2") (some (chars "dorian"))⟩).map KeyData.mode = some .unspecified := by
  decide +kernel

/-- **C40 is false**: the mode `unsupported` is not restored. -/
theorem C40_unsupported_lost : (writeKey (-1) { mode := .unsupported }).bind (readKey 1 0) = some { mode := .unspecified } := by decide +kernel

/-- **C40 is false**: a custom key loses its staff and its time. -/
theorem C40_custom_staff_lost : (writeKey 1 { nonTraditional := [⟨.f, 1, 0, .sharp⟩], staffIndex := 1, tick := 5 }).bind (readKey 2 5) =
    some { nonTraditional := [⟨.f, 1, 0, .sharp⟩], staffIndex := -1, tick := 0 } := by decide +kernel

/-- **C40 is false**: cents against the direction of the alteration: a sharp lowered by a quarter of a semitone is read as raised by three quarters. -/
theorem C40_mixed_signs_changed : (writeKey (-1) { nonTraditional := [⟨.f, 1, -25, .sharp⟩] }).bind (readKey 1 0) =
    some { nonTraditional := [⟨.f, 0, 75, .sharp⟩] } := by decide +kernel

/-! ### C32 -/

/-- **C32** Reading: every measure has the closest time signature at or before it (4/4 if there is none), and is marked implicit unless it has one itself.
`found` are the time signatures that the measures state. -/
theorem C32_read_partial (xs : List (Option TimeXml)) (found : List (Option TimeSignatureData)) (h : xs.mapM timeFound = some found) :
    readTimes xs = some ((List.range xs.length).map (timeAt found)) := by
  have hl : found.length = xs.length := mapM_length h
  have := readTimesFrom_eq [] xs found {} (fun h => absurd rfl h) h
  rw [List.nil_append, hl] at this
  simp only [List.length_nil, Nat.zero_add] at this
  exact this

/-- **C32** What a measure states: a time element with whole numbers states them (in their canonical form), with the symbol and the display of its attributes;
a measure without time element states nothing. -/
theorem C32_stated (sy po : Option Str) (b bt : Str) (v w : Int) (hb : CanonicalInteger b v) (hbt : CanonicalInteger bt w) (hv : InInt v) (hw : InInt w) :
    timeFound (some (.signature sy po b bt)) = some (some ⟨readTimeSymbol sy, v, w, false, readTimeDisplay po⟩) ∧ timeFound none = some none := by
  refine ⟨?_, rfl⟩
  unfold timeFound parseTime
  simp only [((C36_canonical_partial b 4).1 v).mpr ⟨hb, hv⟩, ((C36_canonical_partial bt 4).1 w).mpr ⟨hbt, hw⟩]
  rfl

/-- **C32** Writing: an implicit time signature is not written, any other is. -/
theorem C32_written (ts : List TimeSignatureData) (i : Nat) (t : TimeSignatureData) (h : ts[i]? = some t) :
    ∃ x, (writeTimes ts)[i]? = some x ∧ (x = none ↔ t.isImplicit = true) := by
  refine ⟨writeMeasureTime t, by rw [writeTimes, List.getElem?_map, h]; rfl, ?_⟩
  unfold writeMeasureTime
  cases t.isImplicit <;> simp

/-- **C32** Write then read: the explicit time signatures come back, and every implicit one is the closest explicit one before it. -/
theorem C32_write_read (ts : List TimeSignatureData) (h : ∀ t ∈ ts, InInt t.beats ∧ InInt t.beatType) :
    readTimes (writeTimes ts) = some ((List.range ts.length).map (timeAt (explicitTimes ts))) := by
  have hm : (writeTimes ts).mapM timeFound = some (explicitTimes ts) := by
    unfold writeTimes explicitTimes
    induction ts with
    | nil => rfl
    | cons t ts ih =>
      rw [List.map_cons, List.map_cons, List.mapM_cons, timeFound_write t (h t (by simp)), ih (fun u hu => h u (by simp [hu]))]
      rfl
  rw [C32_read_partial _ _ hm, writeTimes, List.length_map]

/-- **C32** Write then read gives back the same list exactly if every implicit time signature agrees with the closest explicit one before it. -/
theorem C32_same_list (ts : List TimeSignatureData) (h : ∀ t ∈ ts, InInt t.beats ∧ InInt t.beatType) :
    readTimes (writeTimes ts) = some ts ↔ TimesAgree ts := by
  rw [C32_write_read ts h, Option.some.injEq]
  constructor
  · intro e i t hi
    rw [← e, List.getElem?_map] at hi
    have hlt : i < ts.length := by
      by_contra hc
      rw [List.getElem?_eq_none (by simpa using hc)] at hi
      cases hi
    rw [List.getElem?_range hlt] at hi
    injection hi with hi
    exact hi.symm
  · intro ha
    apply List.ext_getElem?
    intro i
    rw [List.getElem?_map]
    rcases Nat.lt_or_ge i ts.length with hi | hi
    · rw [List.getElem?_range hi, List.getElem?_eq_getElem hi]
      show some _ = _
      rw [← ha i _ (List.getElem?_eq_getElem hi)]
    · rw [List.getElem?_eq_none (by simpa using hi), List.getElem?_eq_none hi]
      rfl

/-- Three measures: 3/4, implicit, cut time. -/
example : readTimes (writeTimes [⟨.unspecified, 3, 4, false, .no⟩, ⟨.unspecified, 3, 4, true, .no⟩, ⟨.cut, 2, 2, false, .unspecified⟩]) =
    some [⟨.unspecified, 3, 4, false, .no⟩, ⟨.unspecified, 3, 4, true, .no⟩, ⟨.cut, 2, 2, false, .unspecified⟩] := by decide +kernel

/-- **C32 is false for compound meters**: 3+2/8 after 3/4 is read as an implicit 3/4. -/
theorem C32_compound_meter_ignored : readTimes [some (.signature none none (chars "3") (chars "4")), some (.signature none none (chars "3+2") (chars "8"))] =
    some [⟨.unspecified, 3, 4, false, .unspecified⟩, ⟨.unspecified, 3, 4, true, .unspecified⟩] := by decide +kernel

/-- **C32 is false for a measure without meter**: `senza-misura` after 3/4 is read as an implicit 3/4. -/
theorem C32_senza_misura_ignored : readTimes [some (.signature none none (chars "3") (chars "4")), some .senzaMisura] =
    some [⟨.unspecified, 3, 4, false, .unspecified⟩, ⟨.unspecified, 3, 4, true, .unspecified⟩] := by decide +kernel

/-! ### C43 -/

/-- **C43** The number text of a measure, with white space normalised, is restored; it is empty when it is the ordinary number of the measure.  The
width is restored if it is not negative and has at most six decimals (a negative width means none), and so is whether the measure is implicit. -/
theorem C43_measure (i : Int) (m : MeasureHead) (hi : InInt (i + 1)) (hw : m.width = -1 ∨ 0 ≤ m.width ∧ m.width ≤ 9999999999999999999 ∧ HasDecimals 6 m.width) :
    ∃ x, writeMeasureHead i m = some x ∧
      readMeasureHead i x = some { m with number := if xsToken m.number = showInt (i + 1) then [] else xsToken m.number } := by
  obtain ⟨n, w, im⟩ := m
  simp only at hw
  have hshow : xsToken (showInt (i + 1)) = showInt (i + 1) := C25_normalised_kept _ (showInt_normalised _)
  have him : ((if im ≠ .unspecified then some (StringEnum.toStr (MapName.boolMap.toCore im : Core.YesNo)) else none).map
      (fun i => if (parseEnum i : Core.YesNo) = .yes then Api.Bool.yes else .no)).getD .unspecified = im := by cases im <;> rfl
  have hnum : (if xsToken (if n.length > 0 then xsToken n else xsToken (showInt (i + 1))) = showInt (i + 1) then ([] : Str) else
      xsToken (if n.length > 0 then xsToken n else xsToken (showInt (i + 1)))) = if xsToken n = showInt (i + 1) then [] else xsToken n := by
    by_cases h : n.length > 0
    · rw [if_pos h, C25_idempotent]
    · rw [if_neg h, hshow, hshow, if_pos rfl]
      have : n = [] := List.eq_nil_of_length_eq_zero (by omega)
      subst this
      split
      · rfl
      · rfl
  have hwidth : ∃ ws, (if w ≥ 0 then (tenthsText w).map some else some none) = some ws ∧ (ws.map parseTenths).getD (some (-1)) = some w := by
    rcases hw with rfl | ⟨h0, h1, h2⟩
    · exact ⟨none, by rw [if_neg (by norm_num)], rfl⟩
    · obtain ⟨s, e1, e2⟩ := tenths_text h2 (by rw [abs_of_nonneg h0]; exact h1)
      exact ⟨some s, by rw [if_pos h0, e1]; rfl, e2⟩
  obtain ⟨ws, w1, w2⟩ := hwidth
  refine ⟨⟨if n.length > 0 then xsToken n else xsToken (showInt (i + 1)), ws,
    if im ≠ .unspecified then some (StringEnum.toStr (MapName.boolMap.toCore im : Core.YesNo)) else none⟩, ?_, ?_⟩
  · unfold writeMeasureHead measureWidthText
    simp only [w1, chk_eq hi, Option.bind_eq_bind, Option.bind_some]
    rfl
  · unfold readMeasureHead
    simp only [w2, chk_eq hi, Option.bind_eq_bind, Option.bind_some]
    show some _ = _
    rw [him, hnum]

/-- **C43** The text that was written is the number text, or the ordinary number if there is none. -/
theorem C43_written (i : Int) (m : MeasureHead) (x : MeasureHeadXml) (h : writeMeasureHead i m = some x) :
    x.number = if m.number = [] then showInt (i + 1) else xsToken m.number := by
  unfold writeMeasureHead at h
  cases hw : measureWidthText m.width with
  | none => simp [hw] at h
  | some w =>
    by_cases hi : InInt (i + 1)
    · simp only [hw, chk_eq hi, Option.bind_eq_bind, Option.bind_some] at h
      injection h with h
      subst h
      show (if _ then _ else _) = _
      by_cases hn : m.number = []
      · rw [if_neg (by rw [hn]; decide), if_pos hn]
        exact C25_normalised_kept _ (showInt_normalised _)
      · rw [if_pos (List.length_pos_iff.mpr hn), if_neg hn]
    · rw [chk, if_neg hi] at h
      simp [hw] at h

/-- A pickup measure numbered 0 and an ordinary measure. -/
example : ((writeMeasureHead 0 { number := chars "0", implicit := .yes }).bind (readMeasureHead 0)).map MeasureHead.number = some (chars "0") ∧
    ((writeMeasureHead 6 { number := chars "7" }).bind (readMeasureHead 6)).map MeasureHead.number = some [] := by decide +kernel

end Mx.Props
