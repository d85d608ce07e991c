import Verif.Proofs.Notations

/-
C41: tuplets, C42: positions, colours and curves, C59: ties on repeated writing and reading.
-/
open Spec
namespace Mx.Props
open Mx.Spec
open Measure (NoteKind)

/-! ### C42: positions -/

/-- **C42** exactly: what comes back of a position through an element with any set of position attributes. -/
theorem C42_position (m : PositionMembers) (p : PositionData) (h : PositionFits p) : (writePosition m p).bind (readPosition m) = some (keptPosition m p) := by
  obtain ⟨x, a, b⟩ := position_back m h
  rw [a, Option.bind_some, b]

/-- **C42 (partial)** A position comes back unchanged if the element has an attribute for everything that is specified in it.  The full property would be for every
element; `C42_alignment_lost` shows what happens without the attribute. -/
theorem C42_position_partial (m : PositionMembers) (p : PositionData) (h : PositionFits p)
    (hd : if m.defaultXY then PlainNum p.defaultX ∧ PlainNum p.defaultY else p.defaultX = {} ∧ p.defaultY = {})
    (hr : if m.relativeXY then PlainNum p.relativeX ∧ PlainNum p.relativeY else p.relativeX = {} ∧ p.relativeY = {})
    (hp : m.placement = false → p.placement = .unspecified) (hh : m.halign = false → p.horizontalAlignment = .unspecified)
    (hv : m.valign = false → p.verticalAlignment = .unspecified) : (writePosition m p).bind (readPosition m) = some p := by
  rw [C42_position m p h, keptPosition_self m hd hr hp hh hv]

/-- A position with three of the numbers and a placement. -/
def samplePosition : PositionData :=
  { defaultX := ⟨true, 123 / 10⟩, relativeX := ⟨true, 0⟩, relativeY := ⟨true, -7 / 4⟩, placement := .below }

theorem samplePosition_fits : PositionFits samplePosition := by
  refine ⟨fun _ => ⟨⟨12300000, by norm_num [samplePosition]⟩, by norm_num [samplePosition]⟩, fun h => (by cases h),
    fun _ => ⟨⟨0, by norm_num [samplePosition]⟩, by norm_num [samplePosition]⟩, fun _ => ⟨⟨-1750000, by norm_num [samplePosition]⟩, ?_⟩⟩
  show |(-7 / 4 : ℚ)| ≤ _
  rw [abs_le]; constructor <;> norm_num

/-- The hypotheses of `C42_position_partial` are met by a position with specified and unspecified numbers. -/
example : (writePosition {} samplePosition).bind (readPosition {}) = some samplePosition := by
  refine C42_position_partial {} samplePosition samplePosition_fits ?_ ?_ (fun h => (by cases h)) (fun _ => rfl) (fun _ => rfl)
  · exact ⟨fun h => (by cases h), fun _ => rfl⟩
  · exact ⟨fun h => (by cases h), fun h => (by cases h)⟩

/-- **C42 is false for alignments** of elements without these attributes (such as slurs): the alignment is not written. -/
theorem C42_alignment_lost : (writePosition curveMembers { horizontalAlignment := .center, verticalAlignment := .top }).bind (readPosition curveMembers) = some {} := by decide +kernel

/-! ### C42: colours -/

/-- **C42** exactly: what comes back of a colour. -/
theorem C42_color (isSpecified : Bool) (c : ColorData) : readColor (writeColor isSpecified c) = (isSpecified, keptColor isSpecified c) := color_back isSpecified c

/-- **C42** Colours come back unchanged. -/
theorem C42_color_kept (c : ColorData) (h : c.isAlphaSpecified = false → c.alpha = 255) : readColor (writeColor true c) = (true, c) := by
  rw [C42_color]
  obtain ⟨r, g, b, s, a⟩ := c
  cases s with
  | true => rfl
  | false => have : a = 255 := h rfl
             subst this; rfl

example : writeColor true { red := 255, green := 10, blue := 0, isAlphaSpecified := true, alpha := 128 } = some (chars "#80FF0A00") := by decide +kernel

/-! ### C42: curves -/

/-- Writing and reading the curves of a note that is neither the start nor the end of a tie. -/
def curvesAgain (kind : NoteKind) (c : NoteCurves) : Option NoteCurves := (writeNoteCurves kind false false c).bind readNoteCurves

/-- **C42** exactly: what comes back of the curves of a note, all three kinds in their order. -/
theorem C42_curves (kind : NoteKind) (c : NoteCurves) (h : CurvesFit c) : curvesAgain kind c = some (keptCurves c) := by
  rw [curvesAgain, noteCurves_back kind false false h]
  cases kind <;> rfl

/-- **C42 (partial)** Curves come back unchanged if their optional members can be held by the document.  The full property would be for every curve; the theorems
below show that this is false. -/
theorem C42_curves_partial (kind : NoteKind) (c : NoteCurves) (h : CurvesFit c) (hp : PlainCurves c) : curvesAgain kind c = some c := by
  rw [C42_curves kind c h, keptCurves_self hp]

/-- Two curves that start, one that goes on and one that stops. -/
def sampleCurves : NoteCurves :=
  { starts := [{ curveType := .slur, numberLevel := 2, curveOrientation := .overhand, isColorSpecified := true, colorData := { red := 9, alpha := 255 }
                 lineData := { lineType := .dashed, dashLength := ⟨true, 5 / 2⟩ } },
               { curveType := .tie, curvePoints := { isBezierOffsetSpecified := true, bezierOffset := -3 } }]
    continuations := [{ curveType := .slur, numberLevel := 6, bezierX2 := ⟨true, 4⟩ }]
    stops := [{ curveType := .slur, numberLevel := 1, curvePoints := { bezierY := ⟨true, 12⟩, positionData := { placement := .above } } }] }

theorem noPoints_fit : PointsFit {} := ⟨⟨fun h => (by cases h), fun h => (by cases h), fun h => (by cases h), fun h => (by cases h)⟩, fun h => (by cases h), fun h => (by cases h), by decide⟩

theorem sampleCurves_fit : CurvesFit sampleCurves := by
  refine ⟨?_, ?_, ?_⟩ <;> intro x hx
  · simp only [sampleCurves, List.mem_cons, List.not_mem_nil, or_false] at hx
    rcases hx with rfl | rfl
    · refine ⟨by decide, by decide, noPoints_fit, fun _ => ⟨⟨2500000, by norm_num⟩, by norm_num⟩, fun h => (by cases h)⟩
    · refine ⟨by decide, by decide, ⟨noPoints_fit.1, noPoints_fit.2.1, noPoints_fit.2.2.1, by decide⟩, fun h => (by cases h), fun h => (by cases h)⟩
  · simp only [sampleCurves, List.mem_cons, List.not_mem_nil, or_false] at hx
    subst hx
    exact ⟨by decide, by decide, noPoints_fit, fun _ => ⟨⟨4000000, by norm_num⟩, by norm_num⟩, fun h => (by cases h), fun h => (by cases h)⟩
  · simp only [sampleCurves, List.mem_cons, List.not_mem_nil, or_false] at hx
    subst hx
    exact ⟨by decide, by decide, ⟨fun h => (by cases h), fun h => (by cases h), fun h => (by cases h), fun h => (by cases h)⟩, fun h => (by cases h),
      fun _ => ⟨⟨12000000, by norm_num⟩, by norm_num⟩, by decide⟩

/-- The hypotheses of `C42_curves_partial` are met. -/
example : curvesAgain .grace sampleCurves = some sampleCurves := by
  rw [C42_curves _ _ sampleCurves_fit]
  decide +kernel

theorem noPoints_plain : PlainPoints {} := ⟨⟨fun _ => rfl, fun _ => rfl, fun _ => rfl, fun _ => rfl, rfl, rfl⟩, fun _ => rfl, fun _ => rfl, fun _ => rfl⟩

example : PlainCurves { sampleCurves with starts := [{ curveType := .slur, numberLevel := 2, curveOrientation := .overhand }], continuations := [], stops := [] } := by
  refine ⟨?_, fun _ h => (by cases h), fun _ h => (by cases h)⟩
  intro x hx
  simp only [List.mem_cons, List.not_mem_nil, or_false] at hx
  subst hx
  exact ⟨Or.inr (by decide), noPoints_plain, rfl, rfl, rfl, fun _ => rfl, fun _ => rfl, fun _ => rfl, fun _ => rfl⟩

/-- **C42 is false for the placement of a curve**: `CurveStart::placement` is neither written nor read. -/
theorem C42_placement_lost (kind : NoteKind) : curvesAgain kind { starts := [{ curveType := .slur, placement := .above }] } = some { starts := [{ curveType := .slur }] } := by
  cases kind <;> decide +kernel

/-- **C42 is false for line hooks and end lengths.** -/
theorem C42_hook_lost (kind : NoteKind) : curvesAgain kind { starts := [{ curveType := .slur, lineData := { lineHook := .up, endLength := ⟨true, 10⟩ } }] } =
    some { starts := [{ curveType := .slur }] } := by
  cases kind <;> decide +kernel

/-- **C42 is false for the second Bézier point of a continued tie.** -/
theorem C42_tie_handle_lost (kind : NoteKind) : curvesAgain kind { continuations := [{ curveType := .tie, bezierX2 := ⟨true, 10⟩ }] } =
    some { continuations := [{ curveType := .tie }] } := by
  cases kind <;> decide +kernel

/-- **C42 is false for curve numbers above 6**: they become 6. -/
theorem C42_number_limited (kind : NoteKind) : curvesAgain kind { starts := [{ curveType := .slur, numberLevel := 7 }], stops := [{ curveType := .slur, numberLevel := 6 }] } =
    some { starts := [{ curveType := .slur, numberLevel := 6 }], stops := [{ curveType := .slur, numberLevel := 6 }] } := by
  cases kind <;> decide +kernel

/-- **C42 is false for curves of unspecified type**: the end of such a curve comes back as the start of a tie. -/
theorem C42_unspecified_becomes_tie_start (kind : NoteKind) : curvesAgain kind { stops := [{ curveType := .unspecified, numberLevel := 3 }] } = some { starts := [{ curveType := .tie }] } := by
  cases kind <;> decide +kernel

/-- **C42** Undefined behaviour: a valid document with a Bézier offset beyond the range of `int` makes reading the slur undefined. -/
theorem C42_offset_undefined (kind : NoteKind) : ∃ x, writeNoteCurves kind false false { starts := [{ curveType := .slur }] } = some [x] ∧
    readNoteCurves [{ x with bezierOffset := some (chars "3000000000") }] = none := by
  cases kind <;> exact ⟨_, rfl, by decide +kernel⟩

/-! ### C59 -/

/-- The curves of a note with tie flags after writing and reading `k` times. -/
def curveRounds (kind : NoteKind) (isTieStop isTieStart : Bool) : Nat → NoteCurves → Option NoteCurves
  | 0, c => some c
  | k + 1, c => ((writeNoteCurves kind isTieStop isTieStart c).bind readNoteCurves).bind (curveRounds kind isTieStop isTieStart k)

/-- The curves that one round adds: none without flags and to cue notes, otherwise one tie for a flag, two of each kind for both flags. -/
def addedCurves (kind : NoteKind) (isTieStop isTieStart : Bool) : Nat × Nat :=
  if kind = .cue then (0, 0) else
  match isTieStop, isTieStart with
  | false, false => (0, 0)
  | false, true => (1, 0)
  | true, false => (0, 1)
  | true, true => (2, 2)

/-- **C59** exactly: `k` rounds put plain ties before the curves of the note and change nothing else. -/
theorem C59_rounds (kind : NoteKind) (isTieStop isTieStart : Bool) (k : Nat) (c : NoteCurves) (h : CurvesFit c) (hp : PlainCurves c) :
    curveRounds kind isTieStop isTieStart k c = some
      { starts := List.replicate (k * (addedCurves kind isTieStop isTieStart).1) { curveType := .tie } ++ c.starts
        continuations := c.continuations
        stops := List.replicate (k * (addedCurves kind isTieStop isTieStart).2) { curveType := .tie } ++ c.stops } := by
  have e1 : tieStarts kind isTieStop isTieStart = List.replicate (addedCurves kind isTieStop isTieStart).1 { curveType := .tie } := by
    cases kind <;> cases isTieStop <;> cases isTieStart <;> rfl
  have e2 : tieStops kind isTieStop isTieStart = List.replicate (addedCurves kind isTieStop isTieStart).2 { curveType := .tie } := by
    cases kind <;> cases isTieStop <;> cases isTieStart <;> rfl
  induction k generalizing c with
  | zero => simp [curveRounds]
  | succ k ih =>
    rw [curveRounds, noteCurves_back kind isTieStop isTieStart h, Option.bind_some, keptCurves_self hp, e1, e2, ih]
    · simp only [← List.append_assoc, ← List.replicate_add, Nat.succ_mul]
    · refine ⟨?_, h.2.1, ?_⟩ <;> intro x hx <;> rcases List.mem_append.mp hx with hx | hx
      · obtain ⟨_, rfl⟩ := List.mem_replicate.mp hx
        exact ⟨by decide, by decide, noPoints_fit, fun h => (by cases h), fun h => (by cases h)⟩
      · exact h.1 x hx
      · obtain ⟨_, rfl⟩ := List.mem_replicate.mp hx
        exact ⟨by decide, by decide, noPoints_fit⟩
      · exact h.2.2 x hx
    · refine ⟨?_, hp.2.1, ?_⟩ <;> intro x hx <;> rcases List.mem_append.mp hx with hx | hx
      · obtain ⟨_, rfl⟩ := List.mem_replicate.mp hx
        exact ⟨Or.inl rfl, noPoints_plain, rfl, rfl, rfl, fun _ => rfl, fun _ => rfl, fun _ => rfl, fun _ => rfl⟩
      · exact hp.1 x hx
      · obtain ⟨_, rfl⟩ := List.mem_replicate.mp hx
        exact ⟨Or.inl rfl, noPoints_plain⟩
      · exact hp.2.2 x hx

/-- **C59 (partial)** The curves of a note that is not tied, and of every cue note, do not change however often the document is written and read.  The full property
would be for every note; `C59_ties_multiply` shows that it is false for all the others. -/
theorem C59_stable_partial (kind : NoteKind) (isTieStop isTieStart : Bool) (k : Nat) (c : NoteCurves) (h : CurvesFit c) (hp : PlainCurves c)
    (hk : kind = .cue ∨ isTieStop = false ∧ isTieStart = false) : curveRounds kind isTieStop isTieStart k c = some c := by
  rw [C59_rounds _ _ _ _ _ h hp]
  have e : addedCurves kind isTieStop isTieStart = (0, 0) := by
    rcases hk with rfl | ⟨rfl, rfl⟩
    · rfl
    · cases kind <;> rfl
  rw [e]
  simp

/-- **C59 is false for ties**: every time a score with a tied note is written and read, the note has more curves; there is no bound. -/
theorem C59_ties_multiply (kind : NoteKind) (isTieStop isTieStart : Bool) (hk : kind ≠ .cue) (ht : isTieStop = true ∨ isTieStart = true) (k : Nat) :
    ∃ c, curveRounds kind isTieStop isTieStart k {} = some c ∧ k ≤ c.starts.length + c.stops.length := by
  refine ⟨_, C59_rounds kind isTieStop isTieStart k {} ⟨fun _ h => (by cases h), fun _ h => (by cases h), fun _ h => (by cases h)⟩
    ⟨fun _ h => (by cases h), fun _ h => (by cases h), fun _ h => (by cases h)⟩, ?_⟩
  simp only [List.append_nil, List.length_replicate]
  cases kind
  · cases isTieStop <;> cases isTieStart <;> simp_all [addedCurves] <;> omega
  · exact absurd rfl hk
  · cases isTieStop <;> cases isTieStart <;> simp_all [addedCurves] <;> omega

example : curveRounds .normal true true 3 {} = some { starts := List.replicate 6 { curveType := .tie }, stops := List.replicate 6 { curveType := .tie } } := by decide +kernel

/-! ### C41: tuplets -/

/-- **C41** exactly: what comes back of the start of a tuplet, whatever the note. -/
theorem C41_tuplet (n : TupletNote) (t : TupletStart) (h : TupletNumbers t) : readTuplet n (writeTupletStart t) = some (.inl (keptTuplet t)) := tupletStart_back n h

/-- **C41** exactly: what comes back of the end of a tuplet. -/
theorem C41_tuplet_stop (n : TupletNote) (t : TupletStop) (h : InInt t.numberLevel) : readTuplet n (writeTupletStop t) = some (.inr { numberLevel := keptNumber t.numberLevel }) :=
  tupletStop_back n h

/-- **C41 (partial)** A tuplet whose numbers and names are given comes back unchanged.  The full property would be for every tuplet; the theorems below show that
this is false. -/
theorem C41_tuplet_partial (n : TupletNote) (t : TupletStart) (h : TupletNumbers t) (hp : PlainTuplet t) : readTuplet n (writeTupletStart t) = some (.inl t) := by
  rw [C41_tuplet n t h, keptTuplet_self hp]

/-- Five dotted eighths in the time of two quarters. -/
def sampleTuplet : TupletStart :=
  { numberLevel := 2, actualNumber := 5, actualDurationName := .eighth, actualDots := 1, normalNumber := 2, normalDurationName := .quarter, showActualNumber := .yes
    showNormalNumber := .no, bracket := .yes }

/-- The hypotheses of `C41_tuplet_partial` are met. -/
example : readTuplet {} (writeTupletStart sampleTuplet) = some (.inl sampleTuplet) :=
  C41_tuplet_partial {} sampleTuplet ⟨by decide, by decide, by decide⟩
    ⟨Or.inr (by decide), rfl, by decide, by decide, by decide, by decide, Or.inr (by decide), Or.inl rfl, by decide⟩

/-- **C41 is false for tuplets without names and numbers** (the default): they come back as 0 maximas in the time of 0 maximas. -/
theorem C41_tuplet_defaults_changed (n : TupletNote) : readTuplet n (writeTupletStart {}) =
    some (.inl { actualNumber := 0, actualDurationName := .maxima, normalNumber := 0, normalDurationName := .maxima }) := by
  rw [C41_tuplet n {} ⟨by decide, by decide, by decide⟩]; rfl

/-- **C41 is false for positions of tuplets**: they are not written. -/
theorem C41_tuplet_position_lost (n : TupletNote) (t : TupletStart) (h : TupletNumbers t) (p : PositionData) :
    readTuplet n (writeTupletStart { t with positionData := p }) = readTuplet n (writeTupletStart t) := by
  rw [C41_tuplet n _ h, C41_tuplet n { t with positionData := p } h]; rfl

/-- **C41 is false for 0 dots**: they come back as −1. -/
theorem C41_tuplet_dots_changed (n : TupletNote) : readTuplet n (writeTupletStart { sampleTuplet with actualDots := 0 }) = some (.inl { sampleTuplet with actualDots := -1 }) := by
  rw [C41_tuplet n _ ⟨by decide, by decide, by decide⟩]; rfl

/-- **C41** When a tuplet leaves both parts out, the numbers are those of the time modification of the note. -/
theorem C41_tuplet_guess {actual normal : Int} (ha : InInt actual) (hn : InInt normal) (ha0 : 0 ≤ actual) (hn0 : 0 ≤ normal) (g : Option (Str × Nat)) (type : Option Str) :
    ∃ t, readTuplet { timeModification := some ((IntRange.ofKind .NonNegativeInteger actual).toStr, (IntRange.ofKind .NonNegativeInteger normal).toStr, g), type := type }
      { type := chars "start" } = some (.inl t) ∧ t.actualNumber = actual ∧ t.normalNumber = normal := by
  refine ⟨_, rfl, ?_, ?_⟩
  · cases g <;> cases type <;> exact natInt_back ha ha0
  · cases g <;> cases type <;> exact natInt_back hn hn0

/-- **C41** When a tuplet leaves both parts out and the time modification names its notes, then both parts have these notes and dots. -/
theorem C41_tuplet_guess_notes (actual normal : Str) (name : Api.DurationName) (hn : name ≠ .unspecified) (dots : Nat) (type : Option Str) :
    ∃ t, readTuplet { timeModification := some (actual, normal, some (StringEnum.toStr (MapName.durationMap.toCore name : Core.NoteTypeValue), dots)), type := type } { type := chars "start" } =
      some (.inl t) ∧ t.actualDurationName = name ∧ t.normalDurationName = name ∧ t.actualDots = dots ∧ t.normalDots = dots := by
  have h : (MapName.durationMap.toApi (parseEnum (StringEnum.toStr (MapName.durationMap.toCore name : Core.NoteTypeValue)) : Core.NoteTypeValue) : Api.DurationName) = name := by
    cases name <;> first | exact absurd rfl hn | decide +kernel
  exact ⟨_, rfl, h, h, rfl, rfl⟩

/-- **C41** Otherwise they have the notes of the type of the note. -/
theorem C41_tuplet_guess_type (actual normal : Str) (name : Api.DurationName) (hn : name ≠ .unspecified) :
    ∃ t, readTuplet { timeModification := some (actual, normal, none), type := some (StringEnum.toStr (MapName.durationMap.toCore name : Core.NoteTypeValue)) } { type := chars "start" } =
      some (.inl t) ∧ t.actualDurationName = name ∧ t.normalDurationName = name := by
  have h : (MapName.durationMap.toApi (parseEnum (StringEnum.toStr (MapName.durationMap.toCore name : Core.NoteTypeValue)) : Core.NoteTypeValue) : Api.DurationName) = name := by
    cases name <;> first | exact absurd rfl hn | decide +kernel
  exact ⟨_, rfl, h, h⟩

/-- **C41 is false for tuplets with only `<tuplet-actual>`**: its number is replaced by the one of the time modification and the number of normal notes, which the
time modification gives, is not set. -/
theorem C41_tuplet_guess_swapped : readTuplet { timeModification := some (chars "3", chars "2", none) }
    { type := chars "start", actual := some { number := some (chars "6"), type := some (chars "eighth"), dots := 0 } } =
    some (.inl { actualNumber := 3, actualDurationName := .eighth, normalNumber := -1 }) := by decide +kernel

end Mx.Props
