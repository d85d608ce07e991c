import Verif.Spec.Directions
import Verif.Props.StringProps

/-
Proofs about directions and chord symbols.
-/
open Spec
namespace Mx.Directions
open Mx.Spec

/-! ### Lists -/

theorem mapM_some_of {α β : Type} {f : α → Option β} {l : List α} (h : ∀ a ∈ l, ∃ x, f a = some x) : ∃ xs, l.mapM f = some xs := by
  induction l with
  | nil => exact ⟨[], rfl⟩
  | cons a l ih =>
    obtain ⟨x, hx⟩ := h a (by simp)
    obtain ⟨xs, hxs⟩ := ih (fun b hb => h b (by simp [hb]))
    exact ⟨x :: xs, by rw [List.mapM_cons, hx, hxs]; rfl⟩

theorem mapM_back {α β γ : Type} {w : α → Option β} {r : β → Option γ} {k : α → γ} {l : List α} (h : ∀ a ∈ l, ∃ x, w a = some x ∧ r x = some (k a)) :
    ∃ xs, l.mapM w = some xs ∧ xs.length = l.length ∧ xs.mapM r = some (l.map k) := by
  induction l with
  | nil => exact ⟨[], rfl, rfl, rfl⟩
  | cons a l ih =>
    obtain ⟨x, hx, hr⟩ := h a (by simp)
    obtain ⟨xs, hxs, hlen, hrs⟩ := ih (fun b hb => h b (by simp [hb]))
    refine ⟨x :: xs, by rw [List.mapM_cons, hx, hxs]; rfl, by simp [hlen], ?_⟩
    rw [List.mapM_cons, hr, hrs]; rfl

/-- Reading the types that are written for the items of a list, one type for each. -/
theorem fold_back {α : Type} {e : Env} {w : α → Option DirectionTypeXml} {u : DirectionData → α → DirectionData} {l : List α}
    (h : ∀ a ∈ l, ∃ x, w a = some x ∧ ∀ d, parseDirectionType e d x = .ok (u d a)) :
    ∃ xs, l.mapM w = some xs ∧ xs.length = l.length ∧ ∀ d, xs.foldlM (parseDirectionType e) d = .ok (l.foldl u d) := by
  induction l with
  | nil => exact ⟨[], rfl, rfl, fun _ => rfl⟩
  | cons a l ih =>
    obtain ⟨x, hx, hr⟩ := h a (by simp)
    obtain ⟨xs, hxs, hlen, hrs⟩ := ih (fun b hb => h b (by simp [hb]))
    refine ⟨x :: xs, by rw [List.mapM_cons, hx, hxs]; rfl, by simp [hlen], fun d => ?_⟩
    rw [List.foldlM_cons, hr d]
    exact hrs _

theorem fold_types (l : List DirectionTypeXml) (s : List DirectionTypeXml) : l.foldl addDirectionType (s, true) = (s ++ l, true) := by
  induction l generalizing s with
  | nil => simp
  | cons x l ih =>
    rw [List.foldl_cons]
    show l.foldl addDirectionType (s ++ [x], true) = _
    rw [ih, List.append_assoc]; rfl

theorem types_kept (l : List DirectionTypeXml) : l.foldl addDirectionType ([newType], false) = if l = [] then ([newType], false) else (l, true) := by
  cases l with
  | nil => rfl
  | cons x l =>
    rw [List.foldl_cons, if_neg (by simp)]
    show l.foldl addDirectionType ([x], true) = _
    rw [fold_types]; rfl

/-! ### The parts -/

theorem decimal_back {k : DecimalKind} {n : Int} (hk : InRange k (n : ℚ)) (h : InInt n) : ∃ x, decimalText k n = some x ∧ decimalValue k x = some (n : ℚ) := by
  obtain ⟨x, a, b⟩ := num_back_at (k := k) (n := { isSpecified := true, value := (n : ℚ) }) (fun _ => hk) (offset_fits h true)
  rw [writeNum, if_pos rfl] at a
  rw [decimalText]
  cases hm : (DecimalRange.make k (n : ℚ)).map DecimalRange.toStr with
  | none => rw [hm] at a; cases a
  | some t =>
    refine ⟨t, rfl, ?_⟩
    rw [hm] at a
    cases a
    rw [readNum] at b
    rw [decimalValue]
    cases hv : (((DecimalRange.make k 0).bind (fun d => d.parse t)).map (fun r => r.2.getValue)) with
    | none => rw [hv] at b; cases b
    | some v =>
      rw [hv] at b
      have : ({ isSpecified := true, value := v } : MaybeNum) = { isSpecified := true, value := (n : ℚ) } := Option.some.inj b
      injection this with _ hvn
      rw [hvn]

theorem roundTo_int {n : Int} (h : InInt n) : roundTo (n : ℚ) = some n := by
  rw [roundTo, ceil_half, chk, if_pos h]

theorem time_back {tick cursor : Int} (ht : InInt tick) (ho : InInt (tick - cursor)) :
    ∃ x, offsetText (tick - cursor) = some x ∧ timeWithOffset cursor x = some tick := by
  unfold offsetText
  by_cases h : tick - cursor = 0
  · rw [if_neg (by simpa using h)]
    refine ⟨none, rfl, ?_⟩
    show some cursor = some tick
    congr 1; omega
  · rw [if_pos h]
    obtain ⟨x, a, b⟩ := decimal_back (k := .DivisionsValue) trivial ho
    refine ⟨some x, by rw [a]; rfl, ?_⟩
    show ((decimalValue .DivisionsValue x).bind roundTo).bind (fun o => chk (cursor + o)) = _
    rw [b, Option.bind_some, roundTo_int ho, Option.bind_some]
    have : cursor + (tick - cursor) = tick := by omega
    rw [this, chk, if_pos ht]

theorem placement_back (p : Api.Placement) : readPlacement (placementText p) = p := by cases p <;> rfl

theorem pedal_placement (p : Api.Placement) :
    ((placementText p).map (fun t => if (parseEnum t : Core.AboveBelow) = .above then Api.Placement.above else Api.Placement.below)).getD .unspecified = p := by cases p <;> rfl

theorem placement_fold (l : List MarkData) (p : Api.Placement) :
    l.foldl placementStep (placementText p) =
      placementText (((l.filter (fun m => isMarkPedal m.markType && decide (m.positionData.placement ≠ .unspecified))).getLast?.map (fun m => m.positionData.placement)).getD p) := by
  induction l generalizing p with
  | nil => rfl
  | cons m l ih =>
    rw [List.foldl_cons, placementStep]
    by_cases h : isMarkPedal m.markType = true ∧ m.positionData.placement ≠ .unspecified
    · rw [if_pos h, ih, List.filter_cons_of_pos (by simp [h.1, h.2]), List.getLast?_cons]
      cases hl : (l.filter (fun m => isMarkPedal m.markType && decide (m.positionData.placement ≠ .unspecified))).getLast? <;> rfl
    · rw [if_neg h, ih, List.filter_cons_of_neg (by simpa using h)]

theorem final_text (d : DirectionData) : d.marks.foldl placementStep (placementText d.placement) = placementText (finalPlacement d) := placement_fold d.marks d.placement

/-! ### The categories -/

theorem wedgeStop_back (e : Env) {w : WedgeStop} (h : WedgeStopFits w) :
    ∃ x, writeWedgeStop w = some x ∧ ∀ d, parseDirectionType e d x = .ok { d with wedgeStops := d.wedgeStops ++ [keptWedgeStop w] } := by
  obtain ⟨s, a, a'⟩ := tenths_back h.1
  obtain ⟨p, b, b'⟩ := position_back spannerMembers h.2
  refine ⟨_, by rw [writeWedgeStop, a, b]; rfl, fun d => ?_⟩
  rw [parseDirectionType]
  have ht : (parseEnum (StringEnum.toStr Core.WedgeType.stop) : Core.WedgeType) = .stop := rfl
  rw [if_pos ht, readWedgeStop]
  simp only
  rw [a', b']
  rfl

theorem wedgeType_back (t : Api.WedgeType) : (parseEnum (StringEnum.toStr (wedgeTypeOf t)) : Core.WedgeType) ≠ .stop ∧
    (MapName.wedgeMap.toApi (parseEnum (StringEnum.toStr (wedgeTypeOf t)) : Core.WedgeType) : Api.WedgeType) = if t = .unspecified then .crescendo else t := by
  cases t <;> exact ⟨by decide +kernel, by decide +kernel⟩

theorem wedgeStart_back (e : Env) {w : WedgeStart} (h : WedgeStartFits w) :
    ∃ x, writeWedgeStart w = some x ∧ ∀ d, parseDirectionType e d x = .ok { d with wedgeStarts := d.wedgeStarts ++ [keptWedgeStart w] } := by
  obtain ⟨s, a, a'⟩ := tenths_back h.1
  obtain ⟨p, b, b'⟩ := position_back spannerMembers h.2.1
  obtain ⟨l, c, c'⟩ := line_back h.2.2
  refine ⟨_, by rw [writeWedgeStart, a, b, c]; rfl, fun d => ?_⟩
  rw [parseDirectionType]
  simp only
  rw [if_neg (wedgeType_back w.wedgeType).1, readWedgeStart]
  simp only
  rw [a', b', c', (wedgeType_back w.wedgeType).2]
  rfl

theorem ottavaStop_back (e : Env) (o : SpannerStop) (d : DirectionData) :
    parseDirectionType e d (writeOttavaStop o) = .ok { d with ottavaStops := d.ottavaStops ++ [keptOttavaStop e.cursorTick o] } := rfl

theorem ottavaParts_back (t : Api.OttavaType) :
    (parseEnum (StringEnum.toStr (ottavaParts t).1) : Core.UpDownStopContinue) ≠ .continue_ ∧ (parseEnum (StringEnum.toStr (ottavaParts t).1) : Core.UpDownStopContinue) ≠ .stop ∧
    ottavaType (parseEnum (StringEnum.toStr (ottavaParts t).1)) (some (IntRange.ofKind .PositiveInteger (ottavaParts t).2).toStr) = if t = .unspecified then .o8va else t := by
  cases t <;> exact ⟨by decide +kernel, by decide +kernel, by decide +kernel⟩

theorem line_without_type {l : LineData} {x : LineXml} (h : readLine x = some (keptLine l)) :
    readLine { x with lineType := none } = some { keptLine l with lineType := .unspecified } := by
  unfold readLine at h ⊢
  cases h1 : readNum .TenthsValue x.dashLength with
  | none => rw [h1] at h; cases h
  | some a =>
    cases h2 : readNum .TenthsValue x.spaceLength with
    | none => rw [h1, h2] at h; cases h
    | some b =>
      rw [h1, h2] at h
      have h := Option.some.inj h
      show some ({ dashLength := a, spaceLength := b } : LineData) = _
      have e1 : a = (keptLine l).dashLength := by rw [← h]
      have e2 : b = (keptLine l).spaceLength := by rw [← h]
      rw [e1, e2]
      rfl

theorem ottavaStart_back (e : Env) {o : OttavaStart} (h : LineFits o.spannerStart.lineData) :
    ∃ x, writeOttavaStart o = some x ∧ ∀ d, parseDirectionType e d x = .ok { d with ottavaStarts := d.ottavaStarts ++ [keptOttavaStart e.cursorTick o] } := by
  obtain ⟨l, c, c'⟩ := line_back h
  obtain ⟨t1, t2, t3⟩ := ottavaParts_back o.ottavaType
  refine ⟨_, by rw [writeOttavaStart, c]; rfl, fun d => ?_⟩
  rw [parseDirectionType]
  simp only
  rw [if_neg t1, if_neg t2, readOttavaStart]
  simp only
  rw [t3, line_without_type c', readPrint_empty]
  rfl

theorem bracketNumber_back {n : Int} (h : InInt n) : readBracketNumber (writeNumber n) = if n > 0 then min 6 n else 1 := by
  have hb := number_back h
  unfold keptNumber at hb
  by_cases hn : n > 0
  · rw [if_pos hn] at hb ⊢
    rw [← hb]
    unfold writeNumber
    rw [if_pos hn]
    rfl
  · rw [if_neg hn]
    unfold writeNumber
    rw [if_neg hn]
    rfl

theorem bracketStart_back (e : Env) (d0 : DirectionData) (he : e.placement = placementText (finalPlacement d0)) {s : SpannerStart} (h : InInt s.numberLevel) (d : DirectionData) :
    parseDirectionType e d (writeBracketStart s) = .ok { d with bracketStarts := d.bracketStarts ++ [keptBracketStart e.cursorTick d0 s] } := by
  rw [writeBracketStart, parseDirectionType]
  simp only
  have h1 : (parseEnum (StringEnum.toStr Core.StartStopContinue.start) : Core.StartStopContinue) = .start := rfl
  rw [h1, if_neg (by decide), if_pos rfl, readBracketStart]
  simp only
  rw [bracketNumber_back h, readPrint_empty, he, placement_back]
  rfl

theorem showInt_read {n : Int} (h : InInt n) (old : Int) : stringToInt (showInt n) old = some (true, n) :=
  ((Props.C36_canonical_partial (showInt n) old).1 n).mpr ⟨(canonical_iff _ _).mpr rfl, h⟩

theorem duration_back (t : Api.DurationName) : (MapName.durationMap.toApi (parseEnum (StringEnum.toStr (MapName.durationMap.toCore t : Core.NoteTypeValue)) : Core.NoteTypeValue) : Api.DurationName) =
    if t = .unspecified then .maxima else t := by
  cases t <;> decide +kernel

theorem tempo_back (e : Env) {t : TempoData} (h : TempoFits t) :
    ∃ x, writeTempo t = .ok x ∧ ∀ d, parseDirectionType e d x = .ok { d with tempos := d.tempos ++ [keptTempo t] } := by
  refine ⟨_, by rw [writeTempo, if_neg (by simpa using h.1)], fun d => ?_⟩
  have hr : readTempo (.perMinute (StringEnum.toStr (MapName.durationMap.toCore t.beatsPerMinute.durationName : Core.NoteTypeValue)) t.beatsPerMinute.dots.toNat
      (showInt t.beatsPerMinute.beatsPerMinute)) = .ok (keptTempo t) := by
    rw [readTempo, showInt_read h.2]
    show Except.ok ({ tempoType := .beatsPerMinute, beatsPerMinute := _ } : TempoData) = _
    rw [duration_back, Int.toNat_eq_max, max_comm]
    rfl
  rw [parseDirectionType, hr]
  rfl

theorem tempos_back (e : Env) {l : List TempoData} (h : ∀ t ∈ l, TempoFits t) :
    ∃ xs, l.mapM writeTempo = .ok xs ∧ xs.length = l.length ∧ ∀ d, xs.foldlM (parseDirectionType e) d = .ok { d with tempos := d.tempos ++ l.map keptTempo } := by
  induction l with
  | nil => exact ⟨[], rfl, rfl, fun d => by simp; rfl⟩
  | cons t l ih =>
    obtain ⟨x, a, b⟩ := tempo_back e (h t (by simp))
    obtain ⟨xs, c, hlen, f⟩ := ih (fun b hb => h b (by simp [hb]))
    refine ⟨x :: xs, by rw [List.mapM_cons, a, c]; rfl, by simp [hlen], fun d => ?_⟩
    rw [List.foldlM_cons, b d]
    show xs.foldlM (parseDirectionType e) _ = _
    rw [f]
    simp [List.append_assoc]

theorem words_back {w : WordsData} (h : WordsFit w) : ∃ x, writeWords w = some x ∧ readWords x = some (keptWords w) := by
  obtain ⟨p, a, a'⟩ := position_back textMembers h.1
  obtain ⟨q, b, b'⟩ := print_back wordsPrint (p := { fontData := w.fontData }) h.2.1 h.2.2.1 h.2.2.2
  refine ⟨_, by rw [writeWords, a, b]; rfl, ?_⟩
  rw [readWords]
  simp only
  rw [a', b']
  rfl

theorem addWords_fold (l s : List WordsXml) : l.foldl addWords (s, true) = (s ++ l, true) := by
  induction l generalizing s with
  | nil => simp
  | cons x l ih =>
    rw [List.foldl_cons]
    show l.foldl addWords (s ++ [x], true) = _
    rw [ih, List.append_assoc]; rfl

theorem wordsType_back (e : Env) {l : List WordsData} (h : ∀ w ∈ l, WordsFit w) :
    ∃ xs, writeWordsType l = some xs ∧ (xs = [] ↔ l = []) ∧ ∀ d, xs.foldlM (parseDirectionType e) d = .ok { d with words := d.words ++ l.map keptWords } := by
  cases l with
  | nil => exact ⟨[], rfl, by simp, fun d => by simp; rfl⟩
  | cons w l =>
    obtain ⟨xs, a, hlen, b⟩ := mapM_back (r := readWords) (k := keptWords) (fun w hw => words_back (h w hw))
    cases xs with
    | nil => cases hlen
    | cons x xs =>
      refine ⟨[.words (x :: xs)], ?_, by simp, fun d => ?_⟩
      · rw [writeWordsType, if_pos (by simp), a]
        show some (if ((x :: xs).foldl addWords ([{}], false)).2 then [DirectionTypeXml.words ((x :: xs).foldl addWords ([{}], false)).1] else []) = _
        rw [List.foldl_cons]
        have : addWords ([{}], false) x = ([x], true) := rfl
        rw [this, addWords_fold]
        rfl
      · rw [List.foldlM_cons, parseDirectionType, b]
        rfl

theorem dynamicType_back (e : Env) (d0 : DirectionData) (he : e.tick = d0.tickTimePosition) {m : MarkData} (h : isMarkDynamic m.markType = true) (hm : MarkFits m) :
    ∃ x, writeDynamicType m = some x ∧ ∀ d, parseDirectionType e d x = .ok { d with marks := d.marks ++ [keptMark d0.tickTimePosition m] } := by
  obtain ⟨x, a, b⟩ := dynamic_back e.tick h hm
  refine ⟨.dynamics [x], by rw [writeDynamicType, a]; rfl, fun d => ?_⟩
  rw [parseDirectionType, List.mapM_cons, b, List.mapM_nil, he]
  rfl

theorem pedal_back (e : Env) (d0 : DirectionData) (he : e.tick = d0.tickTimePosition) (hpl : e.placement = placementText (finalPlacement d0)) {m : MarkData}
    (h : isMarkPedal m.markType = true) (hm : PositionFits m.positionData) :
    ∃ x, writePedal m = some x ∧ ∀ d, parseDirectionType e d x = .ok { d with marks := d.marks ++ [
      { markType := m.markType, name := defaultMarkName m.markType, tickTimePosition := d0.tickTimePosition
        positionData := { keptPosition textMembers m.positionData with placement := finalPlacement d0 } }] } := by
  obtain ⟨p, a, a'⟩ := position_back textMembers hm
  have ht : m.markType = .pedal ∨ m.markType = .damp := by
    have := of_decide_eq_true h
    simpa using this
  refine ⟨_, by rw [writePedal, a]; rfl, fun d => ?_⟩
  rw [parseDirectionType]
  simp only
  rcases ht with ht | ht
  · rw [ht, if_neg (show ¬ Api.MarkType.pedal = Api.MarkType.damp by decide)]
    have hs : (parseEnum (StringEnum.toStr Core.StartStopChangeContinue.start) : Core.StartStopChangeContinue) = .start := rfl
    rw [hs, if_pos (Or.inl rfl), readPedal]
    simp only
    rw [a', hpl, he]
    rw [Option.map_some, pedal_placement]
    rfl
  · rw [ht, if_pos (show Api.MarkType.damp = Api.MarkType.damp from rfl)]
    have hs : (parseEnum (StringEnum.toStr Core.StartStopChangeContinue.stop) : Core.StartStopChangeContinue) = .stop := rfl
    rw [hs, if_pos (Or.inr rfl), readPedal]
    simp only
    rw [a', hpl, he]
    rw [Option.map_some, pedal_placement]
    rfl

theorem marks_back (e : Env) (d0 : DirectionData) (he : e.tick = d0.tickTimePosition) (hpl : e.placement = placementText (finalPlacement d0)) {l : List MarkData}
    (h : ∀ m ∈ l, MarkFits m) :
    ∃ xs, l.mapM writeMarkType = some xs ∧ (xs.flatten = [] ↔ ¬ ∃ m ∈ l, isMarkDynamic m.markType = true ∨ isMarkPedal m.markType = true) ∧
      ∀ d, xs.flatten.foldlM (parseDirectionType e) d = .ok { d with marks := d.marks ++ l.filterMap (keptDirectionMark d0) } := by
  induction l with
  | nil => exact ⟨[], rfl, by simp, fun d => by simp; rfl⟩
  | cons m l ih =>
    obtain ⟨xs, a, c, b⟩ := ih (fun m hm => h m (by simp [hm]))
    have hm := h m (by simp)
    by_cases h1 : isMarkDynamic m.markType = true
    · obtain ⟨x, w, r⟩ := dynamicType_back e d0 he h1 hm
      refine ⟨[x] :: xs, ?_, ?_, fun d => ?_⟩
      · rw [List.mapM_cons, a, writeMarkType, if_pos h1, w]; rfl
      · simp [h1]
      · rw [List.flatten_cons, List.singleton_append, List.foldlM_cons, r d]
        show xs.flatten.foldlM (parseDirectionType e) _ = _
        rw [b]
        have : keptDirectionMark d0 m = some (keptMark d0.tickTimePosition m) := by rw [keptDirectionMark, if_pos h1]
        rw [List.filterMap_cons_some this]
        simp [List.append_assoc]
    · by_cases h2 : isMarkPedal m.markType = true
      · obtain ⟨x, w, r⟩ := pedal_back e d0 he hpl h2 hm.1
        refine ⟨[x] :: xs, ?_, ?_, fun d => ?_⟩
        · rw [List.mapM_cons, a, writeMarkType, if_neg h1, if_pos h2, w]; rfl
        · simp [h2]
        · rw [List.flatten_cons, List.singleton_append, List.foldlM_cons, r d]
          show xs.flatten.foldlM (parseDirectionType e) _ = _
          rw [b]
          have : keptDirectionMark d0 m = some
              { markType := m.markType, name := defaultMarkName m.markType, tickTimePosition := d0.tickTimePosition
                positionData := { keptPosition textMembers m.positionData with placement := finalPlacement d0 } } := by rw [keptDirectionMark, if_neg h1, if_pos h2]
          rw [List.filterMap_cons_some this]
          simp [List.append_assoc]
      · refine ⟨[] :: xs, ?_, ?_, fun d => ?_⟩
        · rw [List.mapM_cons, a, writeMarkType, if_neg h1, if_neg h2]; rfl
        · rw [List.flatten_cons, List.nil_append, c]
          simp [h1, h2]
        · rw [List.flatten_cons, List.nil_append, b]
          have : keptDirectionMark d0 m = none := by rw [keptDirectionMark, if_neg h1, if_neg h2]
          rw [List.filterMap_cons_none this]

theorem foldl_append_field {α : Type} (l : List α) (d : DirectionData) (k : α → WedgeStop) :
    l.foldl (fun d a => { d with wedgeStops := d.wedgeStops ++ [k a] }) d = { d with wedgeStops := d.wedgeStops ++ l.map k } := by
  induction l generalizing d with
  | nil => simp
  | cons a l ih => rw [List.foldl_cons, ih]; simp [List.append_assoc]

theorem foldl_wedgeStarts {α : Type} (l : List α) (d : DirectionData) (k : α → WedgeStart) :
    l.foldl (fun d a => { d with wedgeStarts := d.wedgeStarts ++ [k a] }) d = { d with wedgeStarts := d.wedgeStarts ++ l.map k } := by
  induction l generalizing d with
  | nil => simp
  | cons a l ih => rw [List.foldl_cons, ih]; simp [List.append_assoc]

theorem foldl_ottavaStarts {α : Type} (l : List α) (d : DirectionData) (k : α → OttavaStart) :
    l.foldl (fun d a => { d with ottavaStarts := d.ottavaStarts ++ [k a] }) d = { d with ottavaStarts := d.ottavaStarts ++ l.map k } := by
  induction l generalizing d with
  | nil => simp
  | cons a l ih => rw [List.foldl_cons, ih]; simp [List.append_assoc]

theorem ottavaStops_back (e : Env) (l : List SpannerStop) (d : DirectionData) :
    (l.map writeOttavaStop).foldlM (parseDirectionType e) d = .ok { d with ottavaStops := d.ottavaStops ++ l.map (keptOttavaStop e.cursorTick) } := by
  induction l generalizing d with
  | nil => simp; rfl
  | cons a l ih =>
    rw [List.map_cons, List.foldlM_cons, ottavaStop_back]
    show (l.map writeOttavaStop).foldlM (parseDirectionType e) _ = _
    rw [ih]; simp [List.append_assoc]

theorem bracketStarts_back (e : Env) (d0 : DirectionData) (he : e.placement = placementText (finalPlacement d0)) {l : List SpannerStart} (h : ∀ s ∈ l, InInt s.numberLevel)
    (d : DirectionData) :
    (l.map writeBracketStart).foldlM (parseDirectionType e) d = .ok { d with bracketStarts := d.bracketStarts ++ l.map (keptBracketStart e.cursorTick d0) } := by
  induction l generalizing d with
  | nil => simp; rfl
  | cons a l ih =>
    rw [List.map_cons, List.foldlM_cons, bracketStart_back e d0 he (h a (by simp))]
    show (l.map writeBracketStart).foldlM (parseDirectionType e) _ = _
    rw [ih (fun s hs => h s (by simp [hs]))]; simp [List.append_assoc]

theorem fold_then {e : Env} {l r : List DirectionTypeXml} {c c' : DirectionData} (h : l.foldlM (parseDirectionType e) c = .ok c') :
    (l ++ r).foldlM (parseDirectionType e) c = r.foldlM (parseDirectionType e) c' := by
  rw [List.foldlM_append, h]
  rfl

/-- All types of a direction, read again. -/
theorem types_back (e : Env) {d : DirectionData} (h : DirectionFits d) (he : e.tick = d.tickTimePosition) (hpl : e.placement = placementText (finalPlacement d)) :
    ∃ xs, directionTypes d = .ok xs ∧ (xs = [] ↔ ¬ WritesDirection d) ∧ ∀ c, xs.foldlM (parseDirectionType e) c = .ok { c with
      marks := c.marks ++ d.marks.filterMap (keptDirectionMark d), wedgeStops := c.wedgeStops ++ d.wedgeStops.map keptWedgeStop
      wedgeStarts := c.wedgeStarts ++ d.wedgeStarts.map keptWedgeStart, ottavaStops := c.ottavaStops ++ d.ottavaStops.map (keptOttavaStop e.cursorTick)
      ottavaStarts := c.ottavaStarts ++ d.ottavaStarts.map (keptOttavaStart e.cursorTick)
      bracketStarts := c.bracketStarts ++ d.bracketStarts.map (keptBracketStart e.cursorTick d), tempos := c.tempos ++ d.tempos.map keptTempo
      words := c.words ++ d.words.map keptWords } := by
  obtain ⟨x1, a1, n1, b1⟩ := marks_back e d he hpl h.marks
  obtain ⟨x2, a2, n2, b2⟩ := fold_back (e := e) (fun w hw => wedgeStop_back e (h.wedgeStops w hw))
  obtain ⟨x3, a3, n3, b3⟩ := fold_back (e := e) (fun w hw => wedgeStart_back e (h.wedgeStarts w hw))
  obtain ⟨x4, a4, n4, b4⟩ := fold_back (e := e) (fun w hw => ottavaStart_back e (h.ottavaStarts w hw))
  obtain ⟨x5, a5, n5, b5⟩ := tempos_back e h.tempos
  obtain ⟨x6, a6, n6, b6⟩ := wordsType_back e h.words
  refine ⟨_, by rw [directionTypes, a1, a2, a3, a4, a5, a6]; rfl, ?_, fun c => ?_⟩
  · have e2 : x2 = [] ↔ d.wedgeStops = [] := by rw [← List.length_eq_zero_iff, n2, List.length_eq_zero_iff]
    have e3 : x3 = [] ↔ d.wedgeStarts = [] := by rw [← List.length_eq_zero_iff, n3, List.length_eq_zero_iff]
    have e4 : x4 = [] ↔ d.ottavaStarts = [] := by rw [← List.length_eq_zero_iff, n4, List.length_eq_zero_iff]
    have e5 : x5 = [] ↔ d.tempos = [] := by rw [← List.length_eq_zero_iff, n5, List.length_eq_zero_iff]
    unfold WritesDirection
    simp only [List.append_eq_nil_iff, List.map_eq_nil_iff, n1, e2, e3, e4, e5, n6, not_or, ne_eq, not_not, and_assoc]
  · rw [List.append_assoc, List.append_assoc, List.append_assoc, List.append_assoc, List.append_assoc, List.append_assoc, fold_then (b1 c), fold_then (b2 _), foldl_append_field,
      fold_then (b3 _), foldl_wedgeStarts, fold_then (ottavaStops_back e d.ottavaStops _), fold_then (b4 _), foldl_ottavaStarts,
      fold_then (bracketStarts_back e d hpl h.bracketStarts _), fold_then (b5 _), b6]

/-! ### Chord symbols -/

theorem alter_back {n : Int} (h : InInt n) : ∃ x, writeChordAlter n = some x ∧ readChordAlter x = some n := by
  unfold writeChordAlter
  by_cases hn : n = 0
  · rw [if_neg (by simpa using hn)]
    exact ⟨none, rfl, by rw [hn]; rfl⟩
  · rw [if_pos hn]
    obtain ⟨x, a, b⟩ := decimal_back (k := .Semitones) trivial h
    refine ⟨some x, by rw [a]; rfl, ?_⟩
    show (decimalValue .Semitones x).bind roundTo = _
    rw [b, Option.bind_some, roundTo_int h]

theorem step_back (t : Api.Step) (h : t ≠ .unspecified) : (MapName.stepMap.toApi (parseEnum (StringEnum.toStr (MapName.stepMap.toCore t : Core.StepEnum)) : Core.StepEnum) : Api.Step) = t := by
  cases t <;> first | exact absurd rfl h | rfl

theorem bass_back {c : ChordData} (h : InInt c.bassAlter) : ∃ x, writeBass c = some x ∧ readBass x = some (c.bass, if c.bass = .unspecified then 0 else c.bassAlter) := by
  unfold writeBass
  by_cases hb : c.bass = .unspecified
  · rw [if_neg (by simpa using hb)]
    exact ⟨none, rfl, by rw [if_pos hb, hb]; rfl⟩
  · rw [if_pos hb]
    obtain ⟨x, a, b⟩ := alter_back h
    refine ⟨some (_, x), by rw [a]; rfl, ?_⟩
    rw [readBass, b, step_back _ hb, if_neg hb]
    rfl

theorem extension_back (e : Extension) : ∃ x, writeExtension e = some x ∧ readDegree x = some (some { e with printObject := .unspecified }) := by
  obtain ⟨t, a, n, o⟩ := e
  have h1 : InInt (extensionSemitones a) := by cases a <;> decide
  obtain ⟨x, w, r⟩ := decimal_back (k := .Semitones) trivial h1
  refine ⟨_, by rw [writeExtension, w]; rfl, ?_⟩
  rw [readDegree]
  simp only
  rw [r, Option.bind_some, roundTo_int h1]
  have e1 : extensionAlter (extensionSemitones a) = a := by cases a <;> rfl
  have e2 : extensionNumber (parseBounded .PositiveInteger (IntRange.ofKind .PositiveInteger (extensionValue n)).toStr) = some n := by cases n <;> decide +kernel
  have e3 : extensionType (parseEnum (StringEnum.toStr (degreeType t))) = t := by cases t <;> decide +kernel
  rw [Option.map_some, e2, Option.map_some, e1, e3]
  rfl

theorem kind_back (t : Api.ChordKind) : (MapName.kindMap.toApi (parseEnum (StringEnum.toStr (MapName.kindMap.toCore t : Core.KindValue)) : Core.KindValue) : Api.ChordKind) =
    if t = .unspecified then .none else t := by cases t <;> decide +kernel

theorem symbols_back (b : Api.Bool) : ((if b ≠ .unspecified then some (StringEnum.toStr (if b = .yes then Core.YesNo.yes else Core.YesNo.no)) else none).map
    (fun t => if (parseEnum t : Core.YesNo) = .yes then Api.Bool.yes else Api.Bool.no)).getD .unspecified = b := by cases b <;> rfl

theorem kindText_back (s : Str) : ((if s ≠ [] then some (xsToken s) else none).map xsToken).getD [] = xsToken s := by
  by_cases h : s = []
  · rw [if_neg (by simpa using h), h]; rfl
  · rw [if_pos h]
    exact Props.C25_idempotent s

theorem root_back (t : Api.Step) : (MapName.stepMap.toApi (parseEnum (StringEnum.toStr (MapName.stepMap.toCore (if t = .unspecified then .c else t) : Core.StepEnum)) : Core.StepEnum) : Api.Step) =
    if t = .unspecified then .c else t := by cases t <;> rfl

theorem chord_back {d : DirectionData} {misc : List MiscData} {h : HarmonyXml} (hm : misc = (d.chords.flatMap (fun c => c.miscData)).map keptMisc)
    (hp : readPosition harmonyMembers h.position = some (keptPosition harmonyMembers ((d.chords.head?.map (fun c => c.positionData)).getD {}))) {c : ChordData} (hc : ChordFits c) :
    ∃ x, writeChord c = some x ∧ x.isRoot = true ∧ readChord misc h x = some (keptChord d c) := by
  obtain ⟨a, a1, a2⟩ := alter_back hc.2.1
  obtain ⟨b, b1, b2⟩ := bass_back hc.2.2.1
  obtain ⟨ds, d1, _, d2⟩ := mapM_back (l := c.extensions) (r := readDegree) (k := fun e => some { e with printObject := .unspecified }) (fun e _ => extension_back e)
  refine ⟨_, by rw [writeChord, a1, b1, d1]; rfl, rfl, ?_⟩
  rw [readChord]
  simp only
  rw [a2, b2, d2, hp]
  show some (ChordData.mk _ _ _ _ _ _ _ _ _ _) = _
  rw [root_back, kind_back, kindText_back, symbols_back, hm]
  rw [keptChord]
  congr 2
  rw [List.filterMap_map]
  show List.filterMap (fun e => some ({ e with printObject := .unspecified } : Extension)) c.extensions = _
  rw [List.filterMap_eq_map']

/-! ### Processing instructions -/

theorem nameStart_of {c : Char} (h : NameStart c) : isNameStart c = true := by
  unfold isNameStart
  rw [decide_eq_true_iff]
  rcases h with h | h | h | h
  · rw [Char.isAlpha, Char.isUpper, Char.isLower] at h
    simp only [Bool.or_eq_true, Bool.and_eq_true, decide_eq_true_eq] at h
    rcases h with h | h
    · exact Or.inr (Or.inr (Or.inl ⟨h.1, h.2⟩))
    · exact Or.inr (Or.inl ⟨h.1, h.2⟩)
  · exact Or.inr (Or.inr (Or.inr (Or.inl h)))
  · exact Or.inr (Or.inr (Or.inr (Or.inr h)))
  · exact Or.inl h

theorem nameChar_of {c : Char} (h : NameChar c) : isNameChar c = true := by
  unfold isNameChar
  rw [Bool.or_eq_true, decide_eq_true_iff]
  rcases h with h | h | h | h
  · exact Or.inl (nameStart_of h)
  · rw [Char.isDigit] at h
    simp only [Bool.and_eq_true, decide_eq_true_eq] at h
    exact Or.inr (Or.inl ⟨h.1, h.2⟩)
  · exact Or.inr (Or.inr (Or.inl h))
  · exact Or.inr (Or.inr (Or.inr h))

theorem untilEnd_append {s : Str} (h : ¬ ['?', '>'] <:+: s) : untilEnd (s ++ ['?', '>']) = s := by
  induction s with
  | nil => rfl
  | cons c r ih =>
    have hr : ¬ ['?', '>'] <:+: r := fun hh => h (List.infix_cons hh)
    rw [List.cons_append, untilEnd]
    have hc : ¬ (c = '?' ∧ (r ++ ['?', '>']).head? = some '>') := by
      rintro ⟨h1, h2⟩
      cases r with
      | nil => exact absurd h2 (by decide)
      | cons x r =>
        have hx : x = '>' := Option.some.inj h2
        subst h1 hx
        exact h ⟨[], r, rfl⟩
    rw [if_neg hc, ih hr]

theorem takeWhile_stop {p : Char → Bool} {s t : Str} {c : Char} (h : ∀ x ∈ s, p x = true) (hc : p c = false) :
    (s ++ c :: t).takeWhile p = s ∧ (s ++ c :: t).dropWhile p = c :: t := by
  induction s with
  | nil => exact ⟨by rw [List.nil_append, List.takeWhile_cons_of_neg (by simp [hc])], by rw [List.nil_append, List.dropWhile_cons_of_neg (by simp [hc])]⟩
  | cons x s ih =>
    obtain ⟨a, b⟩ := ih (fun y hy => h y (by simp [hy]))
    have hx := h x (by simp)
    exact ⟨by rw [List.cons_append, List.takeWhile_cons_of_pos hx, a], by rw [List.cons_append, List.dropWhile_cons_of_pos hx, b]⟩

theorem instruction_back {m : MiscData} (h : MiscFits m) : readInstruction (writeInstruction m) = .ok (some (keptMisc m)) := by
  have hname : ∀ x ∈ instructionName m.name, isNameChar x = true := by
    intro x hx
    rw [instructionName] at hx
    split at hx
    · exact nameChar_of (h.name x hx)
    · revert hx x; decide
  have hstart : ((instructionName m.name).head?.map isNameStart) = some true := by
    rw [instructionName]
    split
    · rename_i hn
      cases hl : m.name with
      | nil => exact absurd hl hn
      | cons c r => 
        have := h.start c (by rw [hl]; rfl)
        show some (isNameStart c) = _
        rw [nameStart_of this]
    · decide
  have hxml : isXmlName (instructionName m.name) = false := by
    rw [instructionName, isXmlName]
    split
    · exact decide_eq_false h.notXml
    · decide
  have hw : (writeInstruction m).drop 2 = instructionName m.name ++ ' ' :: (m.data ++ ['?', '>']) := by
    rw [writeInstruction]
    show ([(' ' : Char)].drop 5) ++ _ = _ 
    simp
  have hd : (' ' :: (m.data ++ ['?', '>'])).dropWhile isXmlSpace = m.data ++ ['?', '>'] := by
    rw [List.dropWhile_cons_of_pos (by decide)]
    cases hl : m.data with
    | nil => rfl
    | cons c r =>
      rw [List.cons_append, List.dropWhile_cons_of_neg]
      have := h.space c (by rw [hl]; rfl)
      unfold isXmlSpace
      rw [decide_eq_true_iff]
      tauto
  obtain ⟨t1, t2⟩ := takeWhile_stop (t := m.data ++ ['?', '>']) hname (show isNameChar ' ' = false by decide)
  have hh : ((instructionName m.name ++ ' ' :: (m.data ++ ['?', '>'])).head?.map isNameStart).getD false = true := by
    cases hl : instructionName m.name with
    | nil => rw [hl] at hstart; cases hstart
    | cons c r => rw [hl] at hstart; show (some (isNameStart c)).getD false = true; rw [show some (isNameStart c) = some true from hstart]; rfl
  rw [readInstruction, hw]
  rw [t1, t2, if_neg (by rw [hh]; decide), if_neg (by rw [hxml]; decide), if_pos (show (Option.map isXmlSpace (' ' :: (m.data ++ ['?', '>'])).head?).getD false = true from rfl), hd, untilEnd_append h.data, keptMisc, instructionName]
  by_cases hn : m.name = []
  · rw [if_neg (by simpa using hn), if_pos hn]
  · rw [if_pos hn, if_neg hn]

theorem instructions_back {l : List MiscData} (h : ∀ m ∈ l, MiscFits m) : (l.map writeInstruction).mapM readInstruction = .ok (l.map (fun m => some (keptMisc m))) := by
  induction l with
  | nil => rfl
  | cons m l ih =>
    rw [List.map_cons, List.mapM_cons, instruction_back (h m (by simp)), ih (fun m hm => h m (by simp [hm]))]
    rfl

theorem filter_roots {l : List ChordXml} (h : ∀ x ∈ l, x.isRoot = true) : l.filter (fun c => c.isRoot) = l := List.filter_eq_self.mpr h

theorem chords_back {d : DirectionData} {misc : List MiscData} {h : HarmonyXml} (hm : misc = (d.chords.flatMap (fun c => c.miscData)).map keptMisc)
    (hp : readPosition harmonyMembers h.position = some (keptPosition harmonyMembers ((d.chords.head?.map (fun c => c.positionData)).getD {}))) {l : List ChordData} (hl : ∀ c ∈ l, ChordFits c) :
    ∃ xs, l.mapM writeChord = some xs ∧ (∀ x ∈ xs, x.isRoot = true) ∧ xs.mapM (readChord misc h) = some (l.map (keptChord d)) := by
  induction l with
  | nil => exact ⟨[], rfl, by simp, rfl⟩
  | cons c l ih =>
    obtain ⟨x, a1, a2, a3⟩ := chord_back hm hp (hl c (by simp))
    obtain ⟨xs, b1, b2, b3⟩ := ih (fun c hc => hl c (by simp [hc]))
    refine ⟨x :: xs, by rw [List.mapM_cons, a1, b1]; rfl, ?_, by rw [List.mapM_cons, a3, b3]; rfl⟩
    intro y hy
    rcases List.mem_cons.mp hy with rfl | hy
    · exact a2
    · exact b2 y hy

/-- Reading and writing do not depend on the other parts of the symbol. -/
theorem readChord_congr (misc : List MiscData) {h h' : HarmonyXml} (hp : h.position = h'.position) (x : ChordXml) : readChord misc h x = readChord misc h' x := by
  rw [readChord, readChord, hp]

theorem readHarmony_eq {cursor tick : Int} {h : HarmonyXml} {misc : List (Option MiscData)} {chords : List ChordData} (h1 : timeWithOffset cursor h.offset = some tick)
    (h2 : h.instructions.mapM readInstruction = .ok misc) (h3 : (h.chords.filter (fun c => c.isRoot)).mapM (readChord (misc.filterMap id) h) = some chords) :
    readHarmony cursor h = .ok { tickTimePosition := tick, isStaffValueSpecified := h.staff.isSome, placement := readPlacement h.position.placement, chords := chords } := by
  rw [readHarmony, h1, h2]
  show (orUndefined ((h.chords.filter (fun c => c.isRoot)).mapM (readChord (misc.filterMap id) h)) >>= _) = _
  rw [h3]
  rfl

theorem written_placement {p : PositionData} {x : PositionXml} (h : writePosition harmonyMembers p = some x) : x.placement = placementText p.placement := by
  unfold writePosition at h
  cases h1 : ifMember harmonyMembers.defaultXY (writeNum .TenthsValue p.defaultX) <;> rw [h1] at h <;> [cases h; skip]
  cases h2 : ifMember harmonyMembers.defaultXY (writeNum .TenthsValue p.defaultY) <;> rw [h2] at h <;> [cases h; skip]
  cases h3 : ifMember harmonyMembers.relativeXY (writeNum .TenthsValue p.relativeX) <;> rw [h3] at h <;> [cases h; skip]
  cases h4 : ifMember harmonyMembers.relativeXY (writeNum .TenthsValue p.relativeY) <;> rw [h4] at h <;> [cases h; skip]
  have h := Option.some.inj h
  rw [← h]
  cases p.placement <;> rfl

theorem createHarmony_cons {staffIndex offset : Int} {d : DirectionData} {c : ChordData} {cs : List ChordData} (h : d.chords = c :: cs) :
    createHarmony staffIndex offset d = (do
    let p ← writePosition harmonyMembers c.positionData
    let chords ← (c :: cs).mapM writeChord
    let o ← offsetText offset
    return [.harmony {
      instructions := ((c :: cs).map (fun c => c.miscData.map writeInstruction)).flatten, position := p, chords := chords, offset := o
      staff := if d.isStaffValueSpecified then some (IntRange.ofKind .PositiveInteger (staffIndex + 1)).toStr else none }]) := by
  rw [createHarmony, h]

theorem harmony_back {staffIndex cursor : Int} {d : DirectionData} (hf : ∀ c ∈ d.chords, ChordFits c) (ht : InInt d.tickTimePosition) (ho : InInt (d.tickTimePosition - cursor)) :
    ∃ xs, createHarmony staffIndex (d.tickTimePosition - cursor) d = some xs ∧ xs.mapM (getDirectionData cursor) = .ok (if d.chords ≠ [] then [keptHarmony d] else []) := by
  cases hc : d.chords with
  | nil => exact ⟨[], by rw [createHarmony, hc], by rw [if_neg (by simp)]; rfl⟩
  | cons c cs =>
    rw [hc] at hf
    obtain ⟨p, p1, p2⟩ := position_back harmonyMembers (hf c (by simp)).1
    obtain ⟨o, o1, o2⟩ := time_back ht ho
    have hhead : (d.chords.head?.map (fun c => c.positionData)).getD {} = c.positionData := by rw [hc]; rfl
    obtain ⟨xs, x1, x2, x3⟩ := chords_back (d := d) (h := { position := p }) rfl (by rw [hhead]; exact p2) hf
    refine ⟨_, by rw [createHarmony_cons hc, p1, x1, o1]; rfl, ?_⟩
    rw [if_pos (show c :: cs ≠ [] by simp), List.mapM_cons, List.mapM_nil, getDirectionData]
    have hi : (((c :: cs).map (fun c => c.miscData.map writeInstruction)).flatten).mapM readInstruction = .ok ((d.chords.flatMap (fun c => c.miscData)).map (fun m => some (keptMisc m))) := by
      have : ((c :: cs).map (fun c => c.miscData.map writeInstruction)).flatten = (d.chords.flatMap (fun c => c.miscData)).map writeInstruction := by
        rw [hc, List.map_flatMap, List.flatMap_def]
      rw [this]
      apply instructions_back
      intro m hm
      obtain ⟨c', hc', hm'⟩ := List.mem_flatMap.mp hm
      rw [hc] at hc'
      exact (hf c' hc').2.2.2 m hm'
    have hmisc : List.filterMap id ((d.chords.flatMap (fun c => c.miscData)).map (fun m => some (keptMisc m))) = (d.chords.flatMap (fun c => c.miscData)).map keptMisc := by
      rw [List.filterMap_map]
      show List.filterMap (fun m => some (keptMisc m)) _ = _
      rw [List.filterMap_eq_map']
    rw [readHarmony_eq (h := {
        instructions := ((c :: cs).map (fun c => c.miscData.map writeInstruction)).flatten, position := p, chords := xs, offset := o
        staff := if d.isStaffValueSpecified then some (IntRange.ofKind .PositiveInteger (staffIndex + 1)).toStr else none }) o2 hi
      (by rw [hmisc, filter_roots x2, ← x3]; exact congrArg (fun f => List.mapM f xs) (funext (fun x => readChord_congr _ rfl x)))]
    have hpl : readPlacement p.placement = c.positionData.placement := by rw [written_placement p1, placement_back]
    have hst : ((if d.isStaffValueSpecified then some (IntRange.ofKind .PositiveInteger (staffIndex + 1)).toStr else none : Option Str)).isSome = d.isStaffValueSpecified := by
      cases d.isStaffValueSpecified <;> rfl
    have hcs : (d.chords.head?.map (fun c => c.positionData.placement)).getD .unspecified = c.positionData.placement := by rw [hc]; rfl
    rw [keptHarmony, hcs, hpl, hst, hc]
    rfl

/-! ### Whole directions -/

theorem readDirection_eq {cursor tick : Int} {x : DirectionXml} {d : DirectionData} (h1 : timeWithOffset cursor x.offset = some tick)
    (h2 : x.types.foldlM (parseDirectionType { cursorTick := cursor, tick := tick, placement := x.placement })
      { tickTimePosition := tick, isStaffValueSpecified := x.staff.isSome, placement := readPlacement x.placement } = .ok d) : readDirection cursor x = .ok d := by
  rw [readDirection, h1]
  exact h2

theorem direction_back {staffIndex cursor : Int} {d : DirectionData} (hf : DirectionFits d) (ht : InInt d.tickTimePosition) (ho : InInt (d.tickTimePosition - cursor)) :
    ∃ xs, getDirectionLikeThings staffIndex cursor d = .ok xs ∧ xs.mapM (getDirectionData cursor) = .ok (keptDirections staffIndex cursor d) := by
  obtain ⟨o, o1, o2⟩ := time_back ht ho
  obtain ⟨types, t1, t2, t3⟩ := types_back { cursorTick := cursor, tick := d.tickTimePosition, placement := placementText (finalPlacement d) } hf rfl rfl
  obtain ⟨hs, h1, h2⟩ := harmony_back (staffIndex := staffIndex) hf.chords ht ho
  refine ⟨_, by rw [getDirectionLikeThings, chkR, if_pos ho]; show (orUndefined (offsetText (d.tickTimePosition - cursor)) >>= _) = _; rw [o1, t1, h1]; rfl, ?_⟩
  rw [types_kept, keptDirections]
  by_cases hw : WritesDirection d
  · have hne : types ≠ [] := fun hh => t2.mp hh hw
    rw [if_neg hne, if_pos hw]
    simp only
    rw [if_pos trivial, List.singleton_append, List.mapM_cons, h2, getDirectionData]
    rw [readDirection_eq (x := { placement := _, types := types, offset := o, staff := _ }) (d := keptDirection staffIndex cursor d) o2 ?_]
    · rfl
    · simp only
      rw [final_text, placement_back, t3, keptDirection]
      have hst : ((if d.isStaffValueSpecified = true ∨ staffIndex ≠ 0 then some (IntRange.ofKind .PositiveInteger (staffIndex + 1)).toStr else none : Option Str)).isSome =
          (d.isStaffValueSpecified || decide (staffIndex ≠ 0)) := by
        cases d.isStaffValueSpecified <;> by_cases h : staffIndex = 0 <;> simp [h]
      rw [hst]
      rfl
  · have he : types = [] := t2.mpr hw
    rw [if_pos he, if_neg hw]
    simp only
    rw [if_neg (by decide), List.nil_append, List.nil_append, h2]

end Mx.Directions
