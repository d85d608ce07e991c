import Verif.Spec.Notations
import Verif.Proofs.Properties
import Verif.Proofs.NoteDetails
import Verif.Proofs.Color

open Spec
namespace Mx
open Mx.Spec
open Measure (NoteKind)

theorem num_back_at {k : DecimalKind} {n : MaybeNum} (hk : n.isSpecified = true → InRange k n.value) (h : NumFits n) : ∃ x, writeNum k n = some x ∧ readNum k x = some (keptNum n) := by
  unfold writeNum keptNum
  cases hs : n.isSpecified with
  | false => exact ⟨none, rfl, rfl⟩
  | true =>
    obtain ⟨h1, h2⟩ := h hs
    obtain ⟨d0, e0, s, e1, e2⟩ := decimal_text_at (hk hs) h1 h2
    refine ⟨some s, by rw [e1]; rfl, ?_⟩
    rw [readNum, e0, Option.bind_some, e2]
    obtain ⟨a, b⟩ := n
    simp only at hs
    subst hs
    rfl

theorem num_back {k : DecimalKind} (hk : ∀ v, InRange k v) {n : MaybeNum} (h : NumFits n) : ∃ x, writeNum k n = some x ∧ readNum k x = some (keptNum n) :=
  num_back_at (fun _ => hk _) h

theorem tenths_back {n : MaybeNum} (h : NumFits n) : ∃ x, writeNum .TenthsValue n = some x ∧ readNum .TenthsValue x = some (keptNum n) := num_back (k := .TenthsValue) (fun _ => trivial) h

theorem divisions_back {n : MaybeNum} (h : NumFits n) : ∃ x, writeNum .DivisionsValue n = some x ∧ readNum .DivisionsValue x = some (keptNum n) := num_back (k := .DivisionsValue) (fun _ => trivial) h

theorem halign_back (b : Bool) (a : Api.HorizontalAlignment) :
    ((if b then (if b = true ∧ a ≠ .unspecified then some (StringEnum.toStr (MapName.halignMap.toCore a : Core.LeftCenterRight)) else none) else none).map
      (fun t => (MapName.halignMap.toApi (parseEnum t : Core.LeftCenterRight) : Api.HorizontalAlignment))).getD .unspecified = if b then a else .unspecified := by
  cases b <;> cases a <;> rfl

theorem valign_back (b : Bool) (a : Api.VerticalAlignment) :
    ((if b then (if b = true ∧ a ≠ .unspecified then some (StringEnum.toStr (MapName.valignMap.toCore a : Core.Valign)) else none) else none).map
      (fun t => (MapName.valignMap.toApi (parseEnum t : Core.Valign) : Api.VerticalAlignment))).getD .unspecified = if b then a else .unspecified := by
  cases b <;> cases a <;> rfl

theorem placement_back (b : Bool) (a : Api.Placement) :
    ((if b then (if b = true ∧ a ≠ .unspecified then some (StringEnum.toStr (MapName.placementMap.toCore a : Core.AboveBelow)) else none) else none).map
      (fun t => (MapName.placementMap.toApi (parseEnum t : Core.AboveBelow) : Api.Placement))).getD .unspecified = if b then a else .unspecified := by
  cases b <;> cases a <;> rfl

theorem member_back {b : Bool} {n : MaybeNum} (h : NumFits n) :
    ∃ x, ifMember b (writeNum .TenthsValue n) = some x ∧ readNum .TenthsValue (if b then x else none) = some (if b then keptNum n else {}) := by
  cases b with
  | false => exact ⟨none, rfl, rfl⟩
  | true => exact tenths_back h

theorem position_back (m : PositionMembers) {p : PositionData} (h : PositionFits p) : ∃ x, writePosition m p = some x ∧ readPosition m x = some (keptPosition m p) := by
  obtain ⟨h1, h2, h3, h4⟩ := h
  obtain ⟨x1, a1, b1⟩ := member_back (b := m.defaultXY) h1
  obtain ⟨x2, a2, b2⟩ := member_back (b := m.defaultXY) h2
  obtain ⟨x3, a3, b3⟩ := member_back (b := m.relativeXY) h3
  obtain ⟨x4, a4, b4⟩ := member_back (b := m.relativeXY) h4
  refine ⟨_, by rw [writePosition, a1, a2, a3, a4]; rfl, ?_⟩
  rw [readPosition]
  simp only
  rw [b1, b2, b3, b4, halign_back, valign_back, placement_back]
  rfl

theorem lineType_back (a : Api.LineType) :
    ((if a ≠ .unspecified then some (StringEnum.toStr (MapName.lineType.toCore a : Core.LineType)) else none).map
      (fun t => (MapName.lineType.toApi (parseEnum t : Core.LineType) : Api.LineType))).getD .unspecified = a := by
  cases a <;> rfl

theorem line_back {l : LineData} (h : LineFits l) : ∃ x, writeLine l = some x ∧ readLine x = some (keptLine l) := by
  obtain ⟨h1, h2⟩ := h
  obtain ⟨x1, a1, b1⟩ := tenths_back h1
  obtain ⟨x2, a2, b2⟩ := tenths_back h2
  refine ⟨_, by rw [writeLine, a1, a2]; rfl, ?_⟩
  rw [readLine]
  simp only
  rw [b1, b2, lineType_back]
  rfl

theorem toByte_val (v : Fin 256) : toByte (v.val : Int) = v := by
  have : ∀ v : Fin 256, toByte (v.val : Int) = v := by decide +kernel
  exact this v

theorem byte_val (v : Fin 256) : Color.byte (v.val : Int) = v.val := Color.byte_id (by omega) (by omega)

theorem coreColor_inv (c : ColorData) : Color.Inv (createCoreColor c) := by
  unfold createCoreColor
  split
  · exact Color.inv_construct (.argb c.alpha.val c.red.val c.green.val c.blue.val)
  · exact Color.inv_construct (.rgb c.red.val c.green.val c.blue.val)

theorem color_back (b : Bool) (c : ColorData) : readColor (writeColor b c) = (b, keptColor b c) := by
  cases b with
  | false => rfl
  | true =>
    show (true, getColor (Color.ofString (createCoreColor c).toStr)) = _
    rw [Color.ofString, Color.parse_toStr (coreColor_inv c)]
    obtain ⟨r, g, bl, al, a⟩ := c
    cases al <;> simp only [createCoreColor, getColor, keptColor, Color.argb, Color.rgb, byte_val, toByte_val, if_true, if_false, Bool.false_eq_true] <;> rfl

theorem number_back {n : Int} (h : InInt n) : readNumber (writeNumber n) = keptNumber n := by
  unfold writeNumber keptNumber
  split
  · rename_i hn
    show parseBounded .NumberLevel (IntRange.ofKind .NumberLevel n).toStr = _
    have hval : parseBounded .NumberLevel (IntRange.ofKind .NumberLevel n).toStr = (IntRange.ofKind .NumberLevel n).value := by
      rw [parseBounded, IntRange.default, Props.C17_int_round_trip .NumberLevel n 0 h]
    rw [hval]
    show clampInt 1 6 n = _
    unfold clampInt
    split_ifs <;> omega
  · rfl

theorem ceil_half (n : Int) : ⌈(n : ℚ) - 1 / 2⌉ = n := by
  rw [Int.ceil_eq_iff]
  constructor <;> push_cast <;> linarith

theorem offset_fits {n : Int} (h : InInt n) (b : Bool) : NumFits { isSpecified := b, value := (n : ℚ) } := by
  intro _
  refine ⟨hasDecimals_int 6 n, ?_⟩
  unfold InInt INT_MIN INT_MAX at h
  show |(n : ℚ)| ≤ _
  rw [abs_le]
  constructor
  · have : (-2147483648 : ℚ) ≤ n := by exact_mod_cast h.1
    linarith
  · have : (n : ℚ) ≤ 2147483647 := by exact_mod_cast h.2
    linarith

theorem offset_back {p : CurvePoints} (h : InInt p.bezierOffset) : ∃ x, writeOffset p = some x ∧ ∃ m, readNum .DivisionsValue x = some m ∧
    m.isSpecified = p.isBezierOffsetSpecified ∧ readOffset m = some (if p.isBezierOffsetSpecified then p.bezierOffset else 0) := by
  obtain ⟨x, a, b⟩ := divisions_back (offset_fits h p.isBezierOffsetSpecified)
  refine ⟨x, a, _, b, ?_, ?_⟩
  · unfold keptNum; cases p.isBezierOffsetSpecified <;> rfl
  · unfold keptNum readOffset
    cases p.isBezierOffsetSpecified with
    | false => rfl
    | true =>
      show chk ⌈(p.bezierOffset : ℚ) - 1 / 2⌉ = _
      rw [ceil_half, chk_eq h]; rfl

/-- The common part of the three kinds of curve. -/
theorem curve_back (isSlur : Bool) (type : Core.StartStopContinue) {n : Int} (hn : InInt n) {p : CurvePoints} (h : PointsFit p) :
    ∃ x, writeCurve isSlur type n p = some x ∧ x.isSlur = isSlur ∧ x.type = StringEnum.toStr type ∧ readNumber x.number = keptNumber n ∧ readPoints x = some (keptPoints p) ∧
      ∀ line color orientation x2 y2 o2, readPoints { x with line := line, color := color, orientation := orientation } = some (keptPoints p) ∧
        readPoints { x with bezierX2 := x2, bezierY2 := y2, bezierOffset2 := o2 } = some (keptPoints p) := by
  obtain ⟨h1, h2, h3, h4⟩ := h
  obtain ⟨x1, a1, b1⟩ := position_back curveMembers h1
  obtain ⟨x2, a2, b2⟩ := tenths_back h2
  obtain ⟨x3, a3, b3⟩ := tenths_back h3
  obtain ⟨x4, a4, m, b4, c4, d4⟩ := offset_back h4
  have key : ∀ x : CurveXml, x.position = x1 → x.bezierX = x2 → x.bezierY = x3 → x.bezierOffset = x4 → readPoints x = some (keptPoints p) := by
    intro x e1 e2 e3 e4
    rw [readPoints, e1, e2, e3, e4, b1, b2, b3, b4]
    simp only [Option.bind_eq_bind, Option.bind_some]
    rw [d4, c4]
    rfl
  refine ⟨_, by rw [writeCurve, a1, a2, a3, a4]; rfl, rfl, rfl, number_back hn, key _ rfl rfl rfl rfl, fun _ _ _ _ _ _ => ⟨key _ rfl rfl rfl rfl, key _ rfl rfl rfl rfl⟩⟩

theorem curveType_back {t : Api.CurveType} (h : t ≠ .unspecified) (x : CurveXml) (hx : x.isSlur = decide (t = .slur)) : readCurveType x = t := by
  rw [readCurveType, hx]
  cases t
  · exact absurd rfl h
  · rfl
  · rfl

theorem type_back (t : Core.StartStopContinue) : (parseEnum (StringEnum.toStr t) : Core.StartStopContinue) = t := by cases t <;> rfl

theorem readCurve_continue (acc : NoteCurves) (x : CurveXml) (h : x.type = StringEnum.toStr Core.StartStopContinue.continue_) :
    readCurve acc x = (readContinue x).map (fun s => { acc with continuations := acc.continuations ++ [s] }) := by
  rw [readCurve, h, type_back]

theorem readCurve_start (acc : NoteCurves) (x : CurveXml) (h : x.type = StringEnum.toStr Core.StartStopContinue.start) :
    readCurve acc x = (readStart x).map (fun s => { acc with starts := acc.starts ++ [s] }) := by
  rw [readCurve, h, type_back]

theorem stop_back {c : CurveStop} (h : StopFits c) : ∃ x, writeStop c = some x ∧ ∀ acc, readCurve acc x = some { acc with stops := acc.stops ++ [keptStop c] } := by
  obtain ⟨h1, h2, h3⟩ := h
  obtain ⟨x, a, hs, ht, hn, hp, _⟩ := curve_back (decide (c.curveType = .slur)) .stop h2 h3
  refine ⟨x, by rw [writeStop, if_neg h1, a], fun acc => ?_⟩
  rw [readCurve, ht, type_back]
  simp only
  rw [readStop, hp, hn, curveType_back h1 x hs]
  rfl

theorem continue_back {c : CurveContinue} (h : ContinueFits c) :
    ∃ x, writeContinue c = some x ∧ ∀ acc, readCurve acc x = some { acc with continuations := acc.continuations ++ [keptContinue c] } := by
  obtain ⟨h1, h2, h3, h4, h5, h6⟩ := h
  obtain ⟨x, a, hs, ht, hn, hp, hq⟩ := curve_back (decide (c.curveType = .slur)) .continue_ h2 h3
  obtain ⟨x2, a2, b2⟩ := tenths_back h4
  obtain ⟨y2, a3, b3⟩ := tenths_back h5
  obtain ⟨o2, a4, b4⟩ := divisions_back h6
  refine ⟨_, by rw [writeContinue, if_neg h1, a, a2, a3, a4]; rfl, fun acc => ?_⟩
  rw [readCurve_continue acc { x with bezierX2 := x2, bezierY2 := y2, bezierOffset2 := o2 } ht]
  rw [readContinue, (hq {} none none x2 y2 o2).2]
  have hif : ∀ a : Option Str, ifSlur { x with bezierX2 := x2, bezierY2 := y2, bezierOffset2 := o2 } a = if c.curveType = .slur then a else none := by
    intro a
    show (if x.isSlur then a else none) = _
    rw [hs]
    by_cases hc : c.curveType = .slur
    · rw [if_pos hc, decide_eq_true hc]; rfl
    · rw [if_neg hc, decide_eq_false hc]; rfl
  simp only [hif]
  rw [curveType_back h1 { x with bezierX2 := x2, bezierY2 := y2, bezierOffset2 := o2 } hs, hn]
  by_cases hc : c.curveType = .slur
  · simp only [if_pos hc, b2, b3, b4, Option.bind_eq_bind, Option.bind_some]
    simp only [keptContinue, if_pos hc]
    rfl
  · simp only [if_neg hc, readNum, Option.bind_eq_bind, Option.bind_some]
    simp only [keptContinue, if_neg hc]
    rfl

theorem orientation_back (o : Api.CurveOrientation) : readOrientation (writeOrientation o) = o := by cases o <;> rfl

theorem start_back {c : CurveStart} (h : StartFits c) : ∃ x, writeStart c = some x ∧ ∀ acc, readCurve acc x = some { acc with starts := acc.starts ++ [keptStart c] } := by
  obtain ⟨h1, h2, h3, h4⟩ := h
  obtain ⟨x, a, hs, ht, hn, hp, hq⟩ := curve_back (decide (c.curveType = .slur)) .start h2 h3
  obtain ⟨l, a2, b2⟩ := line_back h4
  refine ⟨_, by rw [writeStart, if_neg h1, a, a2]; rfl, fun acc => ?_⟩
  rw [readCurve_start acc { x with line := l, color := writeColor c.isColorSpecified c.colorData, orientation := writeOrientation c.curveOrientation } ht]
  rw [readStart, (hq l (writeColor c.isColorSpecified c.colorData) (writeOrientation c.curveOrientation) none none none).1]
  simp only [Option.bind_eq_bind, Option.bind_some]
  rw [b2, curveType_back h1 { x with line := l, color := writeColor c.isColorSpecified c.colorData, orientation := writeOrientation c.curveOrientation } hs, hn, color_back, orientation_back]
  rfl

/-! ### Lists of curves -/

theorem list_back {α : Type} (w : α → Option CurveXml) (f : NoteCurves → α → NoteCurves) (l : List α)
    (h : ∀ c ∈ l, ∃ x, w c = some x ∧ ∀ acc, readCurve acc x = some (f acc c)) :
    ∃ xs, l.mapM w = some xs ∧ ∀ acc, xs.foldlM readCurve acc = some (l.foldl f acc) := by
  induction l with
  | nil => exact ⟨[], rfl, fun acc => rfl⟩
  | cons c l ih =>
    obtain ⟨xs, a, b⟩ := ih (fun d hd => h d (List.mem_cons_of_mem _ hd))
    obtain ⟨x, a', b'⟩ := h c List.mem_cons_self
    refine ⟨x :: xs, by rw [List.mapM_cons, a', a]; rfl, fun acc => ?_⟩
    rw [List.foldlM_cons, b' acc]
    exact b _

theorem foldl_stops (l : List CurveStop) : ∀ acc : NoteCurves, l.foldl (fun acc c => { acc with stops := acc.stops ++ [keptStop c] }) acc =
    { acc with stops := acc.stops ++ l.map keptStop } := by
  induction l with
  | nil => intro acc; simp
  | cons c l ih => intro acc; rw [List.foldl_cons, ih]; simp

theorem foldl_continuations (l : List CurveContinue) : ∀ acc : NoteCurves, l.foldl (fun acc c => { acc with continuations := acc.continuations ++ [keptContinue c] }) acc =
    { acc with continuations := acc.continuations ++ l.map keptContinue } := by
  induction l with
  | nil => intro acc; simp
  | cons c l ih => intro acc; rw [List.foldl_cons, ih]; simp

theorem foldl_starts (l : List CurveStart) : ∀ acc : NoteCurves, l.foldl (fun acc c => { acc with starts := acc.starts ++ [keptStart c] }) acc =
    { acc with starts := acc.starts ++ l.map keptStart } := by
  induction l with
  | nil => intro acc; simp
  | cons c l ih => intro acc; rw [List.foldl_cons, ih]; simp

/-- The curves of a note: read after `acc`. -/
theorem curves_back {c : NoteCurves} (h : CurvesFit c) : ∃ xs, writeCurves c = some xs ∧ ∀ acc : NoteCurves, xs.foldlM readCurve acc =
    some { starts := acc.starts ++ (keptCurves c).starts, continuations := acc.continuations ++ (keptCurves c).continuations, stops := acc.stops ++ (keptCurves c).stops } := by
  obtain ⟨h1, h2, h3⟩ := h
  obtain ⟨x1, a1, b1⟩ := list_back writeStart _ c.starts (fun d hd => start_back (h1 d hd))
  obtain ⟨x2, a2, b2⟩ := list_back writeContinue _ c.continuations (fun d hd => continue_back (h2 d hd))
  obtain ⟨x3, a3, b3⟩ := list_back writeStop _ c.stops (fun d hd => stop_back (h3 d hd))
  refine ⟨x3 ++ x2 ++ x1, by rw [writeCurves, a3, a2, a1]; rfl, fun acc => ?_⟩
  rw [List.foldlM_append, List.foldlM_append, b3]
  simp only [Option.bind_eq_bind, Option.bind_some]
  rw [b2]
  simp only [Option.bind_some]
  rw [b1, foldl_stops, foldl_continuations, foldl_starts]
  rfl

theorem addedStart (acc : NoteCurves) : readCurve acc (addedTied .start) = some { acc with starts := acc.starts ++ [{ curveType := .tie }] } := rfl
theorem addedStop (acc : NoteCurves) : readCurve acc (addedTied .stop) = some { acc with stops := acc.stops ++ [{ curveType := .tie }] } := rfl

/-- The curves added by the flags. -/
def tieStarts (kind : NoteKind) (stop start : Bool) : List CurveStart :=
  if kind = .cue then [] else if start then (if stop then [{ curveType := .tie }, { curveType := .tie }] else [{ curveType := .tie }]) else []

/-- The curves added by the flags. -/
def tieStops (kind : NoteKind) (stop start : Bool) : List CurveStop :=
  if kind = .cue then [] else if stop then (if start then [{ curveType := .tie }, { curveType := .tie }] else [{ curveType := .tie }]) else []

theorem noteCurves_back (kind : NoteKind) (stop start : Bool) {c : NoteCurves} (h : CurvesFit c) :
    (writeNoteCurves kind stop start c).bind readNoteCurves =
      some { starts := tieStarts kind stop start ++ (keptCurves c).starts, continuations := (keptCurves c).continuations,
             stops := tieStops kind stop start ++ (keptCurves c).stops } := by
  obtain ⟨xs, a, b⟩ := curves_back h
  rw [writeNoteCurves, a, Option.map_some, Option.bind_some, readNoteCurves, List.foldlM_append]
  have e : List.foldlM readCurve {} (tieNotations kind stop start).flatten =
      some { starts := tieStarts kind stop start, stops := tieStops kind stop start } := by
    cases kind <;> cases stop <;> cases start <;> rfl
  rw [e, Option.bind_eq_bind, Option.bind_some, b]
  simp

/-! ### Plain data is unchanged -/

theorem keptNum_self {n : MaybeNum} (h : PlainNum n) : keptNum n = n := by
  unfold keptNum
  obtain ⟨b, v⟩ := n
  cases b with
  | true => rfl
  | false => have := h rfl; simp only at this; subst this; rfl

theorem keptNumber_self {n : Int} (h : PlainNumber n) : keptNumber n = n := by
  unfold keptNumber
  rcases h with rfl | ⟨h1, h2⟩
  · rfl
  · rw [if_pos (by omega)]; omega

theorem keptPosition_self (m : PositionMembers) {p : PositionData}
    (hd : if m.defaultXY then PlainNum p.defaultX ∧ PlainNum p.defaultY else p.defaultX = {} ∧ p.defaultY = {})
    (hr : if m.relativeXY then PlainNum p.relativeX ∧ PlainNum p.relativeY else p.relativeX = {} ∧ p.relativeY = {})
    (hp : m.placement = false → p.placement = .unspecified) (hh : m.halign = false → p.horizontalAlignment = .unspecified)
    (hv : m.valign = false → p.verticalAlignment = .unspecified) : keptPosition m p = p := by
  obtain ⟨m1, m2, m3, m4, m5⟩ := m
  obtain ⟨a, b, c, d, e, f, g⟩ := p
  simp only at hd hr hp hh hv
  have t : ∀ (b : Bool) (x y : MaybeNum), (if b then PlainNum x ∧ PlainNum y else x = {} ∧ y = {}) → (if b then keptNum x else {}) = x ∧ (if b then keptNum y else {}) = y := by
    intro b x y h
    cases b with
    | true => exact ⟨keptNum_self h.1, keptNum_self h.2⟩
    | false => exact ⟨h.1.symm, h.2.symm⟩
  unfold keptPosition
  simp only [(t _ _ _ hd).1, (t _ _ _ hd).2, (t _ _ _ hr).1, (t _ _ _ hr).2]
  congr 1
  · cases m5 with
    | true => rfl
    | false => exact (hp rfl).symm
  · cases m4 with
    | true => rfl
    | false => exact (hv rfl).symm
  · cases m3 with
    | true => rfl
    | false => exact (hh rfl).symm

theorem keptPoints_self {p : CurvePoints} (h : PlainPoints p) : keptPoints p = p := by
  obtain ⟨⟨h1, h2, h3, h4, h5, h6⟩, h7, h8, h9⟩ := h
  unfold keptPoints
  rw [keptPosition_self curveMembers ⟨h1, h2⟩ ⟨h3, h4⟩ (fun h => (by cases h)) (fun _ => h6) (fun _ => h5), keptNum_self h7, keptNum_self h8]
  obtain ⟨a, b, c, d, e⟩ := p
  cases d with
  | true => rfl
  | false => have h0 : e = 0 := h9 rfl
             subst h0; rfl

theorem keptStop_self {c : CurveStop} (h : PlainStop c) : keptStop c = c := by
  unfold keptStop; rw [keptNumber_self h.1, keptPoints_self h.2]

theorem keptContinue_self {c : CurveContinue} (h : PlainContinue c) : keptContinue c = c := by
  obtain ⟨h1, h2, h3, h4, h5, h6⟩ := h
  unfold keptContinue
  rw [keptNumber_self h2, keptPoints_self h3, if_pos h1, if_pos h1, if_pos h1, keptNum_self h4, keptNum_self h5, keptNum_self h6]

theorem keptStart_self {c : CurveStart} (h : PlainStart c) : keptStart c = c := by
  obtain ⟨h1, h2, h3, h4, h5, h6, h7, h8, h9⟩ := h
  have hl : keptLine c.lineData = c.lineData := by
    unfold keptLine; rw [keptNum_self h6, keptNum_self h7, ← h4, ← h5]
  have hc : keptColor c.isColorSpecified c.colorData = c.colorData := by
    unfold keptColor
    cases hb : c.isColorSpecified with
    | false => exact (h8 hb).symm
    | true =>
      rw [if_pos rfl]
      cases ha : c.colorData.isAlphaSpecified with
      | true => rw [if_pos rfl, ← ha]
      | false => rw [if_neg (by decide), ← ha, ← h9 ha]
  unfold keptStart
  rw [keptNumber_self h1, keptPoints_self h2, hl, hc, ← h3]

theorem keptCurves_self {c : NoteCurves} (h : PlainCurves c) : keptCurves c = c := by
  obtain ⟨h1, h2, h3⟩ := h
  have m : ∀ {α : Type} (f : α → α) (l : List α), (∀ x ∈ l, f x = x) → l.map f = l := by
    intro α f l hf
    rw [List.map_congr_left hf, List.map_id']
  unfold keptCurves
  rw [m _ _ (fun x hx => keptStart_self (h1 x hx)), m _ _ (fun x hx => keptContinue_self (h2 x hx)), m _ _ (fun x hx => keptStop_self (h3 x hx))]

/-! ### Once kept, always kept -/

theorem keptNum_plain (n : MaybeNum) : PlainNum (keptNum n) := by
  unfold keptNum; intro h
  split at h
  · rename_i hs; rw [hs] at h; cases h
  · rename_i hs; rw [if_neg hs]

theorem keptNum_fits {n : MaybeNum} (h : NumFits n) : NumFits (keptNum n) := by
  unfold keptNum; split
  · exact h
  · intro hs; cases hs

theorem keptNumber_plain (n : Int) : PlainNumber (keptNumber n) := by
  unfold keptNumber PlainNumber; split <;> omega

theorem plainNumber_int {n : Int} (h : PlainNumber n) : InInt n := by
  unfold InInt INT_MIN INT_MAX; unfold PlainNumber at h; omega

theorem keptPoints_plain (p : CurvePoints) : PlainPoints (keptPoints p) :=
  ⟨⟨keptNum_plain _, keptNum_plain _, keptNum_plain _, keptNum_plain _, rfl, rfl⟩, keptNum_plain _, keptNum_plain _, fun h => by
    unfold keptPoints at h ⊢; simp only at h ⊢; rw [h]; rfl⟩

theorem keptPoints_fit {p : CurvePoints} (h : PointsFit p) : PointsFit (keptPoints p) := by
  obtain ⟨⟨h1, h2, h3, h4⟩, h5, h6, h7⟩ := h
  refine ⟨⟨keptNum_fits h1, keptNum_fits h2, keptNum_fits h3, keptNum_fits h4⟩, keptNum_fits h5, keptNum_fits h6, ?_⟩
  show InInt (if p.isBezierOffsetSpecified then p.bezierOffset else 0)
  split
  · exact h7
  · decide

theorem keptStop_plain (c : CurveStop) : PlainStop (keptStop c) := ⟨keptNumber_plain _, keptPoints_plain _⟩

theorem keptStop_fits {c : CurveStop} (h : StopFits c) : StopFits (keptStop c) := ⟨h.1, plainNumber_int (keptNumber_plain _), keptPoints_fit h.2.2⟩

theorem keptStart_plain (c : CurveStart) : PlainStart (keptStart c) :=
  ⟨keptNumber_plain _, keptPoints_plain _, rfl, rfl, rfl, keptNum_plain _, keptNum_plain _,
    fun h => by
      show keptColor c.isColorSpecified c.colorData = {}
      have h' : c.isColorSpecified = false := h
      rw [h']; rfl,
    fun h => by
      have h' : (keptColor c.isColorSpecified c.colorData).isAlphaSpecified = false := h
      show (keptColor c.isColorSpecified c.colorData).alpha = 255
      unfold keptColor at h' ⊢
      split
      · rename_i hs
        rw [if_pos hs] at h'
        simp only at h' ⊢
        rw [h']; rfl
      · rfl⟩

theorem keptStart_fits {c : CurveStart} (h : StartFits c) : StartFits (keptStart c) :=
  ⟨h.1, plainNumber_int (keptNumber_plain _), keptPoints_fit h.2.2.1, keptNum_fits h.2.2.2.1, keptNum_fits h.2.2.2.2⟩

theorem keptContinue_fits {c : CurveContinue} (h : ContinueFits c) : ContinueFits (keptContinue c) := by
  obtain ⟨h1, h2, h3, h4, h5, h6⟩ := h
  have t : ∀ n, NumFits n → NumFits (if c.curveType = .slur then keptNum n else {}) := by
    intro n hn; split
    · exact keptNum_fits hn
    · intro hs; cases hs
  exact ⟨h1, plainNumber_int (keptNumber_plain _), keptPoints_fit h3, t _ h4, t _ h5, t _ h6⟩

theorem keptContinue_idem (c : CurveContinue) : keptContinue (keptContinue c) = keptContinue c := by
  have hn := keptNumber_self (keptNumber_plain c.numberLevel)
  have hp := keptPoints_self (keptPoints_plain c.curvePoints)
  have t : ∀ n, (if c.curveType = .slur then keptNum (if c.curveType = .slur then keptNum n else {}) else {}) = if c.curveType = .slur then keptNum n else {} := by
    intro n
    by_cases h : c.curveType = .slur
    · simp only [if_pos h]; exact keptNum_self (keptNum_plain n)
    · simp only [if_neg h]
  show ({ curveType := c.curveType, numberLevel := keptNumber (keptNumber c.numberLevel), curvePoints := keptPoints (keptPoints c.curvePoints)
          bezierX2 := if c.curveType = .slur then keptNum (if c.curveType = .slur then keptNum c.bezierX2 else {}) else {}
          bezierY2 := if c.curveType = .slur then keptNum (if c.curveType = .slur then keptNum c.bezierY2 else {}) else {}
          bezierOffset2 := if c.curveType = .slur then keptNum (if c.curveType = .slur then keptNum c.bezierOffset2 else {}) else {} } : CurveContinue) = _
  rw [hn, hp, t, t, t]
  rfl

theorem keptCurves_fit {c : NoteCurves} (h : CurvesFit c) : CurvesFit (keptCurves c) := by
  obtain ⟨h1, h2, h3⟩ := h
  refine ⟨?_, ?_, ?_⟩ <;> intro x hx <;> obtain ⟨y, hy, rfl⟩ := List.mem_map.mp hx
  · exact keptStart_fits (h1 y hy)
  · exact keptContinue_fits (h2 y hy)
  · exact keptStop_fits (h3 y hy)

/-! ### Tuplets -/

theorem natInt_max {v : Int} (h : InInt v) : parseBounded .NonNegativeInteger (IntRange.ofKind .NonNegativeInteger v).toStr = max 0 v := by
  have hval : parseBounded .NonNegativeInteger (IntRange.ofKind .NonNegativeInteger v).toStr = (IntRange.ofKind .NonNegativeInteger v).value := by
    rw [parseBounded, IntRange.default, Props.C17_int_round_trip .NonNegativeInteger v 0 h]
  rw [hval]
  show clampInt 0 INT_MAX v = _
  unfold clampInt
  unfold InInt INT_MIN INT_MAX at h
  unfold INT_MAX
  split_ifs <;> omega

theorem dots_back (d : Int) : readTupletDots d.toNat = if d > 0 then d else -1 := by
  unfold readTupletDots
  split_ifs <;> omega

theorem part_back (old : Int) {n : Int} (h : InInt n) (name : Api.DurationName) (d : Int) :
    readTupletPart old (writeTupletPart n name d) = (max 0 n, (if name = .unspecified then .maxima else name), (if d > 0 then d else -1)) := by
  show (parseBounded .NonNegativeInteger (IntRange.ofKind .NonNegativeInteger n).toStr,
    (MapName.durationMap.toApi (parseEnum (StringEnum.toStr (MapName.durationMap.toCore name : Core.NoteTypeValue)) : Core.NoteTypeValue) : Api.DurationName), readTupletDots d.toNat) = _
  rw [natInt_max h, name_back, dots_back]

theorem show_back (a n : Api.Bool) : readShowNumber (writeShowNumber a n) = keptShow a n := by cases a <;> cases n <;> rfl

theorem bool_back (a : Api.Bool) : ((if a ≠ .unspecified then some (StringEnum.toStr (MapName.boolMap.toCore a : Core.YesNo)) else none).map
    (fun t => (MapName.boolMap.toApi (parseEnum t : Core.YesNo) : Api.Bool))).getD .unspecified = a := by cases a <;> rfl

theorem readPosition_empty : readPosition tupletMembers {} = some {} := rfl

theorem tupletStart_back (n : TupletNote) {t : TupletStart} (h : TupletNumbers t) : readTuplet n (writeTupletStart t) = some (.inl (keptTuplet t)) := by
  obtain ⟨h1, h2, h3⟩ := h
  rw [readTuplet, writeTupletStart]
  simp only
  rw [readPosition_empty, Option.map_some, if_neg (by decide), bool_back]
  simp only [part_back _ h2, part_back _ h3, number_back h1, show_back]
  rfl

theorem tupletStop_back (n : TupletNote) {t : TupletStop} (h : InInt t.numberLevel) : readTuplet n (writeTupletStop t) = some (.inr { numberLevel := keptNumber t.numberLevel }) := by
  rw [readTuplet, writeTupletStop]
  simp only
  rw [readPosition_empty, Option.map_some, if_pos (by decide), number_back h]

theorem keptTuplet_self {t : TupletStart} (h : PlainTuplet t) : keptTuplet t = t := by
  obtain ⟨h1, h2, h3, h4, h5, h6, h7, h8, h9⟩ := h
  have hs : keptShow t.showActualNumber t.showNormalNumber = (t.showActualNumber, t.showNormalNumber) := by
    revert h9
    cases t.showActualNumber <;> cases t.showNormalNumber <;> decide
  have hd : ∀ d : Int, d = -1 ∨ 0 < d → (if d > 0 then d else -1) = d := by intro d h; split_ifs <;> omega
  unfold keptTuplet
  rw [keptNumber_self h1, hs, if_neg h5, if_neg h6, hd _ h7, hd _ h8, max_eq_right h3, max_eq_right h4, ← h2]

end Mx
