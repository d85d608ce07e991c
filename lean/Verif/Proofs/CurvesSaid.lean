import Verif.Model.CurvesThrough
import Verif.Spec.CurvesSaid
import Verif.Proofs.Notations
import Verif.Proofs.LayoutSaid
import Verif.Props.ColorProps

/-! Lemmas for `Verif/Props/CurveFileProps.lean`. -/
namespace Mx
open _root_.Spec Mx.Spec
open Measure (NoteKind)

/-! ### Numbers and colours -/

theorem fitting_read {k : DecimalKind} (hr : ∀ v, InRange k v) {x : Option Str} {v : Option ℚ} (h : DecimalSays x v) (hf : ∀ n ∈ v, LengthFits n) : readNum k x = some (numOf v) := by
  rcases h with ⟨rfl, rfl⟩ | ⟨t, n, rfl, rfl, ht⟩
  · rfl
  · rw [readNum, decimal_range_parse ht (hr n) (hf n rfl).1 (hf n rfl).2]; rfl

theorem fitting_written {k : DecimalKind} (hr : ∀ v, InRange k v) {v : Option ℚ} (hf : ∀ n ∈ v, LengthFits n) : ∃ x, writeNum k (numOf v) = some x ∧ DecimalSays x v := by
  cases v with
  | none => exact ⟨none, rfl, .inl ⟨rfl, rfl⟩⟩
  | some n =>
    obtain ⟨s, h1, h2⟩ := decimal_range_says (hr n) (hf n rfl).1 (hf n rfl).2
    refine ⟨some s, ?_, .inr ⟨s, n, rfl, rfl, h2⟩⟩
    rw [writeNum, if_pos (show (numOf (some n)).isSpecified = true from rfl)]
    show ((DecimalRange.make k n).map _).map _ = _
    rw [h1]; rfl

theorem tenths_any : ∀ v, InRange .TenthsValue v := fun _ => trivial
theorem divisions_any : ∀ v, InRange .DivisionsValue v := fun _ => trivial

theorem curveNumber_read {x : Option Str} {v : Option Int} (h : IntegerSays x v) (hk : ∀ n ∈ v, 1 ≤ n ∧ n ≤ 6) : readNumber x = v.getD (-1) := by
  rcases h with ⟨rfl, rfl⟩ | ⟨t, n, rfl, rfl, ht⟩
  · rfl
  · obtain ⟨b1, b2⟩ := hk n rfl
    exact parseBounded_numeral ht ⟨le_trans (by decide) b1, le_trans b2 (by decide)⟩ ⟨b1, b2⟩

theorem curveNumber_written {v : Option Int} (hk : ∀ n ∈ v, 1 ≤ n ∧ n ≤ 6) : IntegerSays (writeNumber (v.getD (-1))) v := by
  cases v with
  | none => exact .inl ⟨rfl, rfl⟩
  | some n =>
    obtain ⟨b1, b2⟩ := hk n rfl
    exact .inr ⟨_, n, if_pos (show n > 0 by omega), rfl, bounded_says (k := .NumberLevel) ⟨b1, b2⟩⟩

theorem color_read {x : Option Str} {c : Option ColorData} (h : ColorSays x c) : readColor x = (c.isSome, c.getD {}) := by
  rcases h with ⟨rfl, rfl⟩ | ⟨R, G, B, r, g, b, rfl, rfl, h1, h2, h3⟩ | ⟨A, R, G, B, a, r, g, b, rfl, rfl, h0, h1, h2, h3⟩
  · rfl
  · rw [readColor, Color.ofString, (Props.C15_color_parse _ _).1 R G B _ _ _ h1 h2 h3 rfl, getColor]
    simp only [toByte_val]
    rfl
  · rw [readColor, Color.ofString, (Props.C15_color_parse _ _).2.1 A R G B _ _ _ _ h0 h1 h2 h3 rfl, getColor]
    simp only [toByte_val]
    rfl

theorem hex_val (v : Fin 256) : HexByte (Color.hex2 (Color.byte (v.val : Int))) v.val := by
  have h := Color.hex2_isHexByte (v := Color.byte (v.val : Int)) (by rw [byte_val]; omega) (by rw [byte_val]; omega)
  rwa [show (Color.byte (v.val : Int)).toNat = v.val by rw [byte_val]; rfl] at h

theorem color_written {x : Option Str} {c : Option ColorData} (h : ColorSays x c) : ColorSays (writeColor c.isSome (c.getD {})) c := by
  rcases h with ⟨rfl, rfl⟩ | ⟨R, G, B, r, g, b, rfl, rfl, h1, h2, h3⟩ | ⟨A, R, G, B, a, r, g, b, rfl, rfl, h0, h1, h2, h3⟩
  · exact .inl ⟨rfl, rfl⟩
  · exact .inr (.inl ⟨_, _, _, r, g, b, rfl, rfl, hex_val r, hex_val g, hex_val b⟩)
  · exact .inr (.inr ⟨_, _, _, _, a, r, g, b, rfl, rfl, hex_val a, hex_val r, hex_val g, hex_val b⟩)

/-! ### The curves of the API -/

def apiPlacement : Option Core.AboveBelow → Api.Placement
  | none => .unspecified
  | some .above => .above
  | some .below => .below

def apiOrientation : Option Core.OverUnder → Api.CurveOrientation
  | none => .unspecified
  | some .over => .overhand
  | some .under => .underhand

def apiLineType : Option Core.LineType → Api.LineType
  | none => .unspecified
  | some .solid => .solid
  | some .dashed => .dashed
  | some .dotted => .dotted
  | some .wavy => .wavy

def pointsOf (a : CurveSaid) : CurvePoints :=
  { positionData := { defaultX := numOf a.defaultX, defaultY := numOf a.defaultY, relativeX := numOf a.relativeX, relativeY := numOf a.relativeY, placement := apiPlacement a.placement }
    bezierX := numOf a.bezierX, bezierY := numOf a.bezierY, isBezierOffsetSpecified := a.bezierOffset.isSome, bezierOffset := ⌈a.bezierOffset.getD 0 - 1 / 2⌉ }

def curveTypeOf (a : CurveSaid) : Api.CurveType := if a.isSlur then .slur else .tie

def stopOf (a : CurveSaid) : CurveStop := { curveType := curveTypeOf a, numberLevel := a.number.getD (-1), curvePoints := pointsOf a }

def continueOf (a : CurveSaid) : CurveContinue :=
  { curveType := curveTypeOf a, numberLevel := a.number.getD (-1), curvePoints := pointsOf a, bezierX2 := numOf a.bezierX2, bezierY2 := numOf a.bezierY2, bezierOffset2 := numOf a.bezierOffset2 }

def startOf (a : CurveSaid) : CurveStart :=
  { curveType := curveTypeOf a, numberLevel := a.number.getD (-1), curvePoints := pointsOf a
    lineData := { lineType := apiLineType a.lineType, dashLength := numOf a.dashLength, spaceLength := numOf a.spaceLength }
    isColorSpecified := a.color.isSome, colorData := a.color.getD {}, curveOrientation := apiOrientation a.orientation }

theorem offset_fits_said {a : CurveSaid} (hk : CurveKept a) : ∀ n ∈ a.bezierOffset, LengthFits n := by
  intro v hv
  obtain ⟨n, rfl, h1, h2⟩ := hk.offset v hv
  exact offset_fits (n := n) ⟨h1, h2⟩ true rfl

theorem points_read {x : CurveXml} {a : CurveSaid} (h : CurveSays x a) (hk : CurveKept a) : readPoints x = some (pointsOf a) := by
  have hl : ∀ v ∈ _, _ := hk.lengths
  have ho : readOffset (numOf a.bezierOffset) = some (if a.bezierOffset.isSome then ⌈a.bezierOffset.getD 0 - 1 / 2⌉ else 0) := by
    cases e : a.bezierOffset with
    | none => rfl
    | some v =>
      obtain ⟨n, rfl, h1, h2⟩ := hk.offset v e
      show chk ⌈(n : ℚ) - 1 / 2⌉ = some ⌈(n : ℚ) - 1 / 2⌉
      rw [ceil_half, chk_eq ⟨h1, h2⟩]
  have hz : (if a.bezierOffset.isSome then ⌈a.bezierOffset.getD 0 - 1 / 2⌉ else 0) = ⌈a.bezierOffset.getD 0 - 1 / 2⌉ := by
    cases a.bezierOffset with
    | none => decide +kernel
    | some v => rfl
  have hs : (numOf a.bezierOffset).isSpecified = a.bezierOffset.isSome := by cases a.bezierOffset <;> rfl
  have hp : readPosition curveMembers x.position = some (pointsOf a).positionData := by
    rw [readPosition]
    simp only [curveMembers, if_true]
    rw [fitting_read tenths_any h.defaultX (hl _ (by simp)), fitting_read tenths_any h.defaultY (hl _ (by simp)), fitting_read tenths_any h.relativeX (hl _ (by simp)),
      fitting_read tenths_any h.relativeY (hl _ (by simp)), h.placement]
    rcases e : a.placement with _ | _ | _ <;> simp only [pointsOf, e] <;> rfl
  rw [readPoints, hp, fitting_read tenths_any h.bezierX (hl _ (by simp)), fitting_read tenths_any h.bezierY (hl _ (by simp)), fitting_read divisions_any h.bezierOffset (offset_fits_said hk)]
  simp only [Option.bind_eq_bind, Option.bind_some]
  rw [ho, hz, hs]
  rfl

theorem readType {x : CurveXml} {a : CurveSaid} (h : CurveSays x a) : readCurveType x = curveTypeOf a := by rw [readCurveType, h.isSlur]; rfl

theorem type_parsed (t : Core.StartStopContinue) : (parseEnum (curveTypeText t) : Core.StartStopContinue) = t := by cases t <;> rfl

/-- The curve of the API after the others. -/
def addSaid (c : NoteCurves) (a : CurveSaid) : NoteCurves :=
  match a.type with
  | .start => { c with starts := c.starts ++ [startOf a] }
  | .continue_ => { c with continuations := c.continuations ++ [continueOf a] }
  | .stop => { c with stops := c.stops ++ [stopOf a] }

theorem ifSlur_read {k : DecimalKind} (hr : ∀ v, InRange k v) {x : CurveXml} {a : CurveSaid} (h : CurveSays x a) {t : Option Str} {v : Option ℚ} (hs : DecimalSays t v) (hf : ∀ n ∈ v, LengthFits n)
    (hn : a.isSlur = false → v = none) : readNum k (ifSlur x t) = some (numOf v) := by
  rw [ifSlur, h.isSlur]
  cases e : a.isSlur with
  | true => exact fitting_read hr hs hf
  | false => rw [hn e]; rfl

theorem curve_read (c : NoteCurves) {x : CurveXml} {a : CurveSaid} (h : CurveSays x a) (hk : CurveKept a) : readCurve c x = some (addSaid c a) := by
  have hl : ∀ v ∈ _, _ := hk.lengths
  rw [readCurve, h.type, type_parsed, addSaid]
  cases e : a.type with
  | start =>
    simp only
    rw [readStart, points_read h hk, readLine, fitting_read tenths_any h.dashLength (hl _ (by simp)), fitting_read tenths_any h.spaceLength (hl _ (by simp)), color_read h.color, readType h,
      curveNumber_read h.number hk.number, h.lineType, h.orientation]
    rcases e1 : a.lineType with _ | _ | _ | _ | _ <;> rcases e2 : a.orientation with _ | _ | _ <;> simp only [startOf, e1, e2] <;> rfl
  | stop =>
    simp only
    rw [readStop, points_read h hk, readType h, curveNumber_read h.number hk.number]
    rfl
  | continue_ =>
    simp only
    have h2 : a.isSlur = false → a.bezierX2 = none ∧ a.bezierY2 = none ∧ a.bezierOffset2 = none := fun e => hk.second (fun ⟨_, e'⟩ => by rw [e] at e'; cases e')
    rw [readContinue, points_read h hk, readType h, curveNumber_read h.number hk.number, ifSlur_read tenths_any h h.bezierX2 (hl _ (by simp)) (fun e => (h2 e).1),
      ifSlur_read tenths_any h h.bezierY2 (hl _ (by simp)) (fun e => (h2 e).2.1), ifSlur_read divisions_any h h.bezierOffset2 (hl _ (by simp)) (fun e => (h2 e).2.2)]
    rfl

theorem curves_read {xs : List CurveXml} {l : List CurveSaid} (h : List.Forall₂ CurveSays xs l) : ∀ (c : NoteCurves), (∀ a ∈ l, CurveKept a) →
    xs.foldlM readCurve c = some { starts := c.starts ++ (ofType .start l).map startOf, continuations := c.continuations ++ (ofType .continue_ l).map continueOf, stops := c.stops ++ (ofType .stop l).map stopOf } := by
  induction h with
  | nil => intro c _; simp [ofType]
  | cons h _ ih =>
    rename_i x a xs l _
    intro c hk
    rw [List.foldlM_cons, curve_read c h (hk a List.mem_cons_self)]
    simp only [Option.bind_eq_bind, Option.bind_some]
    rw [ih _ (fun b hb => hk b (List.mem_cons_of_mem _ hb)), addSaid]
    cases e : a.type <;> simp [ofType, e]

/-! ### Writing -/

theorem curve_written {a : CurveSaid} (hk : CurveKept a) (t : Core.StartStopContinue) : ∃ x, writeCurve (decide (curveTypeOf a = .slur)) t (a.number.getD (-1)) (pointsOf a) = some x ∧
    CurveSays x { a with type := t, lineType := none, dashLength := none, spaceLength := none, orientation := none, color := none, bezierX2 := none, bezierY2 := none, bezierOffset2 := none } := by
  have hl : ∀ v ∈ _, _ := hk.lengths
  obtain ⟨x1, a1, b1⟩ := fitting_written tenths_any (hl a.defaultX (by simp))
  obtain ⟨x2, a2, b2⟩ := fitting_written tenths_any (hl a.defaultY (by simp))
  obtain ⟨x3, a3, b3⟩ := fitting_written tenths_any (hl a.relativeX (by simp))
  obtain ⟨x4, a4, b4⟩ := fitting_written tenths_any (hl a.relativeY (by simp))
  obtain ⟨x5, a5, b5⟩ := fitting_written tenths_any (hl a.bezierX (by simp))
  obtain ⟨x6, a6, b6⟩ := fitting_written tenths_any (hl a.bezierY (by simp))
  obtain ⟨x7, a7, b7⟩ := fitting_written divisions_any (offset_fits_said hk)
  have ho : writeOffset (pointsOf a) = some x7 := by
    rw [writeOffset, ← a7]
    cases e : a.bezierOffset with
    | none => simp only [pointsOf, e]; rfl
    | some v =>
      obtain ⟨n, rfl, h1, h2⟩ := hk.offset v e
      simp only [pointsOf, e, numOf, Option.getD_some, ceil_half, Option.isSome_some]
  have hp : writePosition curveMembers (pointsOf a).positionData = some { defaultX := x1, defaultY := x2, relativeX := x3, relativeY := x4, placement := a.placement.map placementText } := by
    rw [writePosition]
    simp only [curveMembers, ifMember, if_true, pointsOf]
    rw [a1, a2, a3, a4]
    rcases a.placement with _ | _ | _ <;> rfl
  refine ⟨{ isSlur := a.isSlur, type := curveTypeText t, number := writeNumber (a.number.getD (-1)), position := { defaultX := x1, defaultY := x2, relativeX := x3, relativeY := x4, placement := a.placement.map placementText }, bezierOffset := x7, bezierX := x5, bezierY := x6 }, ?_, ?_⟩
  · rw [writeCurve, hp, ho, show writeNum .TenthsValue (pointsOf a).bezierX = some x5 from a5, show writeNum .TenthsValue (pointsOf a).bezierY = some x6 from a6]
    have hd : decide (curveTypeOf a = .slur) = a.isSlur := by unfold curveTypeOf; cases a.isSlur <;> rfl
    rw [hd]
    cases t <;> rfl
  · have hn : DecimalSays none none := .inl ⟨rfl, rfl⟩
    exact { isSlur := rfl, type := rfl, number := curveNumber_written hk.number, lineType := rfl, dashLength := hn, spaceLength := hn, defaultX := b1, defaultY := b2, relativeX := b3, relativeY := b4
            halign := rfl, valign := rfl, placement := rfl, orientation := rfl, bezierOffset := b7, bezierX := b5, bezierY := b6, bezierOffset2 := hn, bezierX2 := hn, bezierY2 := hn, color := .inl ⟨rfl, rfl⟩ }

theorem specified (a : CurveSaid) : ¬ curveTypeOf a = .unspecified := by unfold curveTypeOf; cases a.isSlur <;> decide

theorem stop_written {a : CurveSaid} (hk : CurveKept a) (ht : a.type = .stop) : ∃ x, writeStop (stopOf a) = some x ∧ CurveSays x a := by
  obtain ⟨x, h1, h2⟩ := curve_written hk .stop
  refine ⟨x, ?_, ?_⟩
  · rw [writeStop, if_neg (show ¬ (stopOf a).curveType = .unspecified from specified a)]; exact h1
  · obtain ⟨c1, c2, c3, c4, c5⟩ := hk.starts (by rw [ht]; decide)
    obtain ⟨d1, d2, d3⟩ := hk.second (by rw [ht]; rintro ⟨h, _⟩; cases h)
    exact { isSlur := h2.isSlur, type := ht ▸ h2.type, number := h2.number, lineType := c1 ▸ h2.lineType, dashLength := c2 ▸ h2.dashLength, spaceLength := c3 ▸ h2.spaceLength, defaultX := h2.defaultX
            defaultY := h2.defaultY, relativeX := h2.relativeX, relativeY := h2.relativeY, halign := h2.halign, valign := h2.valign, placement := h2.placement, orientation := c4 ▸ h2.orientation
            bezierOffset := h2.bezierOffset, bezierX := h2.bezierX, bezierY := h2.bezierY, bezierOffset2 := d3 ▸ h2.bezierOffset2, bezierX2 := d1 ▸ h2.bezierX2, bezierY2 := d2 ▸ h2.bezierY2, color := c5 ▸ h2.color }

theorem continue_written {a : CurveSaid} (hk : CurveKept a) (ht : a.type = .continue_) : ∃ x, writeContinue (continueOf a) = some x ∧ CurveSays x a := by
  have hl : ∀ v ∈ _, _ := hk.lengths
  obtain ⟨x, h1, h2⟩ := curve_written hk .continue_
  obtain ⟨y1, a1, b1⟩ := fitting_written tenths_any (hl a.bezierX2 (by simp))
  obtain ⟨y2, a2, b2⟩ := fitting_written tenths_any (hl a.bezierY2 (by simp))
  obtain ⟨y3, a3, b3⟩ := fitting_written divisions_any (hl a.bezierOffset2 (by simp))
  obtain ⟨c1, c2, c3, c4, c5⟩ := hk.starts (by rw [ht]; decide)
  refine ⟨{ x with bezierX2 := y1, bezierY2 := y2, bezierOffset2 := y3 }, ?_, ?_⟩
  · rw [writeContinue, if_neg (show ¬ (continueOf a).curveType = .unspecified from specified a)]
    show (writeCurve _ .continue_ _ (pointsOf a)).bind _ = _
    rw [show writeCurve (decide ((continueOf a).curveType = .slur)) .continue_ (continueOf a).numberLevel (pointsOf a) = some x from h1]
    show (writeNum .TenthsValue (numOf a.bezierX2)).bind _ = _
    rw [a1]
    show (writeNum .TenthsValue (numOf a.bezierY2)).bind _ = _
    rw [a2]
    show (writeNum .DivisionsValue (numOf a.bezierOffset2)).bind _ = _
    rw [a3]
    rfl
  · exact { isSlur := h2.isSlur, type := ht ▸ h2.type, number := h2.number, lineType := c1 ▸ h2.lineType, dashLength := c2 ▸ h2.dashLength, spaceLength := c3 ▸ h2.spaceLength, defaultX := h2.defaultX
            defaultY := h2.defaultY, relativeX := h2.relativeX, relativeY := h2.relativeY, halign := h2.halign, valign := h2.valign, placement := h2.placement, orientation := c4 ▸ h2.orientation
            bezierOffset := h2.bezierOffset, bezierX := h2.bezierX, bezierY := h2.bezierY, bezierOffset2 := b3, bezierX2 := b1, bezierY2 := b2, color := c5 ▸ h2.color }

theorem start_written {x0 : CurveXml} {a : CurveSaid} (h0 : CurveSays x0 a) (hk : CurveKept a) (ht : a.type = .start) : ∃ x, writeStart (startOf a) = some x ∧ CurveSays x a := by
  have hl : ∀ v ∈ _, _ := hk.lengths
  obtain ⟨x, h1, h2⟩ := curve_written hk .start
  obtain ⟨y1, a1, b1⟩ := fitting_written tenths_any (hl a.dashLength (by simp))
  obtain ⟨y2, a2, b2⟩ := fitting_written tenths_any (hl a.spaceLength (by simp))
  obtain ⟨d1, d2, d3⟩ := hk.second (by rw [ht]; rintro ⟨h, _⟩; cases h)
  have hline : writeLine (startOf a).lineData = some { lineType := a.lineType.map lineTypeText, dashLength := y1, spaceLength := y2 } := by
    rw [writeLine]
    show (writeNum .TenthsValue (numOf a.dashLength)).bind _ = _
    rw [a1]
    show (writeNum .TenthsValue (numOf a.spaceLength)).bind _ = _
    rw [a2]
    rcases e : a.lineType with _ | _ | _ | _ | _ <;> simp only [startOf, e] <;> rfl
  have hor : writeOrientation (startOf a).curveOrientation = a.orientation.map orientationText := by
    rcases e : a.orientation with _ | _ | _ <;> simp only [startOf, e] <;> rfl
  refine ⟨{ x with line := { lineType := a.lineType.map lineTypeText, dashLength := y1, spaceLength := y2 }, color := writeColor a.color.isSome (a.color.getD {}), orientation := a.orientation.map orientationText }, ?_, ?_⟩
  · rw [writeStart, if_neg (show ¬ (startOf a).curveType = .unspecified from specified a), hline, hor]
    show (writeCurve _ .start _ (pointsOf a)).bind _ = _
    rw [show writeCurve (decide ((startOf a).curveType = .slur)) .start (startOf a).numberLevel (pointsOf a) = some x from h1]
    rfl
  · exact { isSlur := h2.isSlur, type := ht ▸ h2.type, number := h2.number, lineType := rfl, dashLength := b1, spaceLength := b2, defaultX := h2.defaultX
            defaultY := h2.defaultY, relativeX := h2.relativeX, relativeY := h2.relativeY, halign := h2.halign, valign := h2.valign, placement := h2.placement, orientation := rfl
            bezierOffset := h2.bezierOffset, bezierX := h2.bezierX, bezierY := h2.bezierY, bezierOffset2 := d3 ▸ h2.bezierOffset2, bezierX2 := d1 ▸ h2.bezierX2, bezierY2 := d2 ▸ h2.bezierY2, color := color_written h0.color }

/-! ### All curves of a note -/

theorem mapM_written {β : Type} (f : CurveSaid → β) (w : β → Option CurveXml) {l : List CurveSaid} (h : ∀ a ∈ l, ∃ x, w (f a) = some x ∧ CurveSays x a) :
    ∃ xs, (l.map f).mapM w = some xs ∧ List.Forall₂ CurveSays xs l := by
  induction l with
  | nil => exact ⟨[], rfl, .nil⟩
  | cons a l ih =>
    obtain ⟨x, h1, h2⟩ := h a List.mem_cons_self
    obtain ⟨xs, h3, h4⟩ := ih (fun b hb => h b (List.mem_cons_of_mem _ hb))
    exact ⟨x :: xs, by rw [List.map_cons, List.mapM_cons, h1, h3]; rfl, .cons h2 h4⟩

/-- The order in which the curves are written. -/
def written (l : List CurveSaid) : List CurveSaid := ofType .stop l ++ ofType .continue_ l ++ ofType .start l

theorem said_of_mem {xs : List CurveXml} {l : List CurveSaid} (h : List.Forall₂ CurveSays xs l) {a : CurveSaid} (ha : a ∈ l) : ∃ x, CurveSays x a := by
  induction h with
  | nil => cases ha
  | cons h _ ih =>
    rcases List.mem_cons.mp ha with rfl | ha
    · exact ⟨_, h⟩
    · exact ih ha

theorem curves_said (kind : NoteKind) (stop start : Bool) {xs : List CurveXml} {l : List CurveSaid} (h : List.Forall₂ CurveSays xs l) (hk : ∀ a ∈ l, CurveKept a) :
    ∃ ys, curvesThrough kind stop start xs = some ((tieNotations kind stop start).flatten ++ ys) ∧ List.Forall₂ CurveSays ys (written l) := by
  have mem : ∀ {t a}, a ∈ ofType t l → a ∈ l ∧ a.type = t := fun ha => by
    obtain ⟨h1, h2⟩ := List.mem_filter.mp ha
    exact ⟨h1, of_decide_eq_true h2⟩
  obtain ⟨x1, a1, b1⟩ := mapM_written stopOf writeStop (l := ofType .stop l) (fun a ha => stop_written (hk a (mem ha).1) (mem ha).2)
  obtain ⟨x2, a2, b2⟩ := mapM_written continueOf writeContinue (l := ofType .continue_ l) (fun a ha => continue_written (hk a (mem ha).1) (mem ha).2)
  obtain ⟨x3, a3, b3⟩ := mapM_written startOf writeStart (l := ofType .start l) (fun a ha => by
    obtain ⟨x, hx⟩ := said_of_mem h (mem ha).1
    exact start_written hx (hk a (mem ha).1) (mem ha).2)
  refine ⟨x1 ++ x2 ++ x3, ?_, List.rel_append (List.rel_append b1 b2) b3⟩
  rw [curvesThrough, readNoteCurves, curves_read h {} hk]
  simp only [Option.bind_some, List.nil_append]
  rw [writeNoteCurves, writeCurves]
  simp only
  rw [a1, a2, a3]
  rfl

theorem written_same (l : List CurveSaid) : SameCurves (written l) l := by
  constructor
  · induction l with
    | nil => exact .nil
    | cons a l ih =>
      have ih : (ofType .stop l ++ ofType .continue_ l ++ ofType .start l).Perm l := ih
      show (ofType .stop (a :: l) ++ ofType .continue_ (a :: l) ++ ofType .start (a :: l)).Perm (a :: l)
      have hof : ∀ t, ofType t (a :: l) = if a.type = t then a :: ofType t l else ofType t l := fun t => by
        unfold ofType; rw [List.filter_cons]; simp
      rw [hof, hof, hof]
      cases e : a.type
      · simp only [reduceCtorEq, if_false, if_true]
        exact List.perm_middle.trans (ih.cons a)
      · simp only [reduceCtorEq, if_false, if_true]
        exact ih.cons a
      · simp only [reduceCtorEq, if_false, if_true]
        rw [List.append_assoc, List.cons_append]
        exact List.perm_middle.trans ((by rw [← List.append_assoc]; exact ih : (ofType .stop l ++ (ofType .continue_ l ++ ofType .start l)).Perm l).cons a)
  · intro t
    have hh : ∀ s, ofType t (ofType s l) = if s = t then ofType t l else [] := fun s => by
      unfold ofType
      rw [List.filter_filter]
      split
      · subst_vars; simp
      · rename_i hne
        rw [List.filter_eq_nil_iff]
        intro a _
        simp only [Bool.and_eq_true, decide_eq_true_eq]
        rintro ⟨rfl, rfl⟩
        exact hne rfl
    have : ofType t (written l) = ofType t (ofType .stop l) ++ ofType t (ofType .continue_ l) ++ ofType t (ofType .start l) := by
      unfold written; rw [ofType, List.filter_append, List.filter_append]; rfl
    rw [this, hh, hh, hh]
    cases t <;> simp

end Mx
