import Verif.Spec.Marks
import Verif.Proofs.Notations
import Verif.Props.StringProps

open Spec
namespace Mx
open Mx.Spec

/-! ### Fonts -/

theorem commaJoin_eq (l : List Str) : commaJoin l = joined [','] l := by
  induction l with
  | nil => rfl
  | cons x xs ih =>
    cases xs with
    | nil => rfl
    | cons y ys => show x ++ [','] ++ commaJoin (y :: ys) = x ++ [','] ++ joined [','] (y :: ys); rw [ih]

theorem family_back {l : List Str} (h : FamilyFits l) : readFamily (writeFamily l) = l := by
  unfold writeFamily
  by_cases e : l = []
  · rw [if_pos e, e]; rfl
  · rw [if_neg e]
    have hx : l.map xsToken = l := by
      have e1 : ∀ x ∈ l, xsToken x = x := fun x hx => reduce_of_normalised (h.1 x hx).2
      rw [List.map_congr_left e1, List.map_id'' (fun x => rfl)]
    rw [hx]
    show CommaText.parse (commaJoin l) = l
    unfold CommaText.parse
    rw [commaJoin_eq, getlines_joined l (fun x hx => (h.1 x hx).1) h.2, hx]

theorem style_back (s : Api.FontStyle) : s ≠ .unspecified →
    (MapName.fontStyleMap.toApi (parseEnum (StringEnum.toStr (MapName.fontStyleMap.toCore s : Core.FontStyle)) : Core.FontStyle) : Api.FontStyle) = s := by
  cases s <;> decide +kernel

theorem weight_back (s : Api.FontWeight) : s ≠ .unspecified →
    (MapName.fontWeightMap.toApi (parseEnum (StringEnum.toStr (MapName.fontWeightMap.toCore s : Core.FontWeight)) : Core.FontWeight) : Api.FontWeight) = s := by
  cases s <;> decide +kernel

theorem css_back (c : Api.CssSize) : (MapName.cssMap.toApi (MapName.cssMap.toCore c : Core.CssFontSize) : Api.CssSize) = if c = .unspecified then .medium else c := by
  cases c <;> decide +kernel

theorem lines_back {n : Int} (h : InInt n) : readLines (writeLines n) = keptLines n := by
  unfold writeLines keptLines
  split
  · rename_i hn
    show parseBounded .NumberOfLines (IntRange.ofKind .NumberOfLines n).toStr = _
    have hval : parseBounded .NumberOfLines (IntRange.ofKind .NumberOfLines n).toStr = (IntRange.ofKind .NumberOfLines n).value := by
      rw [parseBounded, IntRange.default, Props.C17_int_round_trip .NumberOfLines n 0 h]
    rw [hval]
    show clampInt 0 3 n = _
    unfold clampInt
    split_ifs <;> omega
  · rfl

theorem make_value {v : ℚ} (h : HasDecimals 6 v) (hv : |v| ≤ 9999999999999999999) : ∃ d, DecimalRange.make .Decimal v = some d ∧ d.getValue = v := by
  have hlt : |v| < 10 ^ 19 := lt_of_le_of_lt hv (by norm_num)
  obtain ⟨c, hc⟩ := h
  have hclamp : DecimalKind.Decimal.minClamp (DecimalKind.Decimal.maxClamp v) = v := (Props.clamp_eq .Decimal v).1 trivial
  obtain ⟨p, g1, _, _, _, _, _, _, g8⟩ := PreciseDecimal.setValue_near
    { isNegative := decide (v < 0), integer := 0, decimal := 0, maxIntegerDigits := 19, maxDecimalDigits := 6 } v (le_refl 19) hlt
  refine ⟨⟨.Decimal, p⟩, ?_, g8 c hc⟩
  unfold DecimalRange.make PreciseDecimal.make
  rw [hclamp]
  show Option.map _ (PreciseDecimal.setValue _ v) = _
  rw [show (PreciseDecimal.clampDigits 19) = 19 from rfl, show (PreciseDecimal.clampDigits 6) = 6 from rfl, g1]
  rfl

/-- The font size that comes back. -/
def keptSize (f : FontData) : Api.FontSizeType × ℚ × Api.CssSize :=
  (f.sizeType, if f.sizeType = .point then f.sizePoint else -1, if f.sizeType = .css then (if f.sizeCss = .unspecified then .medium else f.sizeCss) else .unspecified)

theorem size_back {f : FontData} (h : SizeFits f) : ∃ x, writeFontSize f = some x ∧ readFontSize x = some (keptSize f) := by
  cases e : f.sizeType with
  | unspecified => exact ⟨none, by rw [writeFontSize, e], by rw [keptSize, e]; rfl⟩
  | css =>
    refine ⟨_, by rw [writeFontSize, e], ?_⟩
    rw [readFontSize, (Props.C22_font_size_round_trip _).1]
    simp only
    rw [css_back, keptSize, e]; rfl
  | point =>
    obtain ⟨h1, h2⟩ := h e
    obtain ⟨d, a, b⟩ := make_value h1 h2
    obtain ⟨d', c1, c2, _⟩ := (Props.C22_font_size_round_trip (.decimal decimalZero)).2 _ _ a h2
    refine ⟨some (FontSize.toStr (.decimal d)), by rw [writeFontSize, e]; show Option.map _ _ = _; rw [a]; rfl, ?_⟩
    rw [readFontSize, c1]
    simp only
    rw [c2, b, keptSize, e]; rfl

/-- The numbers of lines are machine integers. -/
def LinesFit (f : FontData) : Prop := InInt f.underline ∧ InInt f.overline ∧ InInt f.lineThrough

theorem readPrint_empty (m : PrintMembers) : readPrint m {} = some {} := by
  obtain ⟨a, b, c, d⟩ := m
  cases a <;> cases b <;> cases c <;> cases d <;> rfl

theorem writePrint_some (m : PrintMembers) {p : PrintData} (h : SizeFits p.fontData) : ∃ x, writePrint m p = some x := by
  obtain ⟨x, a, _⟩ := size_back h
  unfold writePrint
  rw [a]
  cases m.font <;> exact ⟨_, rfl⟩

theorem style_member (f : Bool) (s : Api.FontStyle) :
    ((if f then (if f = true ∧ s ≠ .unspecified then some (StringEnum.toStr (MapName.fontStyleMap.toCore s : Core.FontStyle)) else none) else none).map
      (fun t => (MapName.fontStyleMap.toApi (parseEnum t : Core.FontStyle) : Api.FontStyle))).getD .unspecified = if f then s else .unspecified := by
  cases f <;> cases s <;> rfl

theorem weight_member (f : Bool) (s : Api.FontWeight) :
    ((if f then (if f = true ∧ s ≠ .unspecified then some (StringEnum.toStr (MapName.fontWeightMap.toCore s : Core.FontWeight)) else none) else none).map
      (fun t => (MapName.fontWeightMap.toApi (parseEnum t : Core.FontWeight) : Api.FontWeight))).getD .unspecified = if f then s else .unspecified := by
  cases f <;> cases s <;> rfl

theorem lines_member (f : Bool) {n : Int} (h : InInt n) : readLines (if f then (if f then writeLines n else none) else none) = if f then keptLines n else 0 := by
  cases f with
  | false => rfl
  | true => exact lines_back h

theorem family_member (f : Bool) {l : List Str} (h : FamilyFits l) : readFamily (if f then (if f then writeFamily l else none) else none) = if f then l else [] := by
  cases f with
  | false => rfl
  | true => exact family_back h

theorem color_member (f b : Bool) (c : ColorData) : readColor (if f then (if f then writeColor b c else none) else none) = (f && b, keptColor (f && b) c) := by
  cases f with
  | false => rfl
  | true => rw [Bool.true_and]; exact color_back b c

theorem size_member (f : Bool) {d : FontData} (h : SizeFits d) :
    ∃ x, ifMember f (writeFontSize d) = some x ∧ readFontSize (if f then x else none) = some (if f then (keptSize d).1 else .unspecified,
      if f = true ∧ d.sizeType = .point then d.sizePoint else -1, if f = true ∧ d.sizeType = .css then (if d.sizeCss = .unspecified then .medium else d.sizeCss) else .unspecified) := by
  cases f with
  | false => exact ⟨none, rfl, rfl⟩
  | true =>
    obtain ⟨x, a, b⟩ := size_back h
    refine ⟨x, a, ?_⟩
    show readFontSize x = _
    rw [b, keptSize]
    simp only [true_and, if_true]

theorem print_back (m : PrintMembers) {p : PrintData} (h : SizeFits p.fontData) (hf : FamilyFits p.fontData.fontFamily) (hl : LinesFit p.fontData) :
    ∃ x, writePrint m p = some x ∧ readPrint m x = some (keptPrint m p) := by
  obtain ⟨s, a, b⟩ := size_member m.font h
  obtain ⟨l1, l2, l3⟩ := hl
  refine ⟨_, by rw [writePrint, a]; rfl, ?_⟩
  rw [readPrint]
  simp only
  rw [b, style_member, weight_member, lines_member _ l1, lines_member _ l2, lines_member _ l3, family_member _ hf, color_member]
  have hp : ∀ b : Bool, ((if b then (none : Option Str) else none).map (fun t => (MapName.boolMap.toApi (parseEnum t : Core.YesNo) : Api.Bool))).getD .unspecified = .unspecified := by
    intro b; cases b <;> rfl
  rw [hp]
  rfl

/-! ### Single marks -/

theorem articulation_element (t : Api.MarkType) : (isMarkArticulation t || isMarkCustom t) = true → articulationElement t = some (MapName.articulationsMap.toCore t) := by
  cases t <;> decide +kernel

theorem ornament_element (t : Api.MarkType) : isMarkOrnament t = true →
    ornamentElement t = some (if isMarkTremolo t then .tremolo else MapName.ornamentsMap.toCore t) := by
  cases t <;> decide +kernel

theorem technical_element (t : Api.MarkType) : isMarkTechnical t = true → t ≠ .fingernails → technicalElement t = some (MapName.technicalMarkMap.toCore t) := by
  cases t <;> decide +kernel

theorem customOr_eq (s : Str) : customOr s .otherArticulation = if s = customName then .customAccentTenuto else .otherArticulation := by
  unfold customOr getMarkTypeFromCustomString
  by_cases h : s = customName
  · rw [if_pos h, if_pos h]; rfl
  · rw [if_neg h, if_neg h]; rfl

/-- An articulation comes back. -/
theorem articulation_back (tick : Int) {m : MarkData} (h : (isMarkArticulation m.markType || isMarkCustom m.markType) = true) (hp : PositionFits m.positionData) :
    ∃ x, writeArticulation m = some x ∧ readArticulation tick x = some (keptMark tick m) := by
  obtain ⟨p, a, b⟩ := position_back markMembers hp
  refine ⟨_, by rw [writeArticulation, positionIfChosen, if_pos (articulation_element _ h), a]; rfl, ?_⟩
  rw [readArticulation]
  simp only
  rw [b, readPrint_empty]
  obtain ⟨t, name, tk, pr, pos⟩ := m
  replace h : (isMarkArticulation t || isMarkCustom t) = true := h
  cases t <;> first
    | exact absurd h (by decide)
    | rfl
    | (show some (MarkData.mk (customOr name .otherArticulation) name tick {} _) = _
       rw [customOr_eq]; rfl)

theorem tremolo_back (t : Api.MarkType) : isMarkTremolo t = true → tremoloType (parseBounded .TremoloMarks (IntRange.ofKind .TremoloMarks (numTremoloSlashes t)).toStr) = t := by
  cases t <;> decide +kernel

/-- An ornament comes back. -/
theorem ornament_back (tick : Int) {m : MarkData} (h : isMarkOrnament m.markType = true) (hp : PositionFits m.positionData) :
    ∃ x, writeOrnament m = some x ∧ readOrnament tick x = some (some (keptMark tick m)) := by
  obtain ⟨p, a, b⟩ := position_back markMembers hp
  refine ⟨_, by rw [writeOrnament, positionIfChosen, if_pos (ornament_element _ h), a]; rfl, ?_⟩
  rw [readOrnament]
  simp only
  rw [if_neg (by obtain ⟨t, name, tk, pr, pos⟩ := m; replace h : isMarkOrnament t = true := h; cases t <;> first | exact absurd h (by decide) | exact Bool.false_ne_true), b, readPrint_empty]
  obtain ⟨t, name, tk, pr, pos⟩ := m
  replace h : isMarkOrnament t = true := h
  cases t <;> first
    | exact absurd h (by decide)
    | rfl
    | (show some (some (MarkData.mk (tremoloType (parseBounded .TremoloMarks (IntRange.ofKind .TremoloMarks (numTremoloSlashes _)).toStr)) (chars "tremolo") tick {} _)) = _
       rw [tremolo_back _ (by rfl)]; rfl)

theorem technical_read (t : Api.MarkType) : isMarkTechnical t = true → t ≠ .fingernails →
    ¬ ((MapName.technicalMarkMap.toApi (MapName.technicalMarkMap.toCore t : Core.TechnicalChoice) : Api.MarkType) = .unspecified ∧
      (MapName.technicalMarkMap.toCore t : Core.TechnicalChoice) ≠ .otherTechnical) := by
  cases t <;> decide +kernel

/-- A technical mark comes back. -/
theorem technical_back (tick : Int) {m : MarkData} (h : isMarkTechnical m.markType = true) (hp : PositionFits m.positionData) :
    ∃ x, writeTechnical m = some x ∧ readTechnical tick x = some (some (keptMark tick m)) := by
  by_cases hf : m.markType = .fingernails
  · refine ⟨{ choice := .otherTechnical }, ?_, ?_⟩
    · rw [writeTechnical, hf]; rfl
    · obtain ⟨t, name, tk, pr, pos⟩ := m
      subst hf; rfl
  · obtain ⟨p, a, b⟩ := position_back markMembers hp
    refine ⟨_, by rw [writeTechnical, positionIfChosen, if_pos (technical_element _ h hf), a]; rfl, ?_⟩
    rw [readTechnical]
    simp only
    rw [if_neg (technical_read _ h hf), b, readPrint_empty]
    obtain ⟨t, name, tk, pr, pos⟩ := m
    replace h : isMarkTechnical t = true := h
    cases t <;> first
      | exact absurd h (by decide)
      | exact absurd rfl hf
      | rfl

/-- A fermata comes back without its position. -/
theorem fermata_back (tick : Int) {m : MarkData} (h : isMarkFermata m.markType = true) (hp : MarkFits m) :
    ∃ x, writeFermata m = some x ∧ readFermata tick x = keptMark tick m := by
  obtain ⟨p, a, _⟩ := position_back fermataMembers hp.1
  obtain ⟨q, b⟩ := writePrint_some fermataPrint hp.2
  refine ⟨_, by rw [writeFermata, a, b]; rfl, ?_⟩
  obtain ⟨t, name, tk, pr, pos⟩ := m
  replace h : isMarkFermata t = true := h
  cases t <;> first
    | exact absurd h (by decide)
    | rfl

theorem namedDynamics_text : ∀ t ∈ namedDynamics, apiText .dynamicsMap t = some (StringEnum.toStr (MapName.dynamicsMap.toCore t : Core.DynamicsEnum)) := by decide +kernel

/-- Type and name of a text read as a dynamic. -/
theorem dynamicOf_eq (v : OpenValue Core.DynamicsEnum) (s : Str) :
    (MapName.dynamicsMap.toApi (v.setText s).enum, (v.setText s).valueString) = dynamicOf s := by
  cases h : (tryParse s : Option Core.DynamicsEnum) with
  | some e =>
    have hs : StringEnum.toStr e = s := ((roundTrips_DynamicsEnum e s).mp h).symm
    have h1 : v.setText s = { enum := e, custom := [] } := by rw [OpenValue.setText]; simp only [h]
    rw [h1, ← hs]
    cases e <;> decide +kernel
  | none =>
    have h1 : v.setText s = { enum := .otherDynamics, custom := s } := by
      rw [OpenValue.setText]; simp only [h]
      rfl
    have h2 : s ≠ chars "other-dynamics" := by
      intro e
      rw [e] at h
      exact absurd h (by decide +kernel)
    have h3 : namedDynamics.find? (fun t => decide (apiText .dynamicsMap t = some s)) = none := by
      rw [List.find?_eq_none]
      intro t ht e
      have e2 := of_decide_eq_true e
      rw [namedDynamics_text t ht] at e2
      have e3 := (roundTrips_DynamicsEnum _ s).mpr (Option.some.inj e2).symm
      rw [h] at e3
      exact absurd e3 (by simp)
    rw [h1, dynamicOf, if_neg h2, h3]
    rfl

/-- The text that is read for a written dynamic. -/
def dynamicText (v : OpenValue Core.DynamicsEnum) : Str :=
  if (StringEnum.toStr v.enum : Str) = chars "other-dynamics" then (if v.enum = .otherDynamics then v.custom else []) else StringEnum.toStr v.enum

theorem dynamicText_parsed (e : Core.DynamicsEnum) : dynamicOf (dynamicText { enum := e, custom := [] }) = dynamicOf (StringEnum.toStr e) := by
  cases e <;> decide +kernel

theorem named_read (t : Api.MarkType) : isMarkDynamic t = true → t ≠ .otherDynamics → (MapName.dynamicsMap.toCore t : Core.DynamicsEnum) ≠ .otherDynamics ∧
    dynamicOf (dynamicText ((OpenValue.ofEnum Core.DynamicsEnum.mf).setEnum (MapName.dynamicsMap.toCore t : Core.DynamicsEnum))) = (t, (apiText .dynamicsMap t).getD []) := by
  cases t <;> decide +kernel

theorem keptType_dynamic {t : Api.MarkType} {name : Str} {tk : Int} {pr : PrintData} {pos : PositionData} (h : isMarkDynamic t = true) (ht : t ≠ .otherDynamics) :
    keptType ⟨t, name, tk, pr, pos⟩ = (t, (apiText .dynamicsMap t).getD []) := by
  cases t <;> first
    | exact absurd h (by decide)
    | exact absurd rfl ht
    | rfl

/-- Type and name read for a written dynamic. -/
theorem dynamic_read (m : MarkData) (h : isMarkDynamic m.markType = true) : dynamicOf (dynamicText (dynamicsValue m)) = keptType m := by
  obtain ⟨t, name, tk, pr, pos⟩ := m
  replace h : isMarkDynamic t = true := h
  by_cases ht : t = .otherDynamics
  · subst ht
    show dynamicOf (dynamicText (dynamicsValue _)) = dynamicOf name
    by_cases hn : name = []
    · subst hn
      rw [dynamicsValue, if_neg (by intro c; exact c.2 rfl)]
      show dynamicOf (dynamicText ((OpenValue.ofEnum Core.DynamicsEnum.mf).setEnum .otherDynamics)) = dynamicOf []
      decide +kernel
    · rw [dynamicsValue, if_pos ⟨rfl, hn⟩]
      simp only
      cases e : (tryParse name : Option Core.DynamicsEnum) with
      | some c =>
        rw [OpenValue.setText]; simp only [e]
        rw [dynamicText_parsed, ← (roundTrips_DynamicsEnum c name).mp e]
      | none =>
        rw [OpenValue.setText]; simp only [e]
        rfl
  · obtain ⟨h1, h2⟩ := named_read t h ht
    rw [keptType_dynamic h ht, ← h2, dynamicsValue, if_neg (fun c => h1 c.1)]

/-- A dynamic comes back. -/
theorem dynamic_back (tick : Int) {m : MarkData} (h : isMarkDynamic m.markType = true) (hp : MarkFits m) :
    ∃ x, writeDynamics m = some x ∧ readDynamics tick x = some (keptMark tick m) := by
  obtain ⟨p, a, a'⟩ := position_back dynamicsMembers hp.1
  obtain ⟨q, b⟩ := writePrint_some dynamicsPrint hp.2
  refine ⟨_, by rw [writeDynamics, a, b]; rfl, ?_⟩
  rw [readDynamics]
  simp only
  rw [a']
  have h1 := dynamicOf_eq (OpenValue.ofEnum Core.DynamicsEnum.mf) (dynamicText (dynamicsValue m))
  rw [dynamic_read m h] at h1
  have hpos : keptMarkPosition m = keptPosition dynamicsMembers m.positionData := by
    have hn : ¬ (isMarkFermata m.markType = true ∨ m.markType = .fingernails) := by
      revert h; generalize m.markType = t; cases t <;> decide
    rw [keptMarkPosition, if_neg hn, if_pos h]
  rw [keptMark, ← h1, hpos]
  rfl

/-! ### All marks -/

theorem group_cases (t : Api.MarkType) :
    (groupOf t = some .alone ∧ isMarkDynamic t = true ∧ isMarkFermata t = false ∧ (isMarkArticulation t || isMarkCustom t) = false ∧ isMarkOrnament t = false ∧ isMarkTechnical t = false) ∨
    (groupOf t = some .alone ∧ isMarkDynamic t = false ∧ isMarkFermata t = true ∧ (isMarkArticulation t || isMarkCustom t) = false ∧ isMarkOrnament t = false ∧ isMarkTechnical t = false) ∨
    (groupOf t = some .articulations ∧ isMarkDynamic t = false ∧ isMarkFermata t = false ∧ (isMarkArticulation t || isMarkCustom t) = true ∧ isMarkOrnament t = false ∧ isMarkTechnical t = false) ∨
    (groupOf t = some .ornaments ∧ isMarkDynamic t = false ∧ isMarkFermata t = false ∧ (isMarkArticulation t || isMarkCustom t) = false ∧ isMarkOrnament t = true ∧ isMarkTechnical t = false) ∨
    (groupOf t = some .technical ∧ isMarkDynamic t = false ∧ isMarkFermata t = false ∧ (isMarkArticulation t || isMarkCustom t) = false ∧ isMarkOrnament t = false ∧ isMarkTechnical t = true) ∨
    (groupOf t = none ∧ isMarkDynamic t = false ∧ isMarkFermata t = false ∧ (isMarkArticulation t || isMarkCustom t) = false ∧ isMarkOrnament t = false ∧ isMarkTechnical t = false) := by
  cases t <;> decide

/-- What has been written stands for the marks already treated. -/
structure Stands (tick : Int) (w : WrittenMarks) (l : List MarkData) : Prop where
  direct : w.direct.mapM (readNotation tick) = some ((inGroup .alone l).map (fun m => [keptMark tick m]))
  articulations : w.articulations.mapM (readArticulation tick) = some ((inGroup .articulations l).map (keptMark tick))
  ornaments : w.ornaments.mapM (readOrnament tick) = some ((inGroup .ornaments l).map (fun m => some (keptMark tick m)))
  technicals : w.technicals.mapM (readTechnical tick) = some ((inGroup .technical l).map (fun m => some (keptMark tick m)))

theorem mapM_append_one {α β : Type} (f : α → Option β) {l : List α} {r : List β} {x : α} {y : β} (h : l.mapM f = some r) (hx : f x = some y) : (l ++ [x]).mapM f = some (r ++ [y]) := by
  rw [List.mapM_append, h]
  simp [hx]

theorem inGroup_add {g : MarkGroup} {l : List MarkData} {m : MarkData} (h : groupOf m.markType = some g) : inGroup g (l ++ [m]) = inGroup g l ++ [m] := by
  unfold inGroup; rw [List.filter_append]; simp [h]

theorem inGroup_skip {g : MarkGroup} {l : List MarkData} {m : MarkData} (h : groupOf m.markType ≠ some g) : inGroup g (l ++ [m]) = inGroup g l := by
  unfold inGroup; rw [List.filter_append]; simp [h]

theorem stands_step (tick : Int) {w : WrittenMarks} {l : List MarkData} {m : MarkData} (hs : Stands tick w l) (hm : MarkFits m) : ∃ w', writeMark w m = some w' ∧ Stands tick w' (l ++ [m]) := by
  obtain ⟨s1, s2, s3, s4⟩ := hs
  rcases group_cases m.markType with ⟨g, d, f, a, o, t⟩ | ⟨g, d, f, a, o, t⟩ | ⟨g, d, f, a, o, t⟩ | ⟨g, d, f, a, o, t⟩ | ⟨g, d, f, a, o, t⟩ | ⟨g, d, f, a, o, t⟩
  · obtain ⟨x, e1, e2⟩ := dynamic_back tick d hm
    refine ⟨{ w with direct := w.direct ++ [.dynamics x] }, by simp [writeMark, addArticulation, addOrnament, addRest, a, o, t, d, e1], ?_, ?_, ?_, ?_⟩
    · rw [inGroup_add g, List.map_append]; exact mapM_append_one _ s1 (by rw [readNotation, e2]; rfl)
    · rw [inGroup_skip (by rw [g]; decide)]; exact s2
    · rw [inGroup_skip (by rw [g]; decide)]; exact s3
    · rw [inGroup_skip (by rw [g]; decide)]; exact s4
  · obtain ⟨x, e1, e2⟩ := fermata_back tick f hm
    refine ⟨{ w with direct := w.direct ++ [.fermata x] }, by simp [writeMark, addArticulation, addOrnament, addRest, a, o, t, d, f, e1], ?_, ?_, ?_, ?_⟩
    · rw [inGroup_add g, List.map_append]; exact mapM_append_one _ s1 (by rw [readNotation, e2])
    · rw [inGroup_skip (by rw [g]; decide)]; exact s2
    · rw [inGroup_skip (by rw [g]; decide)]; exact s3
    · rw [inGroup_skip (by rw [g]; decide)]; exact s4
  · obtain ⟨x, e1, e2⟩ := articulation_back tick a hm.1
    refine ⟨{ w with articulations := w.articulations ++ [x] }, by simp [writeMark, addArticulation, addOrnament, addRest, a, o, t, d, f, e1], ?_, ?_, ?_, ?_⟩
    · rw [inGroup_skip (by rw [g]; decide)]; exact s1
    · rw [inGroup_add g, List.map_append]; exact mapM_append_one _ s2 e2
    · rw [inGroup_skip (by rw [g]; decide)]; exact s3
    · rw [inGroup_skip (by rw [g]; decide)]; exact s4
  · obtain ⟨x, e1, e2⟩ := ornament_back tick o hm.1
    refine ⟨{ w with ornaments := w.ornaments ++ [x] }, by simp [writeMark, addArticulation, addOrnament, addRest, a, o, t, d, f, e1], ?_, ?_, ?_, ?_⟩
    · rw [inGroup_skip (by rw [g]; decide)]; exact s1
    · rw [inGroup_skip (by rw [g]; decide)]; exact s2
    · rw [inGroup_add g, List.map_append]; exact mapM_append_one _ s3 e2
    · rw [inGroup_skip (by rw [g]; decide)]; exact s4
  · obtain ⟨x, e1, e2⟩ := technical_back tick t hm.1
    refine ⟨{ w with technicals := w.technicals ++ [x] }, by simp [writeMark, addArticulation, addOrnament, addRest, a, o, t, d, f, e1], ?_, ?_, ?_, ?_⟩
    · rw [inGroup_skip (by rw [g]; decide)]; exact s1
    · rw [inGroup_skip (by rw [g]; decide)]; exact s2
    · rw [inGroup_skip (by rw [g]; decide)]; exact s3
    · rw [inGroup_add g, List.map_append]; exact mapM_append_one _ s4 e2
  · refine ⟨w, by simp [writeMark, addArticulation, addOrnament, addRest, a, o, t, d, f], ?_, ?_, ?_, ?_⟩
    · rw [inGroup_skip (by rw [g]; decide)]; exact s1
    · rw [inGroup_skip (by rw [g]; decide)]; exact s2
    · rw [inGroup_skip (by rw [g]; decide)]; exact s3
    · rw [inGroup_skip (by rw [g]; decide)]; exact s4

theorem stands_all (tick : Int) (l : List MarkData) : ∀ {w : WrittenMarks} {done : List MarkData}, Stands tick w done → (∀ m ∈ l, MarkFits m) →
    ∃ w', l.foldlM writeMark w = some w' ∧ Stands tick w' (done ++ l) := by
  induction l with
  | nil => intro w done h _; exact ⟨w, rfl, by rw [List.append_nil]; exact h⟩
  | cons m l ih =>
    intro w done h hl
    obtain ⟨w1, a, b⟩ := stands_step tick h (hl m List.mem_cons_self)
    obtain ⟨w2, c, d⟩ := ih b (fun x hx => hl x (List.mem_cons_of_mem _ hx))
    refine ⟨w2, by rw [List.foldlM_cons, a]; exact c, ?_⟩
    rw [List.append_assoc] at d; exact d

theorem filterMap_some_map {α β : Type} (f : α → β) (l : List α) : (l.map (fun x => some (f x))).filterMap id = l.map f := by
  induction l with
  | nil => rfl
  | cons x l ih => simp

theorem flatten_singles {α β : Type} (f : α → β) (l : List α) : (l.map (fun x => [f x])).flatten = l.map f := by
  induction l with
  | nil => rfl
  | cons x l ih => rw [List.map_cons, List.flatten_cons, ih]; rfl

theorem readMarks_append (tick : Int) {l1 l2 : List NotationXml} {r1 r2 : List MarkData} (h1 : readMarks tick l1 = some r1) (h2 : readMarks tick l2 = some r2) :
    readMarks tick (l1 ++ l2) = some (r1 ++ r2) := by
  unfold readMarks at *
  rw [List.mapM_append]
  cases e1 : l1.mapM (readNotation tick) with
  | none => rw [e1] at h1; cases h1
  | some a =>
    cases e2 : l2.mapM (readNotation tick) with
    | none => rw [e2] at h2; cases h2
    | some b =>
      rw [e1] at h1; rw [e2] at h2
      have h1' : a.flatten = r1 := Option.some.inj h1
      have h2' : b.flatten = r2 := Option.some.inj h2
      show some ((a ++ b).flatten) = _
      rw [List.flatten_append, h1', h2']

theorem readMarks_one (tick : Int) {x : NotationXml} {r : List MarkData} (h : readNotation tick x = some r) : readMarks tick [x] = some r := by
  unfold readMarks; simp [h]

theorem marks_back (tick : Int) (l : List MarkData) (h : ∀ m ∈ l, MarkFits m) : (writeMarks l).bind (readMarks tick) = some (keptMarks tick l) := by
  obtain ⟨w, a, b⟩ := stands_all tick l (w := {}) (done := []) ⟨rfl, rfl, rfl, rfl⟩ h
  rw [List.nil_append] at b
  obtain ⟨s1, s2, s3, s4⟩ := b
  unfold writeMarks
  rw [a]
  show readMarks tick (_ ++ _ ++ _ ++ _) = _
  unfold keptMarks
  rw [List.map_append, List.map_append, List.map_append]
  refine readMarks_append tick (readMarks_append tick (readMarks_append tick ?_ ?_) ?_) ?_
  · unfold readMarks; rw [s1]; show some _ = some _; rw [flatten_singles]
  · by_cases e : w.articulations = []
    · rw [if_pos e]; rw [e] at s2; rw [← Option.some.inj s2]; rfl
    · rw [if_neg e]; exact readMarks_one tick s2
  · by_cases e : w.ornaments = []
    · rw [if_pos e]; rw [e] at s3
      have := Option.some.inj s3
      rw [List.map_eq_nil_iff.mp this.symm]; rfl
    · rw [if_neg e]
      refine readMarks_one tick ?_
      show (do let o ← readAll (readOrnament tick) w.ornaments; let m ← some []; some (o ++ m)) = _
      rw [readAll, s3]
      show some (List.filterMap id (List.map (fun m => some (keptMark tick m)) (inGroup MarkGroup.ornaments l)) ++ []) = _
      rw [filterMap_some_map, List.append_nil]
  · by_cases e : w.technicals = []
    · rw [if_pos e]; rw [e] at s4
      have := Option.some.inj s4
      rw [List.map_eq_nil_iff.mp this.symm]; rfl
    · rw [if_neg e]
      refine readMarks_one tick ?_
      show readAll (readTechnical tick) w.technicals = _
      rw [readAll, s4]
      show some (List.filterMap id (List.map (fun m => some (keptMark tick m)) (inGroup MarkGroup.technical l))) = _
      rw [filterMap_some_map]
end Mx
