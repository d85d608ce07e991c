import Verif.Spec.Layout
import Verif.Proofs.Notations
import Verif.Props.EnumProps
import Verif.Props.StringProps

open Spec
namespace Mx
open Mx.Spec

theorem dec_back {k : DecimalKind} {v : ℚ} (hk : InRange k v) (h : LengthFits v) : ∃ s, writeDec k v = some s ∧ readDec k s = some v := by
  obtain ⟨d0, e0, s, e1, e2⟩ := decimal_text_at hk h.1 h.2
  refine ⟨s, e1, ?_⟩
  rw [readDec, e0, Option.bind_some, e2]

theorem length_back {v : ℚ} (h : LengthFits v) : ∃ s, writeDec .TenthsValue v = some s ∧ readDec .TenthsValue s = some v := dec_back (k := .TenthsValue) trivial h

theorem zero_fits : LengthFits 0 := ⟨⟨0, by norm_num⟩, by norm_num⟩

theorem max_fits {v : ℚ} (h : LengthFits v) : LengthFits (max 0 v) := by
  rcases le_total 0 v with h0 | h0
  · rw [max_eq_right h0]; exact h
  · rw [max_eq_left h0]; exact zero_fits

theorem toTenths_eq (v : ℚ) : toTenths v = max 0 v := by
  unfold toTenths
  split
  · rename_i h; exact (max_eq_right (le_of_lt h)).symm
  · rename_i h; exact (max_eq_left (not_lt.mp h)).symm

theorem optDec_back {o : Option ℚ} (h : ∀ v ∈ o, LengthFits v) : ∃ s, writeOptDec .TenthsValue o = some s ∧ readOptDec .TenthsValue s = some o ∧ s.isSome = o.isSome := by
  cases o with
  | none => exact ⟨none, rfl, rfl, rfl⟩
  | some v =>
    obtain ⟨s, h1, h2⟩ := length_back (h v rfl)
    refine ⟨some s, by rw [writeOptDec, h1]; rfl, ?_, rfl⟩
    rw [readOptDec, h2]; rfl

theorem margins_back (t : Core.MarginType) {m : MarginsData} (h : MarginsFit m) :
    ∃ x, writeMargins t m = some x ∧ readMargins x = some (keptMargins m) ∧ marginType x = t := by
  obtain ⟨h1, h2, h3, h4⟩ := h
  obtain ⟨x1, a1, b1⟩ := length_back (max_fits h1)
  obtain ⟨x2, a2, b2⟩ := length_back (max_fits h2)
  obtain ⟨x3, a3, b3⟩ := length_back (max_fits h3)
  obtain ⟨x4, a4, b4⟩ := length_back (max_fits h4)
  refine ⟨_, by rw [writeMargins]; simp only [toTenths_eq]; rw [a1, a2, a3, a4]; rfl, ?_, ?_⟩
  · rw [readMargins]
    simp only
    rw [b1, b2, b3, b4]; rfl
  · cases t <;> rfl

theorem addMargins_eq {x : PageMarginsXml} {t : Core.MarginType} {v : MarginsData} (h : readMargins x = some v) (ht : marginType x = t) (m : PageMarginsData) :
    addMargins m x = some { odd := if t = .both ∨ t = .odd then some v else m.odd, even := if t = .both ∨ t = .even then some v else m.even } := by
  rw [addMargins, h, ht]; rfl

theorem pageMargins_back {m : PageMarginsData} (h1 : ∀ x ∈ m.odd, MarginsFit x) (h2 : ∀ x ∈ m.even, MarginsFit x) :
    ∃ xs, createPageMargins m = some xs ∧ (xs.take 2).foldlM addMargins {} = some { odd := m.odd.map keptMargins, even := m.even.map keptMargins } := by
  obtain ⟨o, e⟩ := m
  cases o with
  | none =>
    cases e with
    | none => exact ⟨[], rfl, rfl⟩
    | some e =>
      obtain ⟨x, a, b, c⟩ := margins_back .even (h2 e rfl)
      refine ⟨[x], ?_, ?_⟩
      · rw [createPageMargins, if_pos (by rfl)]
        show [(Core.MarginType.even, e)].mapM _ = _
        rw [List.mapM_cons]
        show (writeMargins .even e).bind _ = _
        rw [a]; rfl
      · show (addMargins {} x).bind _ = _
        rw [addMargins_eq b c]; rfl
  | some o =>
    cases e with
    | none =>
      obtain ⟨x, a, b, c⟩ := margins_back .odd (h1 o rfl)
      refine ⟨[x], ?_, ?_⟩
      · rw [createPageMargins, if_pos (by rfl)]
        have : marginEntries ⟨some o, none⟩ = [(Core.MarginType.odd, o)] := rfl
        rw [this, List.mapM_cons]
        show (writeMargins .odd o).bind _ = _
        rw [a]; rfl
      · show (addMargins {} x).bind _ = _
        rw [addMargins_eq b c]; rfl
    | some e =>
      by_cases he : o = e
      · subst he
        obtain ⟨x, a, b, c⟩ := margins_back .both (h1 o rfl)
        refine ⟨[x], ?_, ?_⟩
        · rw [createPageMargins, if_pos (by rfl)]
          have : marginEntries ⟨some o, some o⟩ = [(Core.MarginType.both, o)] := by simp [marginEntries]
          rw [this, List.mapM_cons]
          show (writeMargins .both o).bind _ = _
          rw [a]; rfl
        · show (addMargins {} x).bind _ = _
          rw [addMargins_eq b c]; rfl
      · obtain ⟨x, a, b, c⟩ := margins_back .odd (h1 o rfl)
        obtain ⟨y, a', b', c'⟩ := margins_back .even (h2 e rfl)
        refine ⟨[x, y], ?_, ?_⟩
        · rw [createPageMargins, if_pos (by rfl)]
          have : marginEntries ⟨some o, some e⟩ = [(Core.MarginType.odd, o), (Core.MarginType.even, e)] := by simp [marginEntries, he]
          rw [this, List.mapM_cons, List.mapM_cons]
          show (writeMargins .odd o).bind _ = _
          rw [a]
          show ((writeMargins .even e).bind _).bind _ = _
          rw [a']; rfl
        · show (addMargins {} x).bind _ = _
          rw [addMargins_eq b c]
          show (addMargins _ y).bind _ = _
          rw [addMargins_eq b' c']; rfl

theorem page_unused {p : PageLayoutData} : p.isUsed = true ↔ ¬ (p.size = none ∧ p.margins.odd = none ∧ p.margins.even = none) := by
  unfold PageLayoutData.isUsed PageMarginsData.isUsed
  simp only [decide_eq_true_eq, Option.isSome_iff_ne_none]
  tauto

theorem page_back {p : PageLayoutData} (h : PageFits p) : ∃ x, optionalPageLayout p = some x ∧ readOptionalPage x = some (keptPage p) ∧ x.isSome = p.isUsed := by
  unfold optionalPageLayout keptPage
  by_cases hu : p.isUsed = true
  · rw [if_pos hu, if_neg (page_unused.mp hu)]
    have hs : LengthFits (p.size.getD {}).height ∧ LengthFits (p.size.getD {}).width := by
      cases hs : p.size with
      | none => exact ⟨zero_fits, zero_fits⟩
      | some s => exact h.size s hs
    obtain ⟨x1, a1, b1⟩ := length_back hs.1
    obtain ⟨x2, a2, b2⟩ := length_back hs.2
    obtain ⟨xs, a3, b3⟩ := pageMargins_back h.odd h.even
    refine ⟨_, by rw [createPageLayout, a1, a2, a3]; rfl, ?_, by rw [hu]; rfl⟩
    show readPageLayout _ = _
    rw [readPageLayout]
    simp only
    rw [b1, b2, b3]; rfl
  · rw [if_neg hu, if_pos (by by_contra hn; exact hu (page_unused.mpr hn))]
    exact ⟨none, rfl, rfl, by rw [Bool.not_eq_true] at hu; rw [hu]; rfl⟩

theorem leftRight_back {o : Option LeftRight} (h : ∀ m ∈ o, LengthFits m.left ∧ LengthFits m.right) :
    ∃ s, writeOptMargins o = some s ∧ readOptMargins s = some o ∧ s.isSome = o.isSome := by
  cases o with
  | none => exact ⟨none, rfl, rfl, rfl⟩
  | some m =>
    obtain ⟨h1, h2⟩ := h m rfl
    obtain ⟨x1, a1, b1⟩ := length_back h1
    obtain ⟨x2, a2, b2⟩ := length_back h2
    refine ⟨some (x1, x2), by rw [writeOptMargins, writeLeftRight, a1, a2]; rfl, ?_, rfl⟩
    rw [readOptMargins, readLeftRight]
    simp only
    rw [b1, b2]; rfl

theorem system_back {margins : Option LeftRight} {s : SystemLayoutData} (hm : ∀ m ∈ margins, LengthFits m.left ∧ LengthFits m.right) (h : SystemFits s)
    (hn : s.margins = none → s.systemDistance = none → s.topSystemDistance = none → margins = none) :
    ∃ x, optionalSystemLayout margins s = some x ∧
      readOptionalSystem x = some { margins := margins, systemDistance := s.systemDistance, topSystemDistance := s.topSystemDistance } := by
  unfold optionalSystemLayout
  by_cases hu : s.margins.isSome = true ∨ s.systemDistance.isSome = true ∨ s.topSystemDistance.isSome = true
  · rw [if_pos hu]
    obtain ⟨x1, a1, b1, _⟩ := leftRight_back hm
    obtain ⟨x2, a2, b2, _⟩ := optDec_back h.systemDistance
    obtain ⟨x3, a3, b3, _⟩ := optDec_back h.topSystemDistance
    refine ⟨_, by rw [writeSystemLayout, a1, a2, a3]; rfl, ?_⟩
    show readSystemLayout _ = _
    rw [readSystemLayout]
    simp only
    rw [b1, b2, b3]; rfl
  · rw [if_neg hu]
    simp only [Option.isSome_iff_ne_none] at hu
    push Not at hu
    rw [hn hu.1 hu.2.1 hu.2.2, hu.2.1, hu.2.2]
    exact ⟨none, rfl, rfl⟩

theorem mapM_back {α β γ : Type} {f : α → Option β} {g : β → Option γ} {h : α → γ} : ∀ {l : List α}, (∀ a ∈ l, ∃ x, f a = some x ∧ g x = some (h a)) →
    ∃ xs, l.mapM f = some xs ∧ xs.mapM g = some (l.map h)
  | [], _ => ⟨[], rfl, rfl⟩
  | a :: l, hl => by
    obtain ⟨x, h1, h2⟩ := hl a List.mem_cons_self
    obtain ⟨xs, h3, h4⟩ := mapM_back (fun b hb => hl b (List.mem_cons_of_mem _ hb))
    refine ⟨x :: xs, ?_, ?_⟩
    · rw [List.mapM_cons, h1, h3]; rfl
    · rw [List.mapM_cons, h2, h4]; rfl

theorem noteSizeText (s : Str) : StringEnum.toStr (parseEnum s : Core.NoteSizeType) = if s = chars "grace" ∨ s = chars "large" then s else chars "cue" := by
  have key : (parseEnum s : Core.NoteSizeType) = (tryParse s).getD .cue := rfl
  rw [key]
  cases ht : (tryParse s : Option Core.NoteSizeType) with
  | none =>
    have hn : ¬ (s = chars "grace" ∨ s = chars "large") := by
      rintro (rfl | rfl)
      · exact absurd ht (by decide)
      · exact absurd ht (by decide)
    rw [if_neg hn]; rfl
  | some e =>
    have hs : s = StringEnum.toStr e := (roundTrips_NoteSizeType e s).mp ht
    subst hs
    cases e <;> decide

theorem appearanceType_back (a : AppearanceData) : readAppearanceType a.type (appearanceTypeText a) = keptAppearanceType a := by
  obtain ⟨t, s, v⟩ := a
  cases t with
  | lineWidth =>
    show (OpenValue.ofText ((OpenValue.ofText s : OpenName.Value .LineWidthType).valueString) : OpenName.Value .LineWidthType).valueString = if s = chars "other" then [] else s
    by_cases h : s = chars "other"
    · rw [if_pos h, h]; decide
    · have h' : s ≠ Spec.otherName .LineWidthType := h
      rw [if_neg h, Props.C53_text_kept_partial .LineWidthType s h', Props.C53_text_kept_partial .LineWidthType s h']
  | noteSize =>
    show StringEnum.toStr (parseEnum (StringEnum.toStr (parseEnum s : Core.NoteSizeType)) : Core.NoteSizeType) = if s = chars "grace" ∨ s = chars "large" then s else chars "cue"
    rw [noteSizeText, noteSizeText]
    by_cases h : s = chars "grace" ∨ s = chars "large"
    · rw [if_pos h, if_pos h]
    · rw [if_neg h]; decide
  | distance =>
    show (OpenValue.ofText ((OpenValue.ofText s : OpenName.Value .DistanceType).valueString) : OpenName.Value .DistanceType).valueString = if s = chars "other" then [] else s
    by_cases h : s = chars "other"
    · rw [if_pos h, h]; decide
    · have h' : s ≠ Spec.otherName .DistanceType := h
      rw [if_neg h, Props.C53_text_kept_partial .DistanceType s h', Props.C53_text_kept_partial .DistanceType s h']
  | otherAppearance => exact Props.C25_idempotent s

theorem nonNegative_clamped (v : ℚ) : writeDec .NonNegativeDecimal v = writeDec .NonNegativeDecimal (max 0 v) := by
  rcases le_total 0 v with h | h
  · rw [max_eq_right h]
  · rw [max_eq_left h]
    unfold writeDec DecimalRange.make
    have h0 : DecimalKind.minClamp .NonNegativeDecimal (DecimalKind.maxClamp .NonNegativeDecimal 0) = 0 := (Props.clamp_eq .NonNegativeDecimal 0).1 (le_refl (0 : ℚ))
    have h1 : DecimalKind.minClamp .NonNegativeDecimal (DecimalKind.maxClamp .NonNegativeDecimal v) = 0 := by
      by_cases hv : 0 ≤ v
      · rw [le_antisymm h hv]; exact h0
      · exact (Props.clamp_eq .NonNegativeDecimal v).2 hv
    rw [h0, h1]

theorem appearanceOf_back (t : AppearanceType) (ht : t ≠ .otherAppearance) {l : List AppearanceData} (h : ∀ a ∈ l, LengthFits a.value) :
    ∃ xs, writeAppearanceOf t l = some xs ∧ readAppearanceOf t xs = some ((l.filter (fun a : AppearanceData => decide (a.type = t))).map keptAppearance) := by
  refine mapM_back (fun a ha => ?_)
  obtain ⟨hm, he⟩ := List.mem_filter.mp ha
  have he := of_decide_eq_true he
  have hv : ∃ s, writeDec t.kind a.value = some s ∧ readDec t.kind s = some (if t = .noteSize then max 0 a.value else a.value) := by
    cases t with
    | noteSize =>
      obtain ⟨s, h1, h2⟩ := dec_back (k := .NonNegativeDecimal) (v := max 0 a.value) (le_max_left 0 _) (max_fits (h a hm))
      exact ⟨s, by rw [← h1]; exact nonNegative_clamped _, h2⟩
    | lineWidth => exact length_back (h a hm)
    | distance => exact length_back (h a hm)
    | otherAppearance => exact absurd rfl ht
  obtain ⟨s, h1, h2⟩ := hv
  refine ⟨_, by rw [h1]; rfl, ?_⟩
  show (readDec t.kind s).map _ = _
  rw [h2]
  show some _ = some _
  congr 1
  rw [keptAppearance, ← appearanceType_back a, he, if_neg ht, if_neg ht]

theorem appearance_back {l : List AppearanceData} (h : ∀ a ∈ l, LengthFits a.value) :
    ∃ x, writeAppearance l = some x ∧ readAppearance x = some ((groupedAppearance l).map keptAppearance) ∧ (x = none ↔ l = []) := by
  obtain ⟨x1, a1, b1⟩ := appearanceOf_back .lineWidth (by decide) h
  obtain ⟨x2, a2, b2⟩ := appearanceOf_back .noteSize (by decide) h
  obtain ⟨x3, a3, b3⟩ := appearanceOf_back .distance (by decide) h
  refine ⟨_, by rw [writeAppearance, a1, a2, a3]; rfl, ?_, ?_⟩
  · by_cases hl : l = []
    · subst hl; rfl
    · rw [if_neg hl, readAppearance]
      simp only
      rw [b1, b2, b3]
      show some _ = some _
      congr 1
      have ho : ((l.filter (fun a : AppearanceData => decide (a.type = .otherAppearance))).map appearanceTypeText).map readOther =
          (l.filter (fun a : AppearanceData => decide (a.type = .otherAppearance))).map keptAppearance := by
        rw [List.map_map]
        refine List.map_congr_left (fun a ha => ?_)
        have he := of_decide_eq_true (List.mem_filter.mp ha).2
        show readOther (appearanceTypeText a) = _
        have := appearanceType_back a
        rw [he] at this
        rw [readOther, this, keptAppearance, if_pos he, if_pos he]
      rw [ho]
      unfold groupedAppearance
      simp only [List.flatMap_cons, List.flatMap_nil, List.map_append, List.append_nil, List.append_assoc]
  · by_cases hl : l = []
    · rw [if_pos hl]; exact ⟨fun _ => hl, fun _ => rfl⟩
    · rw [if_neg hl]; exact ⟨fun h => (by cases h), fun h => absurd h hl⟩

theorem scaling_back {d : DefaultsData} (h1 : LengthFits d.scalingMillimeters) (h2 : LengthFits d.scalingTenths) :
    ∃ x, writeScaling d = some x ∧ readScaling x = some (keptScaling d) := by
  unfold writeScaling keptScaling
  by_cases h : d.scalingMillimeters > 0 ∨ d.scalingTenths > 0
  · rw [if_pos h, if_pos h]
    obtain ⟨x1, a1, b1⟩ := dec_back (k := .MillimetersValue) trivial (max_fits h1)
    obtain ⟨x2, a2, b2⟩ := length_back (max_fits h2)
    refine ⟨_, by rw [toTenths_eq, toTenths_eq, a1, a2]; rfl, ?_⟩
    rw [readScaling]
    simp only
    rw [b1, b2]; rfl
  · rw [if_neg h, if_neg h]
    exact ⟨none, rfl, rfl⟩

theorem defaultMargins_eq (s : SystemLayoutData) : defaultMargins s = (keptSystem s).margins := by
  unfold defaultMargins keptSystem
  simp only [Option.isNone_iff_eq_none, Option.isSome_iff_ne_none]

theorem defaults_back {d : DefaultsData} (h : DefaultsFit d) : defaultsBack d = some (keptDefaults d) := by
  obtain ⟨x1, a1, b1⟩ := scaling_back h.millimeters h.tenths
  obtain ⟨x2, a2, b2, _⟩ := page_back h.page
  have hm : ∀ m ∈ defaultMargins d.systemLayout, LengthFits m.left ∧ LengthFits m.right := by
    intro m hm
    unfold defaultMargins at hm
    split at hm
    · cases hm; exact ⟨zero_fits, zero_fits⟩
    · exact h.system.margins m hm
  have hn : d.systemLayout.margins = none → d.systemLayout.systemDistance = none → d.systemLayout.topSystemDistance = none → defaultMargins d.systemLayout = none := by
    intro e1 _ e3
    rw [defaultMargins, e1, e3]; rfl
  obtain ⟨x3, a3, b3⟩ := system_back hm h.system hn
  obtain ⟨x4, a4, b4, _⟩ := optDec_back h.system.staffDistance
  obtain ⟨x5, a5, b5, _⟩ := appearance_back h.appearance
  have hs : readStaves (x4.map some).toList = some d.systemLayout.staffDistance := by
    cases x4 with
    | none => exact b4
    | some s => exact b4
  have hw : writeDefaults d = some { scaling := x1, page := x2, system := x3, staves := (x4.map some).toList, appearance := x5 } := by
    rw [writeDefaults, a1, a2, a3, a4, a5]; rfl
  have hc : createDefaults { scaling := x1, page := x2, system := x3, staves := (x4.map some).toList, appearance := x5 } = some (keptDefaults d) := by
    rw [createDefaults]
    simp only
    rw [b1, b2, b3, hs, b5, defaultMargins_eq]
    rfl
  rw [defaultsBack, headerDefaults, hw]
  show readHeaderDefaults (if _ = _ then _ else _) = _
  by_cases he : ({ scaling := x1, page := x2, system := x3, staves := (x4.map some).toList, appearance := x5 } : DefaultsXml) = {}
  · rw [if_pos he]
    rw [he] at hc
    exact hc
  · rw [if_neg he]; exact hc

/-! ### Layout of measures -/

theorem yesNo_back (b : Api.Bool) : readYesNo (writeYesNo b) = b := by cases b <;> rfl

theorem system_unused {s : SystemData} (h : ¬ s.isUsed = true) : s = {} := by
  obtain ⟨n, m, d, t, st⟩ := s
  unfold SystemData.isUsed SystemLayoutData.isUsed at h
  simp only [decide_eq_true_eq, Option.isSome_iff_ne_none] at h
  push Not at h
  obtain ⟨h1, h2, h3, h4, h5⟩ := h
  subst h1 h2 h3 h4 h5
  rfl

theorem pageData_unused {p : PageData} (h : ¬ p.isUsed = true) : p = {} := by
  obtain ⟨n, ⟨s, o, e⟩, num⟩ := p
  unfold PageData.isUsed at h
  simp only [decide_eq_true_eq, page_unused, Option.isSome_iff_ne_none] at h
  push Not at h
  obtain ⟨h1, ⟨h2, h3, h4⟩, h5⟩ := h
  subst h1 h2 h3 h4 h5
  rfl

theorem systemInfo_back {s : SystemData} (h : SystemFits s.layout) :
    ∃ x, writeSystemInfo s = some x ∧ (x = none → ¬ s.isUsed = true) ∧ ∀ y, x = some y →
      (∃ l, readOptionalSystem y.system = some l ∧ l = { s.layout with staffDistance := none }) ∧ readYesNo y.newSystem = s.newSystem ∧
      y.newPage = none ∧ y.pageNumber = none ∧ y.page = none := by
  unfold writeSystemInfo
  by_cases hu : s.isUsed = true
  · rw [if_pos hu]
    obtain ⟨x, h1, h2⟩ := system_back h.margins h (fun h _ _ => h)
    refine ⟨_, by rw [h1]; rfl, fun h => (by cases h), ?_⟩
    intro y hy
    cases hy
    exact ⟨⟨_, h2, rfl⟩, yesNo_back _, rfl, rfl, rfl⟩
  · rw [if_neg hu]
    exact ⟨none, rfl, fun _ => hu, fun y hy => by cases hy⟩

/-- What the two scans do with the `<print>` element of a measure. -/
def Scans (l : LayoutData) (prints : List PrintElement) : Prop :=
  (∀ k m, prints.foldlM (scanSystem k) m = some (if l.system.isUsed then mapPut k { layoutAt m k with system := l.system } m else m)) ∧
  (∀ k m, prints.foldlM (scanPage k) m = some (if l.page.isUsed then mapPut k { layoutAt m k with page := l.page } m else m))

theorem scans_one {l : LayoutData} {y : PrintElement} (hs : readSystemInfo y = some l.system) (hp : readPageInfo y = some l.page) : Scans l [y] := by
  constructor
  · intro k m
    show (scanSystem k m y).bind _ = _
    rw [scanSystem, hs]; rfl
  · intro k m
    show (scanPage k m y).bind _ = _
    rw [scanPage, hp]; rfl

theorem keptPage_number (p : PageData) (x : Option Str) (h : x = p.pageNumber.map xsToken) : x.map xsToken = p.pageNumber.map xsToken := by
  rw [h]
  cases p.pageNumber with
  | none => rfl
  | some s => exact congrArg some (Props.C25_idempotent s)

theorem measurePrint_back {l : LayoutData} (h : LayoutFits l) : ∃ x, writeMeasurePrint l = some x ∧ Scans (keptLayout l) (printsOf x) := by
  obtain ⟨x, h1, h2, h3⟩ := systemInfo_back h.system
  obtain ⟨pg, h4, h5, _⟩ := page_back h.page
  rw [writeMeasurePrint, h1, Option.bind_some]
  have hsys : ∀ y, x = some y → readSystemInfo y = some (keptLayout l).system := by
    intro y hy
    obtain ⟨⟨sl, e1, e2⟩, e3, _⟩ := h3 y hy
    rw [readSystemInfo, e1, e2, Option.map_some, e3]; rfl
  have hempty : readSystemInfo {} = some {} := rfl
  have hsys' : readSystemInfo (x.getD {}) = some (keptLayout l).system := by
    cases x with
    | some y => exact hsys y rfl
    | none =>
      have := system_unused (h2 rfl)
      rw [Option.getD_none, hempty, keptLayout, this]
  by_cases hp : l.page.isUsed = true
  · rw [if_pos hp]
    refine ⟨_, by rw [writePageInfo, h4]; rfl, ?_⟩
    refine scans_one ?_ ?_
    · exact hsys'
    · rw [readPageInfo]
      simp only
      rw [h5, Option.map_some, yesNo_back, keptPage_number l.page _ rfl]
      rfl
  · rw [if_neg hp]
    refine ⟨x, rfl, ?_⟩
    have hk : (keptLayout l).page = {} := by rw [keptLayout, pageData_unused hp]; rfl
    cases x with
    | none =>
      have hk2 : (keptLayout l).system = {} := by rw [keptLayout, system_unused (h2 rfl)]
      refine ⟨fun k m => ?_, fun k m => ?_⟩
      · rw [hk2]; rfl
      · rw [hk]; rfl
    | some y =>
      refine scans_one (hsys y rfl) ?_
      obtain ⟨_, _, e1, e2, e3⟩ := h3 y rfl
      rw [readPageInfo, e1, e2, e3, hk]; rfl

/-- The entries after `scanForSystemInfo`, for measures from `k` on with the layouts `ls`. -/
def systemEntries : Int → List LayoutData → List (Int × LayoutData)
  | _, [] => []
  | k, l :: ls => (if l.system.isUsed then [(k, { system := l.system })] else []) ++ systemEntries (k + 1) ls

/-- The entries after both scans. -/
def allEntries : Int → List LayoutData → List (Int × LayoutData)
  | _, [] => []
  | k, l :: ls => (if LayoutUsed l then [(k, l)] else []) ++ allEntries (k + 1) ls

theorem systemEntries_ge : ∀ (ls : List LayoutData) (k : Int), ∀ e ∈ systemEntries k ls, k ≤ e.1
  | [], _, _, h => by cases h
  | l :: ls, k, e, h => by
    rcases List.mem_append.mp h with h | h
    · split at h
      · rw [List.mem_singleton.mp h]
      · cases h
    · have := systemEntries_ge ls (k + 1) e h; omega

theorem layoutAt_none {m : List (Int × LayoutData)} {k : Int} (h : ∀ e ∈ m, e.1 ≠ k) : layoutAt m k = {} := by
  rw [layoutAt, List.find?_eq_none.mpr (fun e he => by simpa using h e he)]; rfl

theorem mapPut_append {V : Type} {k : Int} {v : V} : ∀ {a b : List (Int × V)}, (∀ p ∈ a, p.1 < k) → mapPut k v (a ++ b) = a ++ mapPut k v b
  | [], _, _ => rfl
  | p :: a, b, h => by
    have hp := h p List.mem_cons_self
    rw [List.cons_append, mapPut, if_neg (by omega), if_neg (by omega), mapPut_append (fun q hq => h q (List.mem_cons_of_mem _ hq))]
    rfl

theorem mapPut_first {V : Type} {k : Int} {v : V} : ∀ {b : List (Int × V)}, (∀ p ∈ b, k < p.1) → mapPut k v b = (k, v) :: b
  | [], _ => rfl
  | p :: b, h => by
    have hp := h p List.mem_cons_self
    rw [mapPut, if_pos hp]

theorem layoutAt_append {a b : List (Int × LayoutData)} {k : Int} (h : ∀ e ∈ a, e.1 < k) : layoutAt (a ++ b) k = layoutAt b k := by
  unfold layoutAt
  have : a.find? (fun e : Int × LayoutData => decide (e.1 = k)) = none :=
    List.find?_eq_none.mpr (fun e he => by have := h e he; simp only [decide_eq_true_eq]; omega)
  rw [List.find?_append, this, Option.none_or]

theorem layoutAt_first {b : List (Int × LayoutData)} {k : Int} {l : LayoutData} : layoutAt ((k, l) :: b) k = l := by
  unfold layoutAt
  rw [List.find?_cons_of_pos (by simp)]; rfl

theorem scan_systems : ∀ (ls : List LayoutData) (ps : List (List PrintElement)) (k : Int) (a : List (Int × LayoutData)), List.Forall₂ Scans ls ps → (∀ e ∈ a, e.1 < k) →
    scanFrom scanSystem k ps a = some (a ++ systemEntries k ls)
  | [], [], _, a, _, _ => by rw [scanFrom, systemEntries, List.append_nil]
  | l :: ls, p :: ps, k, a, .cons h hs, ha => by
    rw [scanFrom, h.1 k a, Option.bind_some, systemEntries]
    by_cases hu : l.system.isUsed = true
    · rw [if_pos hu, if_pos hu, mapPut_last ha, layoutAt_none (fun e he => by have := ha e he; omega)]
      rw [scan_systems ls ps (k + 1) _ hs]
      · rw [List.append_assoc]
      · intro e he
        rcases List.mem_append.mp he with he | he
        · have := ha e he; omega
        · rw [List.mem_singleton.mp he]; exact Int.lt_succ k
    · rw [if_neg hu, if_neg hu, List.nil_append]
      exact scan_systems ls ps (k + 1) a hs (fun e he => by have := ha e he; omega)

theorem layoutUsed_iff {l : LayoutData} : LayoutUsed l ↔ l.system.isUsed = true ∨ l.page.isUsed = true := by
  constructor
  · intro h
    by_contra hn
    push Not at hn
    obtain ⟨s, p⟩ := l
    have e1 : s = {} := system_unused hn.1
    have e2 : p = {} := pageData_unused hn.2
    exact h (by rw [e1, e2])
  · rintro h rfl
    rcases h with h | h
    · exact absurd h (by decide)
    · exact absurd h (by decide)

theorem scan_pages : ∀ (ls : List LayoutData) (ps : List (List PrintElement)) (k : Int) (a : List (Int × LayoutData)), List.Forall₂ Scans ls ps → (∀ e ∈ a, e.1 < k) →
    scanFrom scanPage k ps (a ++ systemEntries k ls) = some (a ++ allEntries k ls)
  | [], [], _, a, _, _ => by rw [scanFrom, systemEntries, allEntries]
  | l :: ls, p :: ps, k, a, .cons h hs, ha => by
    have hb : ∀ e ∈ systemEntries (k + 1) ls, k < e.1 := fun e he => by have := systemEntries_ge ls (k + 1) e he; omega
    have hne : ∀ e ∈ systemEntries (k + 1) ls, e.1 ≠ k := fun e he => by have := hb e he; omega
    have ha' : ∀ (v : LayoutData), ∀ e ∈ a ++ [(k, v)], e.1 < k + 1 := by
      intro v e he
      rcases List.mem_append.mp he with he | he
      · have := ha e he; omega
      · rw [List.mem_singleton.mp he]; exact Int.lt_succ k
    have ha1 : ∀ e ∈ a, e.1 < k + 1 := fun e he => by have := ha e he; omega
    rw [scanFrom, h.2, Option.bind_some, systemEntries, allEntries]
    by_cases hu : l.system.isUsed = true
    · by_cases hp : l.page.isUsed = true
      · rw [if_pos hu, if_pos hp, if_pos (layoutUsed_iff.mpr (Or.inl hu)), mapPut_append ha, layoutAt_append ha, List.singleton_append, layoutAt_first, mapPut, if_neg (by omega),
          if_pos rfl]
        have := scan_pages ls ps (k + 1) (a ++ [(k, l)]) hs (ha' l)
        rw [List.append_assoc, List.append_assoc] at this
        exact this
      · rw [if_pos hu, if_neg hp, if_pos (layoutUsed_iff.mpr (Or.inl hu))]
        have e : ({ system := l.system } : LayoutData) = l := by
          have := pageData_unused hp
          obtain ⟨s, p⟩ := l
          simp only at this
          rw [this]
        rw [e]
        have := scan_pages ls ps (k + 1) (a ++ [(k, l)]) hs (ha' l)
        rw [List.append_assoc, List.append_assoc] at this
        exact this
    · by_cases hp : l.page.isUsed = true
      · rw [if_neg hu, if_pos hp, if_pos (layoutUsed_iff.mpr (Or.inr hp)), List.nil_append, mapPut_append ha, layoutAt_append ha, layoutAt_none hne, mapPut_first hb]
        have e : ({ page := l.page } : LayoutData) = l := by
          have := system_unused hu
          obtain ⟨s, p⟩ := l
          simp only at this
          rw [this]
        have := scan_pages ls ps (k + 1) (a ++ [(k, l)]) hs (ha' l)
        rw [List.append_assoc, List.append_assoc] at this
        rw [show allEntries (k + 1) ls = allEntries (k + 1) ls from rfl] at this
        refine Eq.trans ?_ this
        refine congrArg (fun v : LayoutData => scanFrom scanPage (k + 1) ps (a ++ (k, v) :: systemEntries (k + 1) ls)) ?_
        exact e
      · rw [if_neg hu, if_neg hp, if_neg (fun hn => (layoutUsed_iff.mp hn).elim hu hp), List.nil_append, List.nil_append]
        exact scan_pages ls ps (k + 1) a hs ha1

theorem mem_allEntries : ∀ (ls : List LayoutData) (k : Int) (e : Int × LayoutData),
    e ∈ allEntries k ls ↔ LayoutUsed e.2 ∧ ∃ j : Nat, e.1 = k + j ∧ ls[j]? = some e.2
  | [], k, e => by
    constructor
    · intro h; cases h
    · rintro ⟨_, j, _, h⟩; cases h
  | l :: ls, k, e => by
    rw [allEntries, List.mem_append, mem_allEntries ls (k + 1) e]
    constructor
    · rintro (h | ⟨hu, j, h1, h2⟩)
      · split at h
        · rename_i hu
          rw [List.mem_singleton] at h
          subst h
          exact ⟨hu, 0, by simp, rfl⟩
        · cases h
      · exact ⟨hu, j + 1, by push_cast; omega, h2⟩
    · rintro ⟨hu, j, h1, h2⟩
      cases j with
      | zero =>
        left
        have : l = e.2 := Option.some.inj h2
        rw [this, if_pos hu, List.mem_singleton]
        exact Prod.ext (by simpa using h1) rfl
      | succ j => exact Or.inr ⟨hu, j, by push_cast at h1; omega, h2⟩

theorem allEntries_sorted : ∀ (ls : List LayoutData) (k : Int), IsMap (allEntries k ls)
  | [], _ => List.Pairwise.nil
  | l :: ls, k => by
    unfold IsMap
    rw [allEntries, List.pairwise_append]
    refine ⟨?_, allEntries_sorted ls (k + 1), ?_⟩
    · split
      · exact List.pairwise_singleton _ _
      · exact List.Pairwise.nil
    · intro a ha b hb
      split at ha
      · rw [List.mem_singleton.mp ha]
        obtain ⟨_, j, h, _⟩ := (mem_allEntries ls (k + 1) b).mp hb
        show k < b.1
        omega
      · cases ha

theorem isMap_unique {m : List (Int × LayoutData)} (h : IsMap m) : ∀ {a b : Int × LayoutData}, a ∈ m → b ∈ m → a.1 = b.1 → a = b := by
  intro a b ha hb e
  by_contra hn
  have hp := h.imp (S := fun a b : Int × LayoutData => a.1 ≠ b.1) (fun h => by omega)
  haveI : Std.Symm (fun a b : Int × LayoutData => a.1 ≠ b.1) := ⟨fun _ _ h => Ne.symm h⟩
  exact List.Pairwise.forall hp ha hb hn e

theorem layoutAt_mem {m : List (Int × LayoutData)} (h : IsMap m) {e : Int × LayoutData} (he : e ∈ m) : layoutAt m e.1 = e.2 := by
  unfold layoutAt
  cases hf : m.find? (fun x : Int × LayoutData => decide (x.1 = e.1)) with
  | none => exact absurd (List.find?_eq_none.mp hf e he) (by simp)
  | some x =>
    have h1 := List.mem_of_find?_eq_some hf
    have h2 := List.find?_some hf
    rw [isMap_unique h h1 he (of_decide_eq_true h2)]; rfl

theorem layoutAt_cases (m : List (Int × LayoutData)) (k : Int) : layoutAt m k = {} ∨ (k, layoutAt m k) ∈ m := by
  unfold layoutAt
  cases hf : m.find? (fun x : Int × LayoutData => decide (x.1 = k)) with
  | none => exact Or.inl rfl
  | some x =>
    have h1 := List.mem_of_find?_eq_some hf
    have h2 := List.find?_some hf
    have h2 := of_decide_eq_true h2
    right
    have : (k, x.2) = x := Prod.ext h2.symm rfl
    show (k, x.2) ∈ m
    rw [this]; exact h1

theorem keptLayout_empty : keptLayout {} = {} := by decide

theorem isMap_eq {a b : List (Int × LayoutData)} (ha : IsMap a) (hb : IsMap b) (h : ∀ e, e ∈ a ↔ e ∈ b) : a = b := by
  have nd : ∀ {l : List (Int × LayoutData)}, IsMap l → l.Nodup := fun h => h.imp (fun h e => by rw [e] at h; omega)
  refine List.Perm.eq_of_pairwise (le := fun x y : Int × LayoutData => x.1 < y.1) (fun x y _ _ h1 h2 => by omega) ha hb ?_
  exact (List.perm_ext_iff_of_nodup (nd ha) (nd hb)).mpr h

theorem allEntries_eq (n : Nat) {m : List (Int × LayoutData)} (h : IsMap m) :
    allEntries 0 ((List.range n).map (fun i : Nat => keptLayout (layoutAt m (i : Int)))) = keptLayouts n m := by
  refine isMap_eq (allEntries_sorted _ _) ?_ ?_
  · unfold keptLayouts IsMap
    refine List.Pairwise.filter _ ?_
    rw [List.pairwise_map]
    exact List.Pairwise.filter _ h
  · intro e
    rw [mem_allEntries]
    unfold keptLayouts
    rw [List.mem_filter, decide_eq_true_eq, List.mem_map]
    constructor
    · rintro ⟨hu, j, h1, h2⟩
      refine ⟨?_, hu⟩
      rw [List.getElem?_map] at h2
      obtain ⟨i, hi, h3⟩ := Option.map_eq_some_iff.mp h2
      obtain ⟨hj, hi⟩ := List.getElem?_eq_some_iff.mp hi
      rw [List.getElem_range] at hi
      subst hi
      rw [List.length_range] at hj
      rcases layoutAt_cases m (j : Int) with h4 | h4
      · rw [h4, keptLayout_empty] at h3
        exact absurd h3.symm hu
      · refine ⟨_, List.mem_filter.mpr ⟨h4, decide_eq_true ⟨?_, ?_⟩⟩, ?_⟩
        · show (0 : Int) ≤ j; omega
        · show (j : Int) < n; omega
        · exact Prod.ext (by rw [h1, zero_add]) h3
    · rintro ⟨⟨x, hx, rfl⟩, hu⟩
      obtain ⟨hm, hr⟩ := List.mem_filter.mp hx
      have hr := of_decide_eq_true hr
      refine ⟨hu, x.1.toNat, ?_, ?_⟩
      · show x.1 = _
        omega
      · have hl : x.1.toNat < n := by omega
        rw [List.getElem?_map, List.getElem?_range hl, Option.map_some, Int.toNat_of_nonneg hr.1, layoutAt_mem h hm]

theorem empty_layout_fits : LayoutFits {} where
  system := ⟨fun _ h => (by cases h), fun _ h => (by cases h), fun _ h => (by cases h), fun _ h => (by cases h)⟩
  page := ⟨fun _ h => (by cases h), fun _ h => (by cases h), fun _ h => (by cases h)⟩

theorem prints_back {m : List (Int × LayoutData)} (hf : ∀ e ∈ m, LayoutFits e.2) : ∀ is : List Nat,
    ∃ xs, is.mapM (fun i : Nat => writeMeasurePrint (layoutAt m (i : Int))) = some xs ∧
      List.Forall₂ Scans (is.map (fun i : Nat => keptLayout (layoutAt m (i : Int)))) (xs.map printsOf)
  | [] => ⟨[], rfl, List.Forall₂.nil⟩
  | i :: is => by
    obtain ⟨xs, h1, h2⟩ := prints_back hf is
    have hl : LayoutFits (layoutAt m (i : Int)) := by
      rcases layoutAt_cases m (i : Int) with h | h
      · rw [h]; exact empty_layout_fits
      · exact hf _ h
    obtain ⟨x, h3, h4⟩ := measurePrint_back hl
    exact ⟨x :: xs, by rw [List.mapM_cons, h3, h1]; rfl, List.Forall₂.cons h4 h2⟩

/-- The layouts of the measures that come back. -/
theorem layouts_back (n : Nat) {m : List (Int × LayoutData)} (h : IsMap m) (hf : ∀ e ∈ m, LayoutFits e.2) : layoutsBack n m = some (keptLayouts n m) := by
  obtain ⟨xs, h1, h2⟩ := prints_back hf (List.range n)
  rw [layoutsBack, writePrints, h1, Option.bind_some, readLayout, scan_systems _ _ 0 [] h2 (fun _ h => by cases h), Option.bind_some, scan_pages _ _ 0 [] h2 (fun _ h => by cases h),
    allEntries_eq n h]
  rfl

/-! ### What is unchanged -/

theorem keptMargins_self {m : MarginsData} (h : 0 ≤ m.left ∧ 0 ≤ m.right ∧ 0 ≤ m.top ∧ 0 ≤ m.bottom) : keptMargins m = m := by
  obtain ⟨h1, h2, h3, h4⟩ := h
  rw [keptMargins, max_eq_right h1, max_eq_right h2, max_eq_right h3, max_eq_right h4]

theorem optMargins_self {o : Option MarginsData} (h : ∀ m ∈ o, 0 ≤ m.left ∧ 0 ≤ m.right ∧ 0 ≤ m.top ∧ 0 ≤ m.bottom) : o.map keptMargins = o := by
  cases o with
  | none => rfl
  | some m => rw [Option.map_some, keptMargins_self (h m rfl)]

theorem keptPage_self {p : PageLayoutData} (hs : p.size = none → p.margins = {}) (ho : ∀ m ∈ p.margins.odd, 0 ≤ m.left ∧ 0 ≤ m.right ∧ 0 ≤ m.top ∧ 0 ≤ m.bottom)
    (he : ∀ m ∈ p.margins.even, 0 ≤ m.left ∧ 0 ≤ m.right ∧ 0 ≤ m.top ∧ 0 ≤ m.bottom) : keptPage p = p := by
  obtain ⟨s, o, e⟩ := p
  cases s with
  | none =>
    have h := hs rfl
    cases h
    rfl
  | some s =>
    have hn : ¬ ((some s : Option SizeData) = none ∧ o = none ∧ e = none) := fun h => by cases h.1
    rw [keptPage, if_neg hn, optMargins_self ho, optMargins_self he]; rfl

theorem keptSystem_self {s : SystemLayoutData} (h : s.margins = none → s.topSystemDistance = none) : keptSystem s = s := by
  have hn : ¬ (s.margins = none ∧ s.topSystemDistance ≠ none) := fun hn => hn.2 (h hn.1)
  rw [keptSystem, if_neg hn]

theorem keptDefaults_self {d : DefaultsData} (h : PlainDefaults d) : keptDefaults d = d := by
  have e : keptScaling d = (d.scalingMillimeters, d.scalingTenths) := by
    unfold keptScaling
    rcases h.scaling with ⟨h1, h2⟩ | ⟨h1, h2⟩
    · rw [h1, h2]; norm_num
    · rw [if_pos (Or.inl h1), max_eq_right (le_of_lt h1), max_eq_right (le_of_lt h2)]
  have e2 : (groupedAppearance d.appearance).map keptAppearance = d.appearance := by
    rw [h.order, List.map_congr_left h.appearance, List.map_id'' (fun _ => rfl)]
  rw [keptDefaults, e, e2, keptPage_self h.size h.odd h.even, keptSystem_self h.top, ← h.numbering]

theorem keptLayout_self {l : LayoutData} (h : PlainLayout l) : keptLayout l = l := by
  have e : l.page.pageNumber.map xsToken = l.page.pageNumber := by
    cases hn : l.page.pageNumber with
    | none => rfl
    | some p => rw [Option.map_some, h.number p hn]
  rw [keptLayout, e, keptPage_self h.size h.odd h.even, ← h.staff]

theorem keptLayouts_self {n : Nat} {m : List (Int × LayoutData)} (hm : ∀ e ∈ m, 0 ≤ e.1 ∧ e.1 < (n : Int)) (hu : ∀ e ∈ m, e.2 ≠ {}) (hp : ∀ e ∈ m, PlainLayout e.2) :
    keptLayouts n m = m := by
  have e : m.map (fun e => (e.1, keptLayout e.2)) = m := by
    have : ∀ x ∈ m, (fun e : Int × LayoutData => (e.1, keptLayout e.2)) x = id x := fun x hx => by
      show (x.1, keptLayout x.2) = x
      rw [keptLayout_self (hp x hx)]
    rw [List.map_congr_left this, List.map_id]
  rw [keptLayouts, List.filter_eq_self.mpr (fun x hx => decide_eq_true (hm x hx)), e]
  exact List.filter_eq_self.mpr (fun x hx => decide_eq_true (hu x hx))

end Mx
