import Verif.Model.LayoutThrough
import Verif.Spec.LayoutSaid
import Verif.Proofs.Layout
import Verif.Proofs.ScorePartSaid

/-! Lemmas for `Verif/Props/LayoutFileProps.lean`. -/
namespace Mx
open _root_.Spec Mx.Spec

/-! ### Lengths -/

theorem length_read {k : DecimalKind} {s : Str} {v : ℚ} (h : DecimalText s v) (hk : InRange k v) (hf : LengthFits v) : readDec k s = some v := decimal_range_parse h hk hf.1 hf.2

theorem length_written {k : DecimalKind} {v : ℚ} (hk : InRange k v) (hf : LengthFits v) : ∃ s, writeDec k v = some s ∧ DecimalText s v := decimal_range_says hk hf.1 hf.2

theorem tenths_read {s : Str} {v : ℚ} (h : DecimalText s v) (hf : LengthFits v) : readDec .TenthsValue s = some v := length_read (k := .TenthsValue) h trivial hf

theorem tenths_written {v : ℚ} (hf : LengthFits v) : ∃ s, writeDec .TenthsValue v = some s ∧ DecimalText s v := length_written (k := .TenthsValue) trivial hf

theorem optTenths_read {x : Option Str} {v : Option ℚ} (h : DecimalSays x v) (hf : ∀ n ∈ v, LengthFits n) : readOptDec .TenthsValue x = some v := by
  rcases h with ⟨rfl, rfl⟩ | ⟨t, n, rfl, rfl, ht⟩
  · rfl
  · rw [readOptDec, tenths_read ht (hf n rfl)]; rfl

theorem optTenths_written {v : Option ℚ} (hf : ∀ n ∈ v, LengthFits n) : ∃ x, writeOptDec .TenthsValue v = some x ∧ DecimalSays x v := by
  cases v with
  | none => exact ⟨none, rfl, .inl ⟨rfl, rfl⟩⟩
  | some n =>
    obtain ⟨s, h1, h2⟩ := tenths_written (hf n rfl)
    exact ⟨some s, by rw [writeOptDec, h1]; rfl, .inr ⟨s, n, rfl, rfl, h2⟩⟩

/-! ### Pages -/

theorem margin_read {x : PageMarginsXml} {t : Core.MarginType} {m : MarginsData} (h : MarginSays x t m) (hf : MarginsFit m) : readMargins x = some m ∧ marginType x = t := by
  obtain ⟨f1, f2, f3, f4⟩ := hf
  refine ⟨by rw [readMargins, tenths_read h.left f1, tenths_read h.right f2, tenths_read h.top f3, tenths_read h.bottom f4]; rfl, ?_⟩
  rcases h.type with e | ⟨e, rfl⟩
  · rw [marginType, e]; cases t <;> decide
  · rw [marginType, e]; rfl

theorem margins_read {xs : List PageMarginsXml} {m : PageMarginsData} (h : MarginsSay xs m) (h1 : ∀ v ∈ m.odd, MarginsFit v) (h2 : ∀ v ∈ m.even, MarginsFit v) :
    xs.foldlM addMargins {} = some m := by
  rcases h with ⟨rfl, rfl⟩ | ⟨x, v, rfl, hx, rfl⟩ | ⟨x, v, rfl, hx, rfl⟩ | ⟨x, v, rfl, hx, rfl⟩ | ⟨x, y, v, w, e, hx, hy, rfl⟩
  · rfl
  · obtain ⟨a, b⟩ := margin_read hx (h1 v rfl)
    show (addMargins {} x).bind _ = _
    rw [addMargins_eq a b]; rfl
  · obtain ⟨a, b⟩ := margin_read hx (h1 v rfl)
    show (addMargins {} x).bind _ = _
    rw [addMargins_eq a b]; rfl
  · obtain ⟨a, b⟩ := margin_read hx (h2 v rfl)
    show (addMargins {} x).bind _ = _
    rw [addMargins_eq a b]; rfl
  · obtain ⟨a, b⟩ := margin_read hx (h1 v rfl)
    obtain ⟨c, d⟩ := margin_read hy (h2 w rfl)
    rcases e with rfl | rfl
    · show (addMargins {} x).bind _ = _
      rw [addMargins_eq a b]
      show (addMargins _ y).bind _ = _
      rw [addMargins_eq c d]; rfl
    · show (addMargins {} y).bind _ = _
      rw [addMargins_eq c d]
      show (addMargins _ x).bind _ = _
      rw [addMargins_eq a b]; rfl

theorem toTenths_kept {v : ℚ} (h : 0 ≤ v) : toTenths v = v := by rw [toTenths_eq, max_eq_right h]

theorem margin_written (t : Core.MarginType) {m : MarginsData} (hf : MarginsFit m) (hk : MarginsKept m) : ∃ x, writeMargins t m = some x ∧ MarginSays x t m := by
  obtain ⟨f1, f2, f3, f4⟩ := hf
  obtain ⟨k1, k2, k3, k4⟩ := hk
  obtain ⟨x1, a1, b1⟩ := tenths_written f1
  obtain ⟨x2, a2, b2⟩ := tenths_written f2
  obtain ⟨x3, a3, b3⟩ := tenths_written f3
  obtain ⟨x4, a4, b4⟩ := tenths_written f4
  refine ⟨_, by rw [writeMargins, toTenths_kept k1, toTenths_kept k2, toTenths_kept k3, toTenths_kept k4, a1, a2, a3, a4]; rfl, ?_⟩
  exact { type := .inl (by cases t <;> rfl), left := b1, right := b2, top := b3, bottom := b4 }

theorem margins_written {m : PageMarginsData} (h1 : ∀ v ∈ m.odd, MarginsFit v) (h2 : ∀ v ∈ m.even, MarginsFit v) (k1 : ∀ v ∈ m.odd, MarginsKept v) (k2 : ∀ v ∈ m.even, MarginsKept v) :
    ∃ xs, createPageMargins m = some xs ∧ MarginsSay (xs.take 2) m := by
  obtain ⟨o, e⟩ := m
  cases o with
  | none =>
    cases e with
    | none => exact ⟨[], rfl, .inl ⟨rfl, rfl⟩⟩
    | some e =>
      obtain ⟨x, a, b⟩ := margin_written .even (h2 e rfl) (k2 e rfl)
      refine ⟨[x], ?_, .inr (.inr (.inr (.inl ⟨x, e, rfl, b, rfl⟩)))⟩
      rw [createPageMargins, if_pos (by rfl)]
      show [(Core.MarginType.even, e)].mapM _ = _
      rw [List.mapM_cons]
      show (writeMargins .even e).bind _ = _
      rw [a]; rfl
  | some o =>
    cases e with
    | none =>
      obtain ⟨x, a, b⟩ := margin_written .odd (h1 o rfl) (k1 o rfl)
      refine ⟨[x], ?_, .inr (.inr (.inl ⟨x, o, rfl, b, rfl⟩))⟩
      rw [createPageMargins, if_pos (by rfl)]
      have : marginEntries ⟨some o, none⟩ = [(Core.MarginType.odd, o)] := rfl
      rw [this, List.mapM_cons]
      show (writeMargins .odd o).bind _ = _
      rw [a]; rfl
    | some e =>
      by_cases he : o = e
      · subst he
        obtain ⟨x, a, b⟩ := margin_written .both (h1 o rfl) (k1 o rfl)
        refine ⟨[x], ?_, .inr (.inl ⟨x, o, rfl, b, rfl⟩)⟩
        rw [createPageMargins, if_pos (by rfl)]
        have : marginEntries ⟨some o, some o⟩ = [(Core.MarginType.both, o)] := by simp [marginEntries]
        rw [this, List.mapM_cons]
        show (writeMargins .both o).bind _ = _
        rw [a]; rfl
      · obtain ⟨x, a, b⟩ := margin_written .odd (h1 o rfl) (k1 o rfl)
        obtain ⟨y, a', b'⟩ := margin_written .even (h2 e rfl) (k2 e rfl)
        refine ⟨[x, y], ?_, .inr (.inr (.inr (.inr ⟨x, y, o, e, .inl rfl, b, b', rfl⟩)))⟩
        rw [createPageMargins, if_pos (by rfl)]
        have : marginEntries ⟨some o, some e⟩ = [(Core.MarginType.odd, o), (Core.MarginType.even, e)] := by simp [marginEntries, he]
        rw [this, List.mapM_cons, List.mapM_cons]
        show (writeMargins .odd o).bind _ = _
        rw [a]
        show ((writeMargins .even e).bind _).bind _ = _
        rw [a']; rfl

theorem page_read {x : Option PageLayoutXml} {p : PageLayoutData} (h : PageSays x p) (hf : PageFits p) : readOptionalPage x = some p := by
  rcases h with ⟨rfl, rfl⟩ | ⟨y, a, b, m, rfl, ha, hb, hm, rfl⟩
  · rfl
  · obtain ⟨f1, f2⟩ := hf.size _ rfl
    show readPageLayout y = _
    rw [readPageLayout, tenths_read ha f1, tenths_read hb f2, margins_read hm hf.odd hf.even]; rfl

theorem page_written {x : Option PageLayoutXml} {p : PageLayoutData} (h : PageSays x p) (hk : PageLayoutKept p) : ∃ y, optionalPageLayout p = some y ∧ PageSays y p := by
  rcases h with ⟨rfl, rfl⟩ | ⟨y, a, b, m, rfl, _, _, _, rfl⟩
  · exact ⟨none, rfl, .inl ⟨rfl, rfl⟩⟩
  · obtain ⟨f1, f2⟩ := hk.fits.size _ rfl
    obtain ⟨x1, a1, b1⟩ := tenths_written f1
    obtain ⟨x2, a2, b2⟩ := tenths_written f2
    obtain ⟨xs, a3, b3⟩ := margins_written hk.fits.odd hk.fits.even hk.odd hk.even
    refine ⟨some { height := x1, width := x2, margins := xs.take 2 }, ?_, .inr ⟨_, a, b, m, rfl, b1, b2, b3, rfl⟩⟩
    rw [optionalPageLayout, if_pos (by rfl), createPageLayout]
    show ((writeDec .TenthsValue a).bind fun height => (writeDec .TenthsValue b).bind fun width => (createPageMargins m).bind fun margins => _).map _ = _
    rw [a1, a2, a3]; rfl

/-! ### Systems -/

theorem systemMargins_read {x : Option (Str × Str)} {m : Option LeftRight} (h : SystemMarginsSay x m) (hf : ∀ v ∈ m, LengthFits v.left ∧ LengthFits v.right) : readOptMargins x = some m := by
  rcases h with ⟨rfl, rfl⟩ | ⟨l, r, a, b, rfl, rfl, h1, h2⟩
  · rfl
  · obtain ⟨f1, f2⟩ := hf _ rfl
    rw [readOptMargins, readLeftRight, tenths_read h1 f1, tenths_read h2 f2]; rfl

theorem systemMargins_written {m : Option LeftRight} (hf : ∀ v ∈ m, LengthFits v.left ∧ LengthFits v.right) : ∃ x, writeOptMargins m = some x ∧ SystemMarginsSay x m := by
  cases m with
  | none => exact ⟨none, rfl, .inl ⟨rfl, rfl⟩⟩
  | some v =>
    obtain ⟨f1, f2⟩ := hf v rfl
    obtain ⟨x1, a1, b1⟩ := tenths_written f1
    obtain ⟨x2, a2, b2⟩ := tenths_written f2
    exact ⟨some (x1, x2), by rw [writeOptMargins, writeLeftRight, a1, a2]; rfl, .inr ⟨x1, x2, v.left, v.right, rfl, rfl, b1, b2⟩⟩

theorem system_read {x : Option SystemLayoutXml} {s : SystemLayoutData} (h : SystemSays x s) (hf : SystemFits s) : readOptionalSystem x = some s := by
  obtain ⟨m, d, t, st⟩ := s
  have e : st = none := h.staffDistance
  subst e
  have r1 := systemMargins_read h.margins hf.margins
  have r2 := optTenths_read h.systemDistance hf.systemDistance
  have r3 := optTenths_read h.topSystemDistance hf.topSystemDistance
  cases x with
  | none => cases r1; cases r2; cases r3; rfl
  | some y =>
    show readSystemLayout y = _
    simp only [Option.bind_some] at r1 r2 r3
    rw [readSystemLayout, r1, r2, r3]; rfl

theorem system_written {s : SystemLayoutData} (hs : s.staffDistance = none) (hf : SystemFits s) : ∃ y, optionalSystemLayout s.margins s = some y ∧ SystemSays y s := by
  unfold optionalSystemLayout
  by_cases hu : s.margins.isSome = true ∨ s.systemDistance.isSome = true ∨ s.topSystemDistance.isSome = true
  · rw [if_pos hu]
    obtain ⟨x1, a1, b1⟩ := systemMargins_written hf.margins
    obtain ⟨x2, a2, b2⟩ := optTenths_written hf.systemDistance
    obtain ⟨x3, a3, b3⟩ := optTenths_written hf.topSystemDistance
    exact ⟨some { margins := x1, systemDistance := x2, topSystemDistance := x3 }, by rw [writeSystemLayout, a1, a2, a3]; rfl, { margins := b1, systemDistance := b2, topSystemDistance := b3, staffDistance := hs }⟩
  · rw [if_neg hu]
    simp only [Option.isSome_iff_ne_none] at hu
    push Not at hu
    exact ⟨none, rfl, { margins := .inl ⟨rfl, hu.1⟩, systemDistance := .inl ⟨rfl, hu.2.1⟩, topSystemDistance := .inl ⟨rfl, hu.2.2⟩, staffDistance := hs }⟩

/-! ### Appearance -/

/-- A size of the API. -/
def appearanceOf (t : AppearanceType) (e : Str × ℚ) : AppearanceData := { type := t, subType := e.1, value := e.2 }

theorem appearance_read {t : AppearanceType} {xs : List (Str × Str)} {as : List (Str × ℚ)} (h : List.Forall₂ SizeSays xs as)
    (hk : ∀ e ∈ as, appearanceTypeText (appearanceOf t e) = e.1 ∧ LengthFits e.2 ∧ InRange t.kind e.2) : readAppearanceOf t xs = some (as.map (appearanceOf t)) := by
  induction h with
  | nil => rfl
  | @cons x a xs as hx _ ih =>
    obtain ⟨k1, k2, k3⟩ := hk a List.mem_cons_self
    have := ih (fun e he => hk e (List.mem_cons_of_mem _ he))
    unfold readAppearanceOf at this ⊢
    rw [List.mapM_cons, this, length_read hx.2 k3 k2]
    show some _ = some _
    congr 2
    show ({ type := t, subType := readAppearanceType t x.1, value := a.2 } : AppearanceData) = appearanceOf t a
    rw [hx.1, readAppearanceType]
    exact congrArg (fun s => ({ type := t, subType := s, value := a.2 } : AppearanceData)) k1

theorem appearance_written {t : AppearanceType} {as : List (Str × ℚ)} {l : List AppearanceData} (hl : l.filter (fun a : AppearanceData => decide (a.type = t)) = as.map (appearanceOf t))
    (hk : ∀ e ∈ as, appearanceTypeText (appearanceOf t e) = e.1 ∧ LengthFits e.2 ∧ InRange t.kind e.2) : ∃ xs, writeAppearanceOf t l = some xs ∧ List.Forall₂ SizeSays xs as := by
  unfold writeAppearanceOf
  rw [hl]
  clear hl
  induction as with
  | nil => exact ⟨[], rfl, .nil⟩
  | cons a as ih =>
    obtain ⟨xs, h1, h2⟩ := ih (fun e he => hk e (List.mem_cons_of_mem _ he))
    obtain ⟨k1, k2, k3⟩ := hk a List.mem_cons_self
    obtain ⟨s, s1, s2⟩ := length_written k3 k2
    refine ⟨(appearanceTypeText (appearanceOf t a), s) :: xs, ?_, .cons ⟨k1, s2⟩ h2⟩
    rw [List.map_cons, List.mapM_cons, h1]
    show ((writeDec t.kind a.2).map _).bind _ = _
    rw [s1]; rfl

theorem filter_type (t u : AppearanceType) (as : List (Str × ℚ)) : (as.map (appearanceOf t)).filter (fun a : AppearanceData => decide (a.type = u)) = if t = u then as.map (appearanceOf t) else [] := by
  by_cases h : t = u
  · rw [if_pos h, List.filter_eq_self]
    intro a ha
    obtain ⟨e, _, rfl⟩ := List.mem_map.mp ha
    exact decide_eq_true h
  · rw [if_neg h, List.filter_eq_nil_iff]
    intro a ha
    obtain ⟨e, _, rfl⟩ := List.mem_map.mp ha
    show ¬ decide (t = u) = true
    rw [decide_eq_true_eq]
    exact h

/-! ### Defaults -/

/-- The appearance of the API. -/
def appearanceData (a : DefaultsSaid) : List AppearanceData := a.lineWidths.map (appearanceOf .lineWidth) ++ a.noteSizes.map (appearanceOf .noteSize) ++ a.distances.map (appearanceOf .distance)

/-- The defaults of the API. -/
def defaultsData (a : DefaultsSaid) : DefaultsData :=
  { scalingMillimeters := (a.scaling.getD (-1, -1)).1, scalingTenths := (a.scaling.getD (-1, -1)).2, pageLayout := a.page
    systemLayout := { a.system with staffDistance := a.staves.head?.bind id }, appearance := appearanceData a }

theorem kinds_kept {a : DefaultsSaid} (hk : DefaultsKept a) :
    (∀ e ∈ a.lineWidths, appearanceTypeText (appearanceOf .lineWidth e) = e.1 ∧ LengthFits e.2 ∧ InRange AppearanceType.lineWidth.kind e.2) ∧
    (∀ e ∈ a.noteSizes, appearanceTypeText (appearanceOf .noteSize e) = e.1 ∧ LengthFits e.2 ∧ InRange AppearanceType.noteSize.kind e.2) ∧
    (∀ e ∈ a.distances, appearanceTypeText (appearanceOf .distance e) = e.1 ∧ LengthFits e.2 ∧ InRange AppearanceType.distance.kind e.2) := by
  refine ⟨fun e he => ?_, fun e he => ?_, fun e he => ?_⟩
  · obtain ⟨h1, h2⟩ := hk.lineWidths e he
    exact ⟨Props.C53_text_kept_partial .LineWidthType e.1 h1, h2, trivial⟩
  · obtain ⟨h1, h2, h3⟩ := hk.noteSizes e he
    refine ⟨?_, h2, h3⟩
    show StringEnum.toStr (parseEnum e.1 : Core.NoteSizeType) = e.1
    rw [noteSizeText]
    rcases h1 with h | h | h <;> rw [h] <;> decide
  · obtain ⟨h1, h2⟩ := hk.distances e he
    exact ⟨Props.C53_text_kept_partial .DistanceType e.1 h1, h2, trivial⟩

theorem staves_fit {a : DefaultsSaid} (hk : DefaultsKept a) : ∀ v ∈ a.staves.head?.bind id, LengthFits v := by
  rcases hk.staves with e | ⟨d, e, hd⟩
  · rw [e]; intro v hv; cases hv
  · rw [e]; intro v hv; cases hv; exact hd

theorem defaults_read {x : DefaultsXml} {a : DefaultsSaid} (hs : DefaultsSays x a) (hk : DefaultsKept a) : createDefaults x = some (defaultsData a) := by
  have h1 : readScaling x.scaling = some (a.scaling.getD (-1, -1)) := by
    rcases hs.scaling with ⟨e1, e2⟩ | ⟨m, t, v, w, e1, e2, hm, ht⟩
    · rw [e1, e2]; rfl
    · obtain ⟨f1, f2, _⟩ := hk.scaling _ e2
      rw [e1, e2, readScaling, length_read (k := .MillimetersValue) hm trivial f1, tenths_read ht f2]; rfl
  have h2 := page_read hs.page hk.page.fits
  have h3 := system_read hs.system hk.system
  have h4 : readStaves x.staves = some (a.staves.head?.bind id) := by
    have hst := hs.staves
    rcases hk.staves with e | ⟨d, e, hd⟩
    · rw [e] at hst ⊢
      cases h : x.staves with
      | nil => rfl
      | cons => rw [h] at hst; cases hst
    · rw [e] at hst ⊢
      cases h : x.staves with
      | nil => rw [h] at hst; cases hst
      | cons y ys =>
        rw [h] at hst
        cases hst with
        | cons hy _ => exact optTenths_read hy (fun v hv => by cases hv; exact hd)
  have h5 : readAppearance x.appearance = some (appearanceData a) := by
    obtain ⟨k1, k2, k3⟩ := kinds_kept hk
    have r1 := appearance_read hs.lineWidths k1
    have r2 := appearance_read hs.noteSizes k2
    have r3 := appearance_read hs.distances k3
    have r4 := hs.others
    rw [hk.others] at r4
    cases he : x.appearance with
    | none =>
      rw [he] at r1 r2 r3
      have r1 : some [] = some _ := r1
      have r2 : some [] = some _ := r2
      have r3 : some [] = some _ := r3
      rw [readAppearance, appearanceData, ← Option.some.inj r1, ← Option.some.inj r2, ← Option.some.inj r3]
      rfl
    | some y =>
      rw [he] at r1 r2 r3 r4
      simp only [Option.getD_some] at r1 r2 r3 r4
      rw [readAppearance, r1, r2, r3, r4]
      show some (appearanceData a ++ []) = _
      rw [List.append_nil]
  rw [createDefaults, h1, h2, h3, h4, h5]
  rfl

theorem defaults_written {x : DefaultsXml} {a : DefaultsSaid} (hs : DefaultsSays x a) (hk : DefaultsKept a) : ∃ y, writeDefaults (defaultsData a) = some y ∧ DefaultsSays y a := by
  have w1 : ∃ y, writeScaling (defaultsData a) = some y ∧ ((y = none ∧ a.scaling = none) ∨ ∃ m t v w, y = some (m, t) ∧ a.scaling = some (v, w) ∧ DecimalText m v ∧ DecimalText t w) := by
    unfold writeScaling defaultsData
    cases hsc : a.scaling with
    | none => exact ⟨none, rfl, .inl ⟨rfl, rfl⟩⟩
    | some p =>
      obtain ⟨f1, f2, f3, f4, f5⟩ := hk.scaling p hsc
      obtain ⟨s, s1, s2⟩ := length_written (k := .MillimetersValue) trivial f1
      obtain ⟨t, t1, t2⟩ := tenths_written f2
      simp only [Option.getD_some]
      rw [if_pos f5, toTenths_kept f3, toTenths_kept f4, s1, t1]
      exact ⟨some (s, t), rfl, .inr ⟨s, t, p.1, p.2, rfl, rfl, s2, t2⟩⟩
  obtain ⟨y1, a1, b1⟩ := w1
  obtain ⟨y2, a2, b2⟩ := page_written hs.page hk.page
  obtain ⟨y3, a3, b3⟩ := system_written hs.system.staffDistance hk.system
  obtain ⟨y4, a4, b4⟩ := optTenths_written (staves_fit hk)
  have a3' : optionalSystemLayout (defaultMargins (defaultsData a).systemLayout) (defaultsData a).systemLayout = some y3 := by
    rw [← a3]
    have : defaultMargins (defaultsData a).systemLayout = a.system.margins := by
      show (if a.system.margins.isNone = true ∧ a.system.topSystemDistance.isSome = true then _ else a.system.margins) = _
      rw [if_neg]
      rintro ⟨e1, e2⟩
      rw [hk.top (Option.isNone_iff_eq_none.mp e1)] at e2
      cases e2
    rw [this]
    rfl
  have hst : List.Forall₂ DecimalSays (y4.map some).toList a.staves := by
    rcases hk.staves with e | ⟨d, e, hd⟩
    · rw [e] at b4 ⊢
      rcases b4 with ⟨rfl, _⟩ | ⟨_, _, _, h, _⟩
      · exact .nil
      · cases h
    · rw [e] at b4 ⊢
      rcases b4 with ⟨_, h⟩ | ⟨t, n, rfl, h, ht⟩
      · cases h
      · exact .cons (.inr ⟨t, n, rfl, h, ht⟩) .nil
  obtain ⟨k1, k2, k3⟩ := kinds_kept hk
  have hfil : ∀ u, (appearanceData a).filter (fun a : AppearanceData => decide (a.type = u)) =
      (if AppearanceType.lineWidth = u then a.lineWidths.map (appearanceOf .lineWidth) else []) ++ (if AppearanceType.noteSize = u then a.noteSizes.map (appearanceOf .noteSize) else []) ++
        (if AppearanceType.distance = u then a.distances.map (appearanceOf .distance) else []) := by
    intro u
    rw [appearanceData, List.filter_append, List.filter_append, filter_type, filter_type, filter_type]
  obtain ⟨z1, c1, d1⟩ := appearance_written (t := .lineWidth) (l := appearanceData a) (as := a.lineWidths) (by rw [hfil]; simp) k1
  obtain ⟨z2, c2, d2⟩ := appearance_written (t := .noteSize) (l := appearanceData a) (as := a.noteSizes) (by rw [hfil]; simp) k2
  obtain ⟨z3, c3, d3⟩ := appearance_written (t := .distance) (l := appearanceData a) (as := a.distances) (by rw [hfil]; simp) k3
  have hoth : (appearanceData a).filter (fun a : AppearanceData => decide (a.type = .otherAppearance)) = [] := by rw [hfil]; simp
  have w5 : ∃ y, writeAppearance (appearanceData a) = some y ∧ (y.getD {}).lineWidths = z1 ∧ (y.getD {}).noteSizes = z2 ∧ (y.getD {}).distances = z3 ∧ (y.getD {}).others = [] := by
    refine ⟨_, by rw [writeAppearance, c1, c2, c3]; rfl, ?_⟩
    by_cases hl : appearanceData a = []
    · rw [if_pos hl]
      obtain ⟨e1, e3⟩ := List.append_eq_nil_iff.mp hl
      obtain ⟨e1, e2⟩ := List.append_eq_nil_iff.mp e1
      rw [List.map_eq_nil_iff.mp e1] at d1
      rw [List.map_eq_nil_iff.mp e2] at d2
      rw [List.map_eq_nil_iff.mp e3] at d3
      cases d1; cases d2; cases d3
      exact ⟨rfl, rfl, rfl, rfl⟩
    · rw [if_neg hl, hoth]
      exact ⟨rfl, rfl, rfl, rfl⟩
  obtain ⟨y5, a5, e1, e2, e3, e4⟩ := w5
  refine ⟨{ scaling := y1, page := y2, system := y3, staves := (y4.map some).toList, appearance := y5 }, ?_, ?_⟩
  · have a2' : optionalPageLayout (defaultsData a).pageLayout = some y2 := a2
    have a4' : writeOptDec .TenthsValue (defaultsData a).systemLayout.staffDistance = some y4 := a4
    have a5' : writeAppearance (defaultsData a).appearance = some y5 := a5
    rw [writeDefaults, a1, a2', a3', a4', a5']; rfl
  · exact { scaling := b1, page := b2, system := b3, staves := hst, lineWidths := by rw [e1]; exact d1, noteSizes := by rw [e2]; exact d2, distances := by rw [e3]; exact d3, others := by rw [e4, hk.others] }

theorem defaults_said {x : Option DefaultsXml} {a : DefaultsSaid} (hs : DefaultsSays (x.getD {}) a) (hk : DefaultsKept a) : ∃ y, defaultsThrough x = some y ∧ DefaultsSays (y.getD {}) a := by
  have hr : readHeaderDefaults x = some (defaultsData a) := by
    have := defaults_read hs hk
    cases x with
    | none => exact this
    | some y => exact this
  obtain ⟨y, h1, h2⟩ := defaults_written hs hk
  rw [defaultsThrough, hr, Option.bind_some, headerDefaults, h1]
  refine ⟨if y = {} then none else some y, rfl, ?_⟩
  by_cases he : y = {}
  · rw [if_pos he]
    rw [he] at h2
    exact h2
  · rw [if_neg he]
    exact h2

/-! ### Measures -/

/-- A truth value of the API. -/
def boolOf : Option Bool → Api.Bool
  | none => .unspecified
  | some true => .yes
  | some false => .no

theorem bool_read {x : Option Str} {b : Option Bool} (h : x = b.map yesNoText) : readYesNo x = boolOf b := by
  rw [h]
  rcases b with _ | _ | _ <;> decide

theorem bool_written (b : Option Bool) : writeYesNo (boolOf b) = b.map yesNoText := by rcases b with _ | _ | _ <;> decide

/-- A layout of the API that says the same. -/
structure LayoutHas (l : LayoutData) (a : PrintSaid) : Prop where
  system : l.system = { newSystem := boolOf a.newSystem, layout := a.system }
  newPage : l.page.newPage = boolOf a.newPage
  page : l.page.pageLayout = a.page
  number : l.page.pageNumber.map words = a.pageNumber

theorem words_map (o : Option Str) : (o.map xsToken).map words = o.map words := by
  cases o with
  | none => rfl
  | some s => exact congrArg some (Props.C25_words_preserved s)

theorem print_read {ps : List PrintElement} {a : PrintSaid} (h : MeasurePrintSays ps a) (hk : PrintKept a) : ∃ l, Scans l ps ∧ LayoutHas l a := by
  rcases h with ⟨rfl, rfl⟩ | ⟨x, rfl, hx⟩
  · exact ⟨{}, ⟨fun k m => rfl, fun k m => rfl⟩, rfl, rfl, rfl, rfl⟩
  · refine ⟨{ system := { newSystem := boolOf a.newSystem, layout := a.system }, page := { newPage := boolOf a.newPage, pageLayout := a.page, pageNumber := x.pageNumber.map xsToken } }, scans_one ?_ ?_, rfl, rfl, rfl, ?_⟩
    · rw [readSystemInfo, system_read hx.system hk.system, Option.map_some, bool_read hx.newSystem]
    · rw [readPageInfo, page_read hx.page hk.page.fits, Option.map_some, bool_read hx.newPage]
    · rw [← hx.pageNumber]; exact words_map _

theorem bool_unused {b : Option Bool} (h : boolOf b = .unspecified) : b = none := by rcases b with _ | _ | _ <;> first | rfl | cases h

theorem print_written {l : LayoutData} {a : PrintSaid} {ps : List PrintElement} (h : LayoutHas l a) (hx : MeasurePrintSays ps a) (hk : PrintKept a) :
    ∃ y, writeMeasurePrint l = some y ∧ MeasurePrintSays y.toList a := by
  have hp : ∃ x, PageSays x a.page := by
    rcases hx with ⟨_, rfl⟩ | ⟨x, _, hx⟩
    · exact ⟨none, .inl ⟨rfl, rfl⟩⟩
    · exact ⟨_, hx.page⟩
  have hst : a.system.staffDistance = none := by
    rcases hx with ⟨_, rfl⟩ | ⟨x, _, hx⟩
    · rfl
    · exact hx.system.staffDistance
  obtain ⟨px, hp⟩ := hp
  obtain ⟨y2, a2, b2⟩ := page_written hp hk.page
  obtain ⟨y3, a3, b3⟩ := system_written hst hk.system
  have hsys : ∃ z, writeSystemInfo l.system = some z ∧ z.getD {} = { newSystem := a.newSystem.map yesNoText, system := (z.getD {}).system } ∧ SystemSays (z.getD {}).system a.system ∧ (z = none → l.system = {}) := by
    rw [writeSystemInfo]
    by_cases hu : l.system.isUsed = true
    · rw [if_pos hu, h.system, a3]
      refine ⟨_, rfl, ?_, b3, fun h => by cases h⟩
      show ({ newSystem := writeYesNo (boolOf a.newSystem), system := y3 } : PrintElement) = _
      rw [bool_written]
      rfl
    · rw [if_neg hu]
      have e := system_unused hu
      have e' := h.system
      rw [e] at e'
      have e1 : boolOf a.newSystem = .unspecified := (congrArg SystemData.newSystem e').symm
      have e2 : a.system = {} := (congrArg SystemData.layout e').symm
      refine ⟨none, rfl, by rw [bool_unused e1]; rfl, ?_, fun _ => e⟩
      rw [e2]
      exact ⟨.inl ⟨rfl, rfl⟩, .inl ⟨rfl, rfl⟩, .inl ⟨rfl, rfl⟩, rfl⟩
  obtain ⟨z, z1, z2, z3, z4⟩ := hsys
  rw [writeMeasurePrint, z1, Option.bind_some]
  by_cases hu : l.page.isUsed = true
  · rw [if_pos hu, writePageInfo, h.page, a2]
    refine ⟨_, rfl, .inr ⟨_, rfl, ?_⟩⟩
    refine { newSystem := ?_, newPage := ?_, pageNumber := ?_, page := b2, system := z3 }
    · show (z.getD {}).newSystem = _
      rw [z2]
    · show writeYesNo l.page.newPage = _
      rw [h.newPage, bool_written]
    · show (l.page.pageNumber.map xsToken).map words = _
      rw [words_map, h.number]
  · rw [if_neg hu]
    have e := pageData_unused hu
    have e1 : boolOf a.newPage = .unspecified := by rw [← h.newPage, e]
    have e2 : a.page = {} := by rw [← h.page, e]
    have e3 : a.pageNumber = none := by rw [← h.number, e]; rfl
    refine ⟨z, rfl, ?_⟩
    cases z with
    | none =>
      left
      refine ⟨rfl, ?_⟩
      have e' := h.system
      rw [z4 rfl] at e'
      have e4 : boolOf a.newSystem = .unspecified := (congrArg SystemData.newSystem e').symm
      have e5 : a.system = {} := (congrArg SystemData.layout e').symm
      obtain ⟨q1, q2, q3, q4, q5⟩ := a
      simp only at e1 e2 e3 e4 e5
      rw [bool_unused e1, e2, e3, bool_unused e4, e5]
    | some w =>
      right
      simp only [Option.getD_some] at z2 z3
      refine ⟨w, rfl, { newSystem := by rw [z2], newPage := ?_, pageNumber := ?_, page := ?_, system := z3 }⟩
      · rw [z2, bool_unused e1]; rfl
      · rw [z2, e3]; rfl
      · rw [e2, z2]; exact .inl ⟨rfl, rfl⟩

theorem layouts_read {ls : List LayoutData} {ms : List (List PrintElement)} (h : List.Forall₂ Scans ls ms) : readLayout ms = some (allEntries 0 ls) := by
  rw [readLayout]
  have h1 := scan_systems ls ms 0 [] h (fun e he => by cases he)
  have h2 := scan_pages ls ms 0 [] h (fun e he => by cases he)
  rw [h1, Option.bind_some]
  exact h2

theorem layoutAt_entries {ls : List LayoutData} {i : Nat} {l : LayoutData} (h : ls[i]? = some l) : layoutAt (allEntries 0 ls) (i : Int) = l := by
  by_cases hu : LayoutUsed l
  · have hm : ((i : Int), l) ∈ allEntries 0 ls := (mem_allEntries ls 0 _).mpr ⟨hu, i, by simp, h⟩
    exact layoutAt_mem (allEntries_sorted ls 0) hm
  · rcases layoutAt_cases (allEntries 0 ls) (i : Int) with e | e
    · rw [e]
      unfold LayoutUsed at hu
      exact (not_not.mp hu).symm
    · obtain ⟨_, j, h1, h2⟩ := (mem_allEntries ls 0 _).mp e
      have hj : j = i := by simp only at h1; omega
      subst hj
      rw [h] at h2
      exact (Option.some.inj h2).symm

theorem mapM_range {α : Type} {f : Nat → Option α} {g : Nat → α} {n : Nat} (h : ∀ i < n, f i = some (g i)) : (List.range n).mapM f = some ((List.range n).map g) := by
  have key : ∀ l : List Nat, (∀ i ∈ l, f i = some (g i)) → l.mapM f = some (l.map g) := by
    intro l
    induction l with
    | nil => intro _; rfl
    | cons i l ih =>
      intro hl
      rw [List.mapM_cons, hl i List.mem_cons_self, ih (fun j hj => hl j (List.mem_cons_of_mem _ hj))]
      rfl
  exact key _ (fun i hi => h i (List.mem_range.mp hi))

theorem prints_said {ms : List (List PrintElement)} {as : List PrintSaid} (hs : List.Forall₂ MeasurePrintSays ms as) (hk : ∀ a ∈ as, PrintKept a) :
    ∃ ns, printsThrough ms = some ns ∧ List.Forall₂ MeasurePrintSays ns as := by
  have hl : ∃ ls, List.Forall₂ Scans ls ms ∧ List.Forall₂ LayoutHas ls as := by
    induction hs with
    | nil => exact ⟨[], .nil, .nil⟩
    | @cons m a ms as h _ ih =>
      obtain ⟨ls, h1, h2⟩ := ih (fun b hb => hk b (List.mem_cons_of_mem _ hb))
      obtain ⟨l, h3, h4⟩ := print_read h (hk a List.mem_cons_self)
      exact ⟨l :: ls, .cons h3 h1, .cons h4 h2⟩
  obtain ⟨ls, h1, h2⟩ := hl
  have hlen : ms.length = as.length := hs.length_eq
  have hw : ∀ i < as.length, ∃ y a, as[i]? = some a ∧ writeMeasurePrint (layoutAt (allEntries 0 ls) (i : Int)) = some y ∧ MeasurePrintSays y.toList a := by
    intro i hi
    obtain ⟨hf1, hg1⟩ := List.forall₂_iff_get.mp h2
    obtain ⟨hf2, hg2⟩ := List.forall₂_iff_get.mp hs
    have i1 : i < ls.length := by omega
    have i2 : i < ms.length := by omega
    have hll : ls[i]? = some (ls.get ⟨i, i1⟩) := List.getElem?_eq_getElem i1
    have haa : as[i]? = some (as.get ⟨i, hi⟩) := List.getElem?_eq_getElem hi
    obtain ⟨y, y1, y2⟩ := print_written (hg1 i i1 hi) (hg2 i i2 hi) (hk _ (List.get_mem _ _))
    exact ⟨y, _, haa, by rw [layoutAt_entries hll]; exact y1, y2⟩
  have hg : ∃ g : Nat → Option PrintElement, ∀ i < as.length, writeMeasurePrint (layoutAt (allEntries 0 ls) (i : Int)) = some (g i) ∧ ∃ a, as[i]? = some a ∧ MeasurePrintSays (g i).toList a := by
    refine ⟨fun i => (writeMeasurePrint (layoutAt (allEntries 0 ls) (i : Int))).getD none, fun i hi => ?_⟩
    obtain ⟨y, a, e1, e2, e3⟩ := hw i hi
    simp only [e2, Option.getD_some]
    exact ⟨trivial, a, e1, e3⟩
  obtain ⟨g, hg⟩ := hg
  refine ⟨((List.range as.length).map g).map Option.toList, ?_, ?_⟩
  · rw [printsThrough, layouts_read h1, Option.bind_some, writePrints, hlen, mapM_range (fun i hi => (hg i hi).1)]
    rfl
  · rw [List.forall₂_iff_get]
    refine ⟨by simp, fun i hi1 hi2 => ?_⟩
    obtain ⟨_, a, e1, e2⟩ := hg i hi2
    rw [List.getElem?_eq_getElem hi2] at e1
    simp only [List.get_eq_getElem, List.getElem_map, List.getElem_range]
    rw [Option.some.inj e1]
    exact e2

end Mx
