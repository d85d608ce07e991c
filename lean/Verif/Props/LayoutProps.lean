import Verif.Proofs.Layout

/-
Property C46: page and system layout of the score and of measures.
-/
open Spec
namespace Mx.Props
open Mx.Spec

/-- A4 with different margins on odd and even pages, system layout, appearances. -/
def sampleDefaults : DefaultsData :=
  { scalingMillimeters := 7, scalingTenths := 40
    pageLayout := { size := some { height := 16978 / 10, width := 1200 }
                    margins := { odd := some { left := 70, right := 70, top := 88, bottom := 88 }, even := some { left := 80, right := 60, top := 88, bottom := 177 / 2 } } }
    systemLayout := { margins := some { left := -5, right := 0 }, systemDistance := some 121, topSystemDistance := some (141 / 2), staffDistance := some 93 }
    appearance := [{ type := .lineWidth, subType := chars "stem", value := 3 / 4 }, { type := .lineWidth, subType := chars "my line", value := 2 },
                   { type := .noteSize, subType := chars "grace", value := 60 }, { type := .distance, subType := chars "hyphen", value := 60 }] }

theorem length_of {v : ℚ} (c : Int) (h : v * 10 ^ 6 = c) (hb : |v| ≤ 9999999999999999999) : LengthFits v := ⟨⟨c, h⟩, hb⟩

/-- Each length of the samples. -/
macro "fits" c:term : term => `(length_of $c (by norm_num) (by norm_num [abs]))

theorem sampleDefaults_fits : DefaultsFit sampleDefaults where
  millimeters := show LengthFits 7 from fits 7000000
  tenths := show LengthFits 40 from fits 40000000
  page := {
    size := by intro s hs; cases hs; exact ⟨fits 1697800000, fits 1200000000⟩
    odd := by intro m hm; cases hm; exact ⟨fits 70000000, fits 70000000, fits 88000000, fits 88000000⟩
    even := by intro m hm; cases hm; exact ⟨fits 80000000, fits 60000000, fits 88000000, fits 88500000⟩ }
  system := {
    margins := by intro m hm; cases hm; exact ⟨fits (-5000000), fits 0⟩
    systemDistance := by intro m hm; cases hm; exact fits 121000000
    topSystemDistance := by intro m hm; cases hm; exact fits 70500000
    staffDistance := by intro m hm; cases hm; exact fits 93000000 }
  appearance := by
    intro a ha
    simp only [sampleDefaults, List.mem_cons, List.not_mem_nil, or_false] at ha
    rcases ha with rfl | rfl | rfl | rfl
    · exact fits 750000
    · exact fits 2000000
    · exact fits 60000000
    · exact fits 60000000

/-- **C46** exactly: what comes back of the defaults of every score. -/
theorem C46_defaults (d : DefaultsData) (h : DefaultsFit d) : defaultsBack d = some (keptDefaults d) := defaults_back h

example : defaultsBack sampleDefaults = some sampleDefaults := by
  rw [C46_defaults _ sampleDefaults_fits]
  decide +kernel

/-- **C46** Page size, odd and even page margins come back: if there is a size or nothing, and no margin is negative, the page layout of the score is unchanged, whatever the
other defaults are. -/
theorem C46_page_layout_partial (d : DefaultsData) (h : DefaultsFit d) (hs : d.pageLayout.size = none → d.pageLayout.margins = {})
    (ho : ∀ m ∈ d.pageLayout.margins.odd, 0 ≤ m.left ∧ 0 ≤ m.right ∧ 0 ≤ m.top ∧ 0 ≤ m.bottom)
    (he : ∀ m ∈ d.pageLayout.margins.even, 0 ≤ m.left ∧ 0 ≤ m.right ∧ 0 ≤ m.top ∧ 0 ≤ m.bottom) :
    ∃ e, defaultsBack d = some e ∧ e.pageLayout = d.pageLayout := ⟨_, C46_defaults d h, keptPage_self hs ho he⟩

example : ∃ e, defaultsBack sampleDefaults = some e ∧ e.pageLayout = sampleDefaults.pageLayout :=
  C46_page_layout_partial _ sampleDefaults_fits (fun h => by cases h) (by intro m hm; cases hm; norm_num) (by intro m hm; cases hm; norm_num)

/-- **C46** System margins and distances of the score come back unchanged if there is no top system distance without margins. -/
theorem C46_system_layout_partial (d : DefaultsData) (h : DefaultsFit d) (ht : d.systemLayout.margins = none → d.systemLayout.topSystemDistance = none) :
    ∃ e, defaultsBack d = some e ∧ e.systemLayout = d.systemLayout := ⟨_, C46_defaults d h, keptSystem_self ht⟩

example : ∃ e, defaultsBack sampleDefaults = some e ∧ e.systemLayout = sampleDefaults.systemLayout := C46_system_layout_partial _ sampleDefaults_fits (fun h => by cases h)

/-- **C46** Defaults that have only what the writer can express come back unchanged as a whole. -/
theorem C46_defaults_partial (d : DefaultsData) (h : DefaultsFit d) (hp : PlainDefaults d) : defaultsBack d = some d := by
  rw [C46_defaults d h, keptDefaults_self hp]

example : defaultsBack sampleDefaults = some sampleDefaults :=
  C46_defaults_partial _ sampleDefaults_fits
    ⟨Or.inr (by decide +kernel), fun h => (by cases h), fun m hm => (by cases hm; norm_num), fun m hm => (by cases hm; norm_num), fun h => (by cases h), by decide +kernel,
     by decide +kernel, rfl⟩

/-- **C46** What is unspecified stays unspecified. -/
theorem C46_unspecified (d : DefaultsData) (h : DefaultsFit d) (hs : d.pageLayout = {}) (hl : d.systemLayout = {}) :
    ∃ e, defaultsBack d = some e ∧ e.pageLayout = {} ∧ e.systemLayout = {} := by
  refine ⟨_, C46_defaults d h, ?_, ?_⟩
  · show keptPage _ = _
    rw [hs]; rfl
  · show keptSystem _ = _
    rw [hl]; rfl

example : ∃ e, defaultsBack { scalingMillimeters := 7, scalingTenths := 40 } = some e ∧ e.pageLayout = {} ∧ e.systemLayout = {} :=
  C46_unspecified _ ⟨fits 7000000, fits 40000000, empty_layout_fits.page, empty_layout_fits.system, fun _ h => (by cases h)⟩ rfl rfl

/-! ### Measures -/

/-- A new system with its own margins in measure 3, a new page with its own size in measures 0 and 3. -/
def sampleLayouts : List (Int × LayoutData) :=
  [(0, { page := { newPage := .yes, pageNumber := some (chars "iv") } }),
   (3, { system := { newSystem := .yes, layout := { margins := some { left := 10, right := -10 }, systemDistance := some 65, topSystemDistance := some 70 } }
         page := { newPage := .no, pageLayout := { size := some { height := 1700, width := 1200 }, margins := { even := some { left := 80, right := 80, top := 81, bottom := 82 } } } } }),
   (7, { system := { newSystem := .no } })]

theorem sampleLayouts_fit : ∀ e ∈ sampleLayouts, LayoutFits e.2 := by
  intro e he
  simp only [sampleLayouts, List.mem_cons, List.not_mem_nil, or_false] at he
  rcases he with rfl | rfl | rfl
  · exact ⟨empty_layout_fits.system, empty_layout_fits.page⟩
  · refine ⟨⟨?_, ?_, ?_, ?_⟩, ⟨?_, ?_, ?_⟩⟩
    · intro m hm; cases hm; exact ⟨fits 10000000, fits (-10000000)⟩
    · intro m hm; cases hm; exact fits 65000000
    · intro m hm; cases hm; exact fits 70000000
    · intro m hm; cases hm
    · intro m hm; cases hm; exact ⟨fits 1700000000, fits 1200000000⟩
    · intro m hm; cases hm
    · intro m hm; cases hm; exact ⟨fits 80000000, fits 80000000, fits 81000000, fits 82000000⟩
  · exact ⟨empty_layout_fits.system, empty_layout_fits.page⟩

/-- **C46** exactly: what comes back of the layouts of the measures of every score. -/
theorem C46_layouts (n : Nat) (m : List (Int × LayoutData)) (h : IsMap m) (hf : ∀ e ∈ m, LayoutFits e.2) : layoutsBack n m = some (keptLayouts n m) := layouts_back n h hf

example : layoutsBack 8 sampleLayouts = some sampleLayouts ∧ layoutsBack 7 sampleLayouts = some (sampleLayouts.take 2) := by
  rw [C46_layouts _ _ (by decide +kernel) sampleLayouts_fit, C46_layouts _ _ (by decide +kernel) sampleLayouts_fit]
  decide +kernel

/-- **C46** The layouts of the measures come back unchanged if each belongs to an existing measure, says something, and has only what the writer can express. -/
theorem C46_layouts_partial (n : Nat) (m : List (Int × LayoutData)) (h : IsMap m) (hf : ∀ e ∈ m, LayoutFits e.2) (hm : ∀ e ∈ m, 0 ≤ e.1 ∧ e.1 < n)
    (hu : ∀ e ∈ m, e.2 ≠ {}) (hp : ∀ e ∈ m, PlainLayout e.2) : layoutsBack n m = some m := by
  rw [C46_layouts n m h hf, keptLayouts_self hm hu hp]

example : layoutsBack 8 sampleLayouts = some sampleLayouts := by
  refine C46_layouts_partial 8 _ (by decide +kernel) sampleLayouts_fit (by decide +kernel) (by decide +kernel) ?_
  intro e he
  simp only [sampleLayouts, List.mem_cons, List.not_mem_nil, or_false] at he
  rcases he with rfl | rfl | rfl
  · exact ⟨rfl, fun _ => rfl, fun _ h => (by cases h), fun _ h => (by cases h), fun p hp => (by cases hp; decide +kernel)⟩
  · exact ⟨rfl, fun h => (by cases h), fun _ h => (by cases h), fun m hm => (by cases hm; norm_num), fun p hp => (by cases hp)⟩
  · exact ⟨rfl, fun _ => rfl, fun _ h => (by cases h), fun _ h => (by cases h), fun p hp => (by cases hp)⟩

/-! ### Findings -/

/-- Page margins without a page size come back with the page size 0 by 0. -/
theorem C46_size_fabricated : ∃ d, DefaultsFit d ∧ d.pageLayout.size = none ∧ ∃ e, defaultsBack d = some e ∧ e.pageLayout.size = some { height := 0, width := 0 } := by
  refine ⟨{ pageLayout := { margins := { odd := some {} } } }, ⟨fits (-1000000), fits (-1000000), ⟨fun _ h => (by cases h), fun m h => ?_, fun _ h => (by cases h)⟩,
    empty_layout_fits.system, fun _ h => (by cases h)⟩, rfl, ?_⟩
  · cases h; exact ⟨zero_fits, zero_fits, zero_fits, zero_fits⟩
  · refine ⟨_, C46_defaults _ ⟨fits (-1000000), fits (-1000000), ⟨fun _ h => (by cases h), fun m h => ?_, fun _ h => (by cases h)⟩,
    empty_layout_fits.system, fun _ h => (by cases h)⟩, by decide +kernel⟩
    cases h; exact ⟨zero_fits, zero_fits, zero_fits, zero_fits⟩

/-- Every score that has a top system distance and no system margins comes back with system margins 0. -/
theorem C46_margins_fabricated (d : DefaultsData) (h : DefaultsFit d) (hm : d.systemLayout.margins = none) (ht : d.systemLayout.topSystemDistance ≠ none) :
    ∃ e, defaultsBack d = some e ∧ e.systemLayout.margins = some { left := 0, right := 0 } :=
  ⟨_, C46_defaults d h, by show (keptSystem _).margins = _; rw [keptSystem, if_pos ⟨hm, ht⟩]⟩

example : ∃ e, defaultsBack { systemLayout := { topSystemDistance := some 70 } } = some e ∧ e.systemLayout.margins = some { left := 0, right := 0 } :=
  C46_margins_fabricated _ ⟨fits (-1000000), fits (-1000000), empty_layout_fits.page,
    ⟨fun _ h => (by cases h), fun _ h => (by cases h), fun _ h => (by cases h; exact fits 70000000), fun _ h => (by cases h)⟩, fun _ h => (by cases h)⟩ rfl (by decide)

/-- The staff distance of a measure never comes back. -/
theorem C46_staff_distance_lost (n : Nat) (m : List (Int × LayoutData)) (h : IsMap m) (hf : ∀ e ∈ m, LayoutFits e.2) :
    ∃ r, layoutsBack n m = some r ∧ ∀ e ∈ r, e.2.system.layout.staffDistance = none := by
  refine ⟨_, C46_layouts n m h hf, ?_⟩
  intro e he
  obtain ⟨he, _⟩ := List.mem_filter.mp he
  obtain ⟨x, _, rfl⟩ := List.mem_map.mp he
  rfl

example : layoutsBack 1 [(0, { system := { layout := { staffDistance := some 70 } } })] = some [] := by
  rw [C46_layouts _ _ (by decide +kernel) ?_]
  · decide +kernel
  · intro e he
    rw [List.mem_singleton.mp he]
    exact ⟨⟨fun _ h => (by cases h), fun _ h => (by cases h), fun _ h => (by cases h), fun _ h => (by cases h; exact fits 70000000)⟩, empty_layout_fits.page⟩

/-- The measure numbering of the defaults never comes back. -/
theorem C46_measure_numbering_lost (d : DefaultsData) (h : DefaultsFit d) : ∃ e, defaultsBack d = some e ∧ e.measureNumbering = .unspecified := ⟨_, C46_defaults d h, rfl⟩

example : ∃ e, defaultsBack { sampleDefaults with measureNumbering := .system } = some e ∧ e.measureNumbering = .unspecified :=
  C46_measure_numbering_lost _ ⟨sampleDefaults_fits.millimeters, sampleDefaults_fits.tenths, sampleDefaults_fits.page, sampleDefaults_fits.system, sampleDefaults_fits.appearance⟩

/-- An other appearance comes back as a distance of length 0. -/
theorem C46_other_appearance_lost : ∃ d : DefaultsData, DefaultsFit d ∧ d.appearance = [{ type := .otherAppearance, subType := chars "x", value := 5 }] ∧
    ∃ e, defaultsBack d = some e ∧ e.appearance = [{ type := .distance, subType := chars "x", value := 0 }] := by
  have h : DefaultsFit { appearance := [{ type := .otherAppearance, subType := chars "x", value := 5 }] } :=
    ⟨fits (-1000000), fits (-1000000), empty_layout_fits.page, empty_layout_fits.system, fun a ha => by rw [List.mem_singleton.mp ha]; exact fits 5000000⟩
  exact ⟨_, h, rfl, _, C46_defaults _ h, by decide +kernel⟩

/-- Two defaults that differ in the scaling are equal for the API: `==` does not look at it. -/
theorem C46_scaling_not_compared (d : DefaultsData) (x y : ℚ) : DefaultsData.eq d { d with scalingMillimeters := x, scalingTenths := y } = true := by
  unfold DefaultsData.eq; simp

/-- **C46** Margins without a type in a document are those of all pages, as the documentation of MusicXML says. -/
theorem C46_untyped_margins (x : PageMarginsXml) (hx : x.type = none) (m r : PageMarginsData) (h : addMargins m x = some r) : ∃ v, readMargins x = some v ∧ r = { odd := some v, even := some v } := by
  cases hv : readMargins x with
  | none => rw [addMargins, hv] at h; cases h
  | some v =>
    have ht : marginType x = .both := by rw [marginType, hx]; rfl
    rw [addMargins, hv, ht] at h
    exact ⟨v, rfl, (Option.some.inj h).symm⟩

end Mx.Props
