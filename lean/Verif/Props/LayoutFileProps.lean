import Verif.Proofs.LayoutSaid

/-!
# Property C108: the layout of a file stays
-/
namespace Mx.Props
open _root_.Spec Mx.Spec

/-- **C108 (partial)** What the `<defaults>` of a document say (scaling, page size and margins, system margins and distances, staff distance, line widths, note sizes, distances), within what the program keeps (`DefaultsKept`), and what
the `<print>` elements of all measures say (new systems, new pages, page numbers, layouts) is the same after any number of loads and saves, which all succeed.  Missing: the witnesses below. -/
theorem C108_layout_partial (n : Nat) (x : Option DefaultsXml) (ms : List (List PrintElement)) (a : DefaultsSaid) (as : List PrintSaid) (hx : DefaultsSays (x.getD {}) a) (ha : DefaultsKept a)
    (hm : List.Forall₂ MeasurePrintSays ms as) (has : ∀ b ∈ as, PrintKept b) :
    ∃ y ns, layoutThroughTimes n (x, ms) = some (y, ns) ∧ DefaultsSays (y.getD {}) a ∧ List.Forall₂ MeasurePrintSays ns as := by
  induction n generalizing x ms with
  | zero => exact ⟨x, ms, rfl, hx, hm⟩
  | succ n ih =>
    obtain ⟨y, h1, h2⟩ := defaults_said hx ha
    obtain ⟨ns, h3, h4⟩ := prints_said hm has
    obtain ⟨z, ps, h5, h6⟩ := ih y ns h2 h4
    exact ⟨z, ps, by rw [layoutThroughTimes, h1, Option.bind_some, h3, Option.bind_some, h5], h6⟩

/-- Texts of natural numbers are decimal texts. -/
theorem plainDecimal (s : Str) (v : ℚ) (h1 : ∀ c ∈ s, Digit c) (h2 : s ≠ []) (h3 : v = decimalVal s [] * 10 ^ (0 : Int)) : DecimalText s v :=
  ⟨[], [], s, [], [], [], [], by simp, by simp, by simp, h1, by simp, by simpa using h2, .inr ⟨rfl, rfl⟩, 0, .inl ⟨rfl, rfl⟩, .inr ⟨.inl rfl, h3⟩⟩

theorem integer_fits (n : Int) (h : |(n : ℚ)| ≤ 9999999999999999999) : LengthFits n := ⟨⟨n * 1000000, by push_cast; norm_num⟩, h⟩

/-- Margins in the file: the even pages come first, zeros in front of numbers. -/
def exDefaults : DefaultsXml :=
  { scaling := some (chars "7", chars "040")
    page := some { height := chars "1683", width := chars "1190", margins := [⟨some (chars "even"), chars "70", chars "70", chars "88", chars "088"⟩, ⟨some (chars "odd"), chars "80", chars "60", chars "88", chars "88"⟩] }
    system := some { margins := some (chars "0", chars "00"), systemDistance := some (chars "121"), topSystemDistance := some (chars "70") }
    staves := [some (chars "65")], appearance := some { lineWidths := [(chars "stem", chars "1")], noteSizes := [(chars "grace", chars "060")] } }

/-- What they say. -/
def exDefaultsSaid : DefaultsSaid :=
  { scaling := some (7, 40), page := { size := some { height := 1683, width := 1190 }, margins := { odd := some ⟨80, 60, 88, 88⟩, even := some ⟨70, 70, 88, 88⟩ } }
    system := { margins := some ⟨0, 0⟩, systemDistance := some 121, topSystemDistance := some 70 }, staves := [some 65], lineWidths := [(chars "stem", 1)], noteSizes := [(chars "grace", 60)] }

theorem exDefaults_says : DefaultsSays exDefaults exDefaultsSaid := by
  have d : ∀ (s : Str) (v : ℚ), (decide ((∀ c ∈ s, Digit c) ∧ s ≠ [] ∧ v = decimalVal s [] * 10 ^ (0 : Int))) = true → DecimalText s v := by
    intro s v h
    obtain ⟨h1, h2, h3⟩ := of_decide_eq_true h
    exact plainDecimal s v h1 h2 h3
  refine { scaling := .inr ⟨_, _, _, _, rfl, rfl, d _ _ (by decide +kernel), d _ _ (by decide +kernel)⟩, page := .inr ⟨_, _, _, _, rfl, d _ _ (by decide +kernel), d _ _ (by decide +kernel), ?_, rfl⟩, system := ?_
           staves := .cons (.inr ⟨_, _, rfl, rfl, d _ _ (by decide +kernel)⟩) .nil, lineWidths := .cons ⟨rfl, d _ _ (by decide +kernel)⟩ .nil, noteSizes := .cons ⟨rfl, d _ _ (by decide +kernel)⟩ .nil, distances := .nil, others := rfl }
  · refine .inr (.inr (.inr (.inr ⟨_, _, _, _, .inr rfl, ⟨.inl rfl, ?_, ?_, ?_, ?_⟩, ⟨.inl rfl, ?_, ?_, ?_, ?_⟩, rfl⟩))) <;> exact d _ _ (by decide +kernel)
  · exact ⟨.inr ⟨_, _, _, _, rfl, rfl, d _ _ (by decide +kernel), d _ _ (by decide +kernel)⟩, .inr ⟨_, _, rfl, rfl, d _ _ (by decide +kernel)⟩, .inr ⟨_, _, rfl, rfl, d _ _ (by decide +kernel)⟩, rfl⟩

theorem exDefaults_kept : DefaultsKept exDefaultsSaid := by
  have f : ∀ n : Int, 0 ≤ n → n ≤ 10000 → LengthFits (n : ℚ) := by
    intro n h1 h2
    refine integer_fits n ?_
    rw [abs_of_nonneg (by exact_mod_cast h1)]
    have : (n : ℚ) ≤ 10000 := by exact_mod_cast h2
    linarith
  have f0 : LengthFits 0 := by exact_mod_cast f 0 (by decide) (by decide)
  have f1 : LengthFits 1 := by exact_mod_cast f 1 (by decide) (by decide)
  have f7 : LengthFits 7 := by exact_mod_cast f 7 (by decide) (by decide)
  have f40 : LengthFits 40 := by exact_mod_cast f 40 (by decide) (by decide)
  have f60 : LengthFits 60 := by exact_mod_cast f 60 (by decide) (by decide)
  have f65 : LengthFits 65 := by exact_mod_cast f 65 (by decide) (by decide)
  have f70 : LengthFits 70 := by exact_mod_cast f 70 (by decide) (by decide)
  have f80 : LengthFits 80 := by exact_mod_cast f 80 (by decide) (by decide)
  have f88 : LengthFits 88 := by exact_mod_cast f 88 (by decide) (by decide)
  have f121 : LengthFits 121 := by exact_mod_cast f 121 (by decide) (by decide)
  have f1190 : LengthFits 1190 := by exact_mod_cast f 1190 (by decide) (by decide)
  have f1683 : LengthFits 1683 := by exact_mod_cast f 1683 (by decide) (by decide)
  exact {
    scaling := fun v h => by cases h; exact ⟨f7, f40, by norm_num, by norm_num, .inl (by norm_num)⟩
    page := { fits := ⟨fun s h => by cases h; exact ⟨f1683, f1190⟩, fun s h => by cases h; exact ⟨f80, f60, f88, f88⟩, fun s h => by cases h; exact ⟨f70, f70, f88, f88⟩⟩
              odd := fun s h => by cases h; exact ⟨by norm_num, by norm_num, by norm_num, by norm_num⟩, even := fun s h => by cases h; exact ⟨by norm_num, by norm_num, by norm_num, by norm_num⟩ }
    system := ⟨fun s h => by cases h; exact ⟨f0, f0⟩, fun s h => by cases h; exact f121, fun s h => by cases h; exact f70, fun s h => by cases h⟩
    top := fun h => by cases h
    staves := .inr ⟨65, rfl, f65⟩
    lineWidths := fun e h => by rw [List.mem_singleton.mp h]; exact ⟨by decide, f1⟩
    noteSizes := fun e h => by rw [List.mem_singleton.mp h]; exact ⟨.inr (.inl rfl), f60, by norm_num⟩
    distances := fun e h => by cases h
    others := rfl }

/-- Three measures: the second begins a page with a number of two words. -/
def exPrints : List (List PrintElement) := [[], [{ newPage := some (chars "yes"), newSystem := some (chars "no"), pageNumber := some (chars " 2  a ") }], []]

/-- What they say. -/
def exPrintsSaid : List PrintSaid := [{}, { newPage := some true, newSystem := some false, pageNumber := some [chars "2", chars "a"] }, {}]

theorem exPrints_say : List.Forall₂ MeasurePrintSays exPrints exPrintsSaid :=
  .cons (.inl ⟨rfl, rfl⟩) (.cons (.inr ⟨_, rfl, ⟨rfl, rfl, by decide +kernel, .inl ⟨rfl, rfl⟩, ⟨.inl ⟨rfl, rfl⟩, .inl ⟨rfl, rfl⟩, .inl ⟨rfl, rfl⟩, rfl⟩⟩⟩) (.cons (.inl ⟨rfl, rfl⟩) .nil))

theorem nothing_kept (a : PrintSaid) (h1 : a.page = {}) (h2 : a.system = {}) : PrintKept a :=
  ⟨by rw [h1]; exact ⟨⟨fun s h => (by cases h), fun s h => (by cases h), fun s h => (by cases h)⟩, fun s h => (by cases h), fun s h => (by cases h)⟩,
   by rw [h2]; exact ⟨fun s h => (by cases h), fun s h => (by cases h), fun s h => (by cases h), fun s h => (by cases h)⟩⟩

example (n : Nat) : ∃ y ns, layoutThroughTimes n (some exDefaults, exPrints) = some (y, ns) ∧ DefaultsSays (y.getD {}) exDefaultsSaid ∧ List.Forall₂ MeasurePrintSays ns exPrintsSaid :=
  C108_layout_partial n (some exDefaults) exPrints exDefaultsSaid exPrintsSaid exDefaults_says exDefaults_kept exPrints_say (by
    intro b hb
    refine nothing_kept b ?_ ?_
    · revert b; decide
    · revert b; decide)

/-- **C108** is not true of the distances of several staves: only the first is left. -/
theorem C108_staves (x : Option DefaultsXml) (y : DefaultsXml) (h : defaultsThrough x = some (some y)) : y.staves.length ≤ 1 := by
  obtain ⟨d, _, h⟩ := Option.bind_eq_some_iff.mp h
  obtain ⟨z, hz, h⟩ := Option.map_eq_some_iff.mp h
  split at h
  · cases h
  · cases h
    rw [writeDefaults] at hz
    obtain ⟨_, _, hz⟩ := Option.bind_eq_some_iff.mp hz
    obtain ⟨_, _, hz⟩ := Option.bind_eq_some_iff.mp hz
    obtain ⟨_, _, hz⟩ := Option.bind_eq_some_iff.mp hz
    obtain ⟨s, _, hz⟩ := Option.bind_eq_some_iff.mp hz
    obtain ⟨_, _, hz⟩ := Option.bind_eq_some_iff.mp hz
    cases hz
    cases s with
    | none => exact Nat.zero_le _
    | some s => exact le_refl _

/-- Two staves. -/
example : (defaultsThrough (some { staves := [some (chars "65"), some (chars "80")] })) = some (some { staves := [some (chars "65")] }) := by decide +kernel

/-- **C108** is not true of a top system distance without margins: margins are invented. -/
theorem C108_margins_invented : defaultsThrough (some { system := some { topSystemDistance := some (chars "70") } }) =
    some (some { system := some { margins := some (chars "0", chars "0"), topSystemDistance := some (chars "70") } }) := by decide +kernel

/-- **C108** is not true of negative margins of pages, which the schema allows: they become 0. -/
theorem C108_negative_margins : printsThrough [[{ page := some { height := chars "1683", width := chars "1190", margins := [⟨none, chars "-5", chars "70", chars "88", chars "88"⟩] } }]] =
    some [[{ page := some { height := chars "1683", width := chars "1190", margins := [⟨some (chars "both"), chars "0", chars "70", chars "88", chars "88"⟩] } }]] := by decide +kernel

/-- **C108** is not true of other appearances: they become distances of length 0. -/
theorem C108_other_appearance : defaultsThrough (some { appearance := some { others := [chars "style"] } }) = some (some { appearance := some { distances := [(chars "style", chars "0")] } }) := by decide +kernel

/-- Two `<print>` elements in one measure become one, in which the second page layout and the second system layout are. -/
theorem C108_two_prints : printsThrough [[{ newSystem := some (chars "yes"), system := some { systemDistance := some (chars "70") } }, { newSystem := some (chars "no") }]] = some [[{ newSystem := some (chars "no") }]] := by
  decide +kernel

end Mx.Props
