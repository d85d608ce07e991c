import Verif.Proofs.ApiData

/-
C34 (sorting a score), C35 (locations), C44 (names of note lengths), C57 (queries of a score).
-/
namespace Mx.Props
open Mx Mx.Spec Mx.Measure

/-! ### C35 -/

/-- **C35 (partial)** For a score in which every part has measures and every measure has staves, `isValid` never throws and says exactly
whether the part, the measure and the staff exist. -/
theorem C35_location_partial (score : List (List Nat)) (p s m : Int) (hs : score ≠ []) (hp : ∀ part ∈ score, part ≠ [])
    (hm : ∀ part ∈ score, ∀ staves ∈ part, 0 < staves ∧ staves < 2 ^ 64) (hl : score.length < 2 ^ 64) (hpl : ∀ part ∈ score, part.length < 2 ^ 64) :
    ∃ b, isValidLocation score p s m = some b ∧ (b = true ↔ LocationExists score p s m) := by
  unfold isValidLocation LocationExists
  by_cases hneg : p < 0 ∨ s < 0 ∨ m < 0
  · refine ⟨false, by rw [if_pos hneg], by simp, ?_⟩
    rintro ⟨p', s', m', _, _, rfl, rfl, rfl, _⟩
    omega
  rw [if_neg hneg]
  obtain ⟨p', rfl⟩ : ∃ p' : Nat, p = p' := ⟨p.toNat, by omega⟩
  obtain ⟨s', rfl⟩ : ∃ s' : Nat, s = s' := ⟨s.toNat, by omega⟩
  obtain ⟨m', rfl⟩ : ∃ m' : Nat, m = m' := ⟨m.toNat, by omega⟩
  simp only [Int.toNat_natCast, Int.natCast_inj]
  have hlen : 0 < score.length := List.length_pos_iff.mpr hs
  rw [sizeMinusOne_pos hlen hl]
  by_cases h1 : p' > score.length - 1
  · refine ⟨false, by rw [if_pos h1], by simp, ?_⟩
    rintro ⟨_, _, _, part, _, rfl, _, _, h, _⟩
    have := (List.getElem?_eq_some_iff.mp h).1
    omega
  rw [if_neg h1]
  have h1' : p' < score.length := by omega
  obtain ⟨part, hpart⟩ : ∃ part, score[p']? = some part := ⟨_, List.getElem?_eq_getElem h1'⟩
  have hmem : part ∈ score := List.mem_of_getElem? hpart
  rw [hpart]
  simp only
  rw [sizeMinusOne_pos (List.length_pos_iff.mpr (hp part hmem)) (hpl part hmem)]
  have hplen : 0 < part.length := List.length_pos_iff.mpr (hp part hmem)
  by_cases h2 : m' > part.length - 1
  · refine ⟨false, by rw [if_pos h2], by simp, ?_⟩
    rintro ⟨_, _, _, part', _, rfl, _, rfl, h, h', _⟩
    rw [hpart] at h
    obtain rfl := Option.some.inj h
    have := (List.getElem?_eq_some_iff.mp h').1
    omega
  rw [if_neg h2]
  obtain ⟨st, hst⟩ : ∃ st, part[m']? = some st := ⟨_, List.getElem?_eq_getElem (by omega)⟩
  have hsm := hm part hmem st (List.mem_of_getElem? hst)
  rw [hst]
  simp only
  rw [sizeMinusOne_pos hsm.1 hsm.2]
  by_cases h3 : s' > st - 1
  · refine ⟨false, by rw [if_pos h3], by simp, ?_⟩
    rintro ⟨_, _, _, part', st', rfl, rfl, rfl, h, h', h''⟩
    rw [hpart] at h
    obtain rfl := Option.some.inj h
    rw [hst] at h'
    obtain rfl := Option.some.inj h'
    omega
  · refine ⟨true, by rw [if_neg h3], fun _ => ⟨p', s', m', part, st, rfl, rfl, rfl, hpart, hst, by omega⟩, fun _ => rfl⟩

example : isValidLocation [[2, 2], [1, 1, 1]] 0 1 1 = some true ∧ isValidLocation [[2, 2], [1, 1, 1]] 1 1 2 = some false ∧
    isValidLocation [[2, 2], [1, 1, 1]] 0 0 2 = some false ∧ isValidLocation [[2, 2], [1, 1, 1]] 2 0 0 = some false ∧
    isValidLocation [[2, 2], [1, 1, 1]] 0 0 (-1) = some false := by decide +kernel

/-- **C35 is false**: `isValid` throws for every location with indices that are not negative if the score has no parts, or the part has no measures. -/
theorem C35_throws_on_empty (score : List (List Nat)) (p s m : Nat) (hp : p < 2 ^ 31) (hm : m < 2 ^ 31) (hl : score.length < 2 ^ 64)
    (h : score = [] ∨ score[p]? = some []) : isValidLocation score p s m = none := by
  unfold isValidLocation
  rw [if_neg (by omega)]
  simp only [Int.toNat_natCast]
  rcases h with rfl | h
  · rw [List.length_nil, sizeMinusOne_zero, if_neg (by omega)]
    rfl
  · have := (List.getElem?_eq_some_iff.mp h).1
    rw [sizeMinusOne_pos (by omega) hl, if_neg (by omega), h]
    simp only [List.length_nil]
    have hz : ¬ m > sizeMinusOne 0 := by rw [sizeMinusOne_zero]; omega
    rw [if_neg hz]
    rfl

example : isValidLocation [] 0 0 0 = none ∧ isValidLocation [[1], []] 1 0 0 = none := by decide +kernel

/-- **C35 is false**: in a measure without staves every staff is taken to exist. -/
theorem C35_no_staves_but_valid (score : List (List Nat)) (part : List Nat) (p s m : Nat) (hs : s < 2 ^ 31) (hl : score.length < 2 ^ 64)
    (hpl : part.length < 2 ^ 64) (h : score[p]? = some part) (h' : part[m]? = some 0) :
    isValidLocation score p s m = some true ∧ ¬ LocationExists score p s m := by
  constructor
  · unfold isValidLocation
    rw [if_neg (by omega)]
    simp only [Int.toNat_natCast]
    have h1 := (List.getElem?_eq_some_iff.mp h).1
    have h2 := (List.getElem?_eq_some_iff.mp h').1
    rw [sizeMinusOne_pos (by omega) hl, if_neg (by omega), h]
    simp only
    rw [sizeMinusOne_pos (by omega) hpl, if_neg (by omega), h']
    simp only
    rw [sizeMinusOne_zero, if_neg (by omega)]
  · rintro ⟨p', s', m', part', st, e1, e2, e3, h1, h2, h3⟩
    obtain rfl : p = p' := by omega
    obtain rfl : m = m' := by omega
    rw [h] at h1
    obtain rfl := Option.some.inj h1
    rw [h'] at h2
    obtain rfl := Option.some.inj h2
    omega

example : isValidLocation [[0]] 0 7 0 = some true := by decide +kernel

/-! ### C34 -/

/-- **C34 (partial)** Sorting a score sorts the clefs, the directions and every voice of every staff by time, whatever the implementation of `std::sort`, and changes
nothing else. -/
theorem C34_sorted_partial {P : Type} (σ : StdSort) (parts : List (List (MeasureData P))) :
    (∀ i j k, staffAt parts i j k = none → staffAt (sortScore σ parts) i j k = none) ∧
    (∀ i j, measureRest (sortScore σ parts) i j = measureRest parts i j) ∧
    (∀ i j k s, staffAt parts i j k = some s → ∃ s', staffAt (sortScore σ parts) i j k = some s' ∧
      SortedByTime (·.tick) s.clefs s'.clefs ∧ SortedByTime (·.tick) s.directions s'.directions ∧ s'.keys = s.keys ∧
      s'.voices.length = s.voices.length ∧
      ∀ (v : Nat) (n : Int) (notes : List (NoteData P)), s.voices[v]? = some (n, notes) →
        ∃ notes', s'.voices[v]? = some (n, notes') ∧ SortedByTime (fun (x : NoteData P) => x.tick) notes notes') := by
  refine ⟨?_, ?_, ?_⟩
  · intro i j k h
    rw [staffAt_sort, h]; rfl
  · intro i j
    unfold measureRest sortScore
    rw [List.getElem?_map]
    cases parts[i]? with
    | none => rfl
    | some ms =>
      simp only [Option.map_some, Option.bind_some, List.getElem?_map]
      cases ms[j]? with
      | none => rfl
      | some m => simp only [Option.map_some, List.length_map]
  · intro i j k s h
    refine ⟨sortStaff σ s, by rw [staffAt_sort, h]; rfl, std_sorted σ _ _, std_sorted σ _ _, rfl, by simp [sortStaff], ?_⟩
    intro v n notes hv
    refine ⟨_, ?_, std_sorted σ _ _⟩
    simp only [sortStaff, List.getElem?_map, hv, Option.map_some]

/-- **C34** The sequences of times do not depend on the implementation of `std::sort`, and do not change when the score is sorted again. -/
theorem C34_twice_times {P : Type} (σ σ' : StdSort) (s : StaffData P) :
    (sortStaff σ' (sortStaff σ s)).clefs.map (·.tick) = (sortStaff σ s).clefs.map (·.tick) ∧
    (sortStaff σ' (sortStaff σ s)).directions.map (·.tick) = (sortStaff σ s).directions.map (·.tick) ∧
    (sortStaff σ' (sortStaff σ s)).voices.map (fun v => (v.1, v.2.map (·.tick))) = (sortStaff σ s).voices.map (fun v => (v.1, v.2.map (·.tick))) := by
  have key : ∀ {α : Type} (f : α → Int) (l : List α), (σ'.sort f (σ.sort f l)).map f = (σ.sort f l).map f := fun f l =>
    sort_times (std_sorted σ' f _) ⟨List.Perm.refl _, (std_sorted σ f l).2⟩
  refine ⟨key _ _, key _ _, ?_⟩
  simp only [sortStaff, List.map_map]
  apply List.map_congr_left
  intro v _
  exact Prod.ext rfl (key _ _)

/-- **C34 (partial)** If no two items of a list have the same time, the result is determined, and sorting again changes nothing. -/
theorem C34_twice_partial {P : Type} (σ σ' : StdSort) (parts : List (List (MeasureData P)))
    (h : ∀ ms ∈ parts, ∀ m ∈ ms, ∀ s ∈ m.staves, DistinctTimes s) :
    sortScore σ' (sortScore σ parts) = sortScore σ parts ∧ sortScore σ' parts = sortScore σ parts := by
  have key : ∀ {α : Type} (f : α → Int) (l : List α), (l.map f).Nodup → σ'.sort f (σ.sort f l) = σ.sort f l := fun f l hn =>
    sort_unique (l := σ.sort f l) (((std_sorted σ f l).1.map f).nodup_iff.mpr hn) (std_sorted σ' f _) ⟨List.Perm.refl _, (std_sorted σ f l).2⟩
  have key' : ∀ {α : Type} (f : α → Int) (l : List α), (l.map f).Nodup → σ'.sort f l = σ.sort f l := fun f l hn =>
    sort_unique hn (std_sorted σ' f _) (std_sorted σ f l)
  constructor
  · unfold sortScore
    rw [List.map_map]
    apply List.map_congr_left
    intro ms hms
    simp only [Function.comp_apply, List.map_map]
    apply List.map_congr_left
    intro m hm
    simp only [Function.comp_apply, List.map_map, MeasureData.mk.injEq, and_true]
    apply List.map_congr_left
    intro s hs
    obtain ⟨h1, h2, h3⟩ := h ms hms m hm s hs
    simp only [Function.comp_apply, sortStaff, List.map_map, StaffData.mk.injEq, true_and]
    refine ⟨key _ _ h1, ?_, key _ _ h2⟩
    apply List.map_congr_left
    intro v hv
    exact Prod.ext rfl (key _ _ (h3 v hv))
  · unfold sortScore
    apply List.map_congr_left
    intro ms hms
    apply List.map_congr_left
    intro m hm
    simp only [MeasureData.mk.injEq, and_true]
    apply List.map_congr_left
    intro s hs
    obtain ⟨h1, h2, h3⟩ := h ms hms m hm s hs
    simp only [sortStaff, StaffData.mk.injEq, true_and]
    refine ⟨key' _ _ h1, ?_, key' _ _ h2⟩
    apply List.map_congr_left
    intro v hv
    exact Prod.ext rfl (key' _ _ (h3 v hv))

example : sortStaff stableSort ({ clefs := [⟨7, 1⟩, ⟨3, 2⟩], keys := [], voices := [(0, [⟨4, 4, false, .normal, 1, 1⟩, ⟨0, 4, false, .normal, 1, 2⟩])], directions := [] } :
    StaffData Nat) = { clefs := [⟨3, 2⟩, ⟨7, 1⟩], keys := [], voices := [(0, [⟨0, 4, false, .normal, 1, 2⟩, ⟨4, 4, false, .normal, 1, 1⟩])], directions := [] } := by
  decide +kernel

/-- **C34 is false** for keys and barlines: they are not sorted, whatever the implementation of `std::sort`. -/
theorem C34_keys_and_barlines_unsorted (σ : StdSort) :
    (sortScore σ [[(⟨[⟨[], [⟨5, 0, true, 1⟩, ⟨1, 0, true, 2⟩], [], []⟩], [⟨5, -1, true, 1⟩, ⟨1, -1, true, 2⟩],
        [⟨5, .right, 1⟩, ⟨1, .left, 2⟩]⟩ : MeasureData Nat)]]).map (fun ms => ms.map (fun m =>
        (m.staves.map (fun s => s.keys.map (·.tick)), m.keys.map (·.tick), m.barlines.map (·.tick)))) =
      [[([[5, 1]], [5, 1], [5, 1])]] := rfl

/-- **C34 is false**: the notes of a chord (which have the same time) may be rearranged, so that the note that begins the chord is no longer the first. -/
theorem C34_chord_order_not_kept : ∃ σ : StdSort,
    σ.sort (fun (n : NoteData Nat) => n.tick) [⟨0, 4, true, .normal, 1, 60⟩, ⟨0, 4, true, .normal, 1, 64⟩] =
      [⟨0, 4, true, .normal, 1, 64⟩, ⟨0, 4, true, .normal, 1, 60⟩] := ⟨reversingSort, by decide +kernel⟩

/-! ### C57 -/

/-- **C57** The number of measures of a score is the largest number of measures of its parts, and 0 if there are none. -/
theorem C57_measures {M : Type} (parts : List (ScorePart M)) :
    (∀ p ∈ parts, (p.measures.length : Int) ≤ getNumMeasures parts) ∧
    (parts = [] ∧ getNumMeasures parts = 0 ∨ ∃ p ∈ parts, getNumMeasures parts = p.measures.length) := by
  obtain ⟨h1, h2, h3⟩ := getNumMeasures_fold parts 0
  refine ⟨h2, ?_⟩
  rcases h3 with h3 | h3
  · cases parts with
    | nil => exact Or.inl ⟨rfl, rfl⟩
    | cons p ps =>
      refine Or.inr ⟨p, List.mem_cons_self, ?_⟩
      have := h2 p List.mem_cons_self
      unfold getNumMeasures
      omega
  · exact Or.inr h3

example : getNumMeasures [⟨['a'], [1, 2]⟩, ⟨['b'], [1, 2, 3]⟩, ⟨['c'], [1]⟩] = 3 := by decide +kernel

/-- **C57** `findPart` finds the first part with the id, and reports none (the end of the list) exactly if there is none. -/
theorem C57_find_part {M : Type} (parts : List (ScorePart M)) (i : List Char) :
    (∀ p, parts[findPart parts i]? = some p → p.uniqueId = i) ∧ (∀ k p, k < findPart parts i → parts[k]? = some p → p.uniqueId ≠ i) ∧
    (findPart parts i = parts.length ↔ ∀ p ∈ parts, p.uniqueId ≠ i) := by
  unfold findPart
  refine ⟨?_, ?_, ?_⟩
  · intro p h
    obtain ⟨hl, rfl⟩ := List.getElem?_eq_some_iff.mp h
    have := List.findIdx_getElem (w := hl)
    simp only [decide_eq_true_eq] at this
    exact this.symm
  · intro k p hk h
    obtain ⟨hl, rfl⟩ := List.getElem?_eq_some_iff.mp h
    have := List.not_of_lt_findIdx hk
    exact fun e => by simp [e] at this
  · rw [List.findIdx_eq_length]
    constructor
    · intro h p hp e
      have := h p hp
      simp only [decide_eq_false_iff_not] at this
      exact this e.symm
    · intro h p hp
      simp only [decide_eq_false_iff_not]
      exact fun e => h p hp e.symm

example : findPart [⟨['a'], [1]⟩, ⟨['b'], [2]⟩, ⟨['b'], [3]⟩] ['b'] = 1 ∧ findPart [⟨['a'], [1]⟩] ['c'] = 1 := by decide +kernel

/-! ### C44 -/

/-- **C44 (partial)** Reading: if a name is derived from a duration (a whole number of millionths, as `<duration>` always is) and the divisions of the part are the
ticks per quarter of the score, then a note of that name lasts exactly that long. -/
theorem C44_derived_partial (divisions : Int) (d : ℚ) (k : Int) (hd : d = k / 1000000) (hv : divisions ≠ 0) (h : deriveNoteType divisions d ≠ .unspecified) :
    quartersOf (deriveNoteType divisions d) = some (d / divisions) := by
  rw [durQuarters_spec _ h]
  unfold deriveNoteType at h ⊢
  cases hf : derivedNames.find? (fun n => areSame d (durQuarters n * divisions)) with
  | none => rw [hf] at h; exact absurd rfl h
  | some n =>
    have hn := List.find?_some (p := fun n => areSame d (durQuarters n * divisions)) hf
    simp only [areSame, decide_eq_true_eq] at hn
    rw [Option.getD_some]
    obtain ⟨q, hq⟩ := durQuarters_den n
    have e : d = durQuarters n * divisions := by
      refine eq_of_near (a := k * 4) (b := q * divisions * 15625) (d := 4000000) (by norm_num) ?_ ?_ ?_ hn
      · rw [hd]; push_cast; ring
      · rw [hq]; push_cast; ring
      · norm_num
    rw [e]
    have : (divisions : ℚ) ≠ 0 := by exact_mod_cast hv
    rw [mul_div_assoc, div_self this, mul_one]

/-- **C44 (partial)** Reading: the names quarter, half, whole, eighth to 128th, 512th and 1024th are derived from their durations. -/
theorem C44_derived_back_partial (divisions : Int) (n : Api.DurationName) (q : ℚ) (hq : quartersOf n = some q) (k : Int) (hk : q * divisions = k / 1000000)
    (hx : n ≠ .maxima ∧ n ≠ .longa ∧ n ≠ .breve ∧ n ≠ .dur256th) (hv : divisions ≠ 0) :
    deriveNoteType divisions (q * divisions) = n := by
  have hu : n ≠ .unspecified := by rintro rfl; cases hq
  have hn : n ∈ derivedNames := by
    obtain ⟨h1, h2, h3, h4⟩ := hx
    cases n <;> first | decide | contradiction
  rw [durQuarters_spec n hu] at hq
  cases hq
  have hsome : (derivedNames.find? (fun m => areSame (durQuarters n * divisions) (durQuarters m * divisions))).isSome = true := by
    rw [List.find?_isSome]
    refine ⟨n, hn, ?_⟩
    simp only [areSame, sub_self, abs_zero, decide_eq_true_eq]
    norm_num
  have hne : deriveNoteType divisions (durQuarters n * divisions) ≠ .unspecified := by
    unfold deriveNoteType
    obtain ⟨m, hm⟩ := Option.isSome_iff_exists.mp hsome
    rw [hm, Option.getD_some]
    rintro rfl
    exact absurd (List.mem_of_find?_eq_some hm) (by decide)
  have h1 := C44_derived_partial divisions _ k hk hv hne
  rw [durQuarters_spec _ hne] at h1
  have : (divisions : ℚ) ≠ 0 := by exact_mod_cast hv
  rw [mul_div_assoc, div_self this, mul_one] at h1
  exact durQuarters_inj _ _ (Option.some.inj h1)

example : deriveNoteType 24 12 = .eighth ∧ deriveNoteType 24 3 = .dur32nd ∧ deriveNoteType 24 36 = .unspecified := by decide +kernel

/-- **C44 is false**: the duration is compared with the ticks per quarter of the score, not with the divisions of the part.  In a score with 2 ticks per quarter
(because of another part), a note of 2 divisions in a part with 1 division per quarter lasts a half note and is named a quarter note. -/
theorem C44_mixed_divisions_wrong : deriveNoteType 2 2 = .quarter ∧ quartersOf .half = some (2 / 1) ∧ quartersOf .quarter ≠ some (2 / 1) := by decide +kernel

/-- **C44** Four names are never derived: notes without a `<type>` of those lengths have no name. -/
theorem C44_names_never_derived (g : Int) (d : ℚ) :
    deriveNoteType g d ≠ .dur256th ∧ deriveNoteType g d ≠ .breve ∧ deriveNoteType g d ≠ .longa ∧ deriveNoteType g d ≠ .maxima := by
  have key : ∀ n, n ∉ derivedNames → n ≠ .unspecified → deriveNoteType g d ≠ n := by
    intro n hn hu h
    unfold deriveNoteType at h
    cases hf : derivedNames.find? (fun n => areSame d (durQuarters n * g)) with
    | none => rw [hf] at h; exact hu h.symm
    | some m => rw [hf, Option.getD_some] at h; exact hn (h ▸ List.mem_of_find?_eq_some hf)
  exact ⟨key _ (by decide) (by decide), key _ (by decide) (by decide), key _ (by decide) (by decide), key _ (by decide) (by decide)⟩

/-- What `findNormalNameAndDots` finds: the length is that of the undotted note times 2^(dots+1)−1. -/
theorem C44_tuplet_length (tpq D : Int) (N : Nat) (hN : 0 < N) (hN' : N ≤ 39) (n : Api.DurationName) (dots : Nat)
    (h : findNormalNameAndDots tpq (D / N) = some (n, dots)) :
    n ≠ .unspecified ∧ dots < 4 ∧ (D : ℚ) / N = durQuarters n * tpq * (2 ^ (dots + 1) - 1) := by
  unfold findNormalNameAndDots at h
  have hp := List.find?_some (p := fun p : Api.DurationName × Nat => decide (|applyDots (durQuarters p.1 * tpq) p.2 - D / N| < 1 / 10000)) h
  have hmem := List.mem_of_find?_eq_some h
  simp only [List.mem_flatMap, List.mem_range, List.mem_map, Prod.mk.injEq] at hmem
  obtain ⟨k, hk, m, hm, rfl, rfl⟩ := hmem
  simp only [decide_eq_true_eq, applyDots_eq] at hp
  refine ⟨?_, hk, ?_⟩
  · rintro rfl; exact absurd hm (by decide)
  obtain ⟨q, hq⟩ := durQuarters_den m
  have hN0 : (N : ℚ) ≠ 0 := by exact_mod_cast (by omega : N ≠ 0)
  refine (eq_of_near (a := q * tpq * (2 ^ (k + 1) - 1) * N) (b := D * 256) (d := 256 * N) (by omega) ?_ ?_ ?_ hp).symm
  · rw [hq]; push_cast; field_simp
  · push_cast; field_simp
  · rw [div_le_div_iff₀ (by norm_num) (by positivity)]
    have : 256 * N ≤ 10000 := by omega
    push_cast
    rw [one_mul, one_mul]
    exact_mod_cast this

/-- **C44 (partial)** Writing: the note of the normal part of a tuplet, when it is found without dots, has exactly the length of the tuplet divided by its number of
notes (up to 39 normal notes: the code allows an error of 1/10000). -/
theorem C44_tuplet_partial (tpq D : Int) (N : Nat) (hN : 0 < N) (hN' : N ≤ 39) (ht : tpq ≠ 0) (n : Api.DurationName)
    (h : findNormalNameAndDots tpq (D / N) = some (n, 0)) : quartersOf n = some ((D : ℚ) / N / tpq) := by
  obtain ⟨h1, _, h2⟩ := C44_tuplet_length tpq D N hN hN' n 0 h
  rw [durQuarters_spec n h1, h2]
  have : (tpq : ℚ) ≠ 0 := by exact_mod_cast ht
  congr 1
  field_simp
  norm_num

/-- **C44 (partial)** Every undotted note is found, whatever the number of normal notes. -/
theorem C44_tuplet_found_partial (tpq : Int) (ht : 0 < tpq) (n : Api.DurationName) (hn : n ≠ .unspecified) (D : Int) (N : Nat)
    (h : (D : ℚ) / N = durQuarters n * tpq) : findNormalNameAndDots tpq (D / N) = some (n, 0) := by
  have hex : ∃ m, m ∈ normalNames.find? (fun m => decide (|applyDots (durQuarters m * tpq) 0 - D / N| < 1 / 10000)) := by
    have : (normalNames.find? (fun m => decide (|applyDots (durQuarters m * tpq) 0 - D / N| < 1 / 10000))).isSome = true := by
      rw [List.find?_isSome]
      refine ⟨n, by cases n <;> first | exact absurd rfl hn | decide, ?_⟩
      rw [applyDots_eq, h]
      simp only [decide_eq_true_eq]
      have : durQuarters n * (tpq : ℚ) * (2 ^ (0 + 1) - 1) - durQuarters n * tpq = 0 := by ring
      rw [this, abs_zero]; norm_num
    exact Option.isSome_iff_exists.mp this
  obtain ⟨m, hm⟩ := hex
  have hf : findNormalNameAndDots tpq (D / N) = some (m, 0) := by
    unfold findNormalNameAndDots
    have e : (List.range 4).flatMap (fun dots => normalNames.map (fun n => (n, dots))) =
        normalNames.map (fun n => (n, 0)) ++ [1, 2, 3].flatMap (fun dots => normalNames.map (fun n => (n, dots))) := by rfl
    rw [e, List.find?_append, List.find?_map]
    have hm' : normalNames.find? ((fun p : Api.DurationName × Nat => decide (|applyDots (durQuarters p.1 * tpq) p.2 - D / N| < 1 / 10000)) ∘ fun n => (n, 0)) = some m := hm
    rw [hm']; rfl
  rw [hf]
  congr 2
  apply durQuarters_inj
  have ht' : (tpq : ℚ) ≠ 0 := by exact_mod_cast ht.ne'
  have hp := List.find?_some hm
  simp only [decide_eq_true_eq, applyDots_eq, h] at hp
  obtain ⟨q, hq⟩ := durQuarters_den m
  obtain ⟨r, hr⟩ := durQuarters_den n
  have h3 : durQuarters m * tpq * (2 ^ (0 + 1) - 1) = durQuarters n * tpq := by
    refine eq_of_near (a := q * tpq) (b := r * tpq) (d := 256) (by omega) ?_ ?_ ?_ hp
    · rw [hq]; push_cast; ring
    · rw [hr]; push_cast; ring
    · norm_num
  apply mul_right_cancel₀ ht'
  rw [← h3]; ring

example : findNormalNameAndDots 25 (25 * 100 / 100) = some (.quarter, 0) := by decide +kernel

/-- **C44 is false** for tuplets of very many notes: four ticks for 41 notes, with 25 ticks per quarter, are named 1024th notes, which is not their length (the
allowed error of 1/10000 of a tick is larger than the difference). -/
theorem C44_tuplet_of_41 : findNormalNameAndDots 25 (4 / 41) = some (.dur1024th, 0) ∧ quartersOf .dur1024th ≠ some (4 / 41 / 25) := by decide +kernel

example : findNormalNameAndDots 420 (420 / 2) = some (.eighth, 0) ∧ findNormalNameAndDots 420 (1680 / 2) = some (.half, 0) := by decide +kernel

/-- **C44 is false** for dotted notes: whenever the note is found with dots, its real length is not that of the tuplet's note (`applyDots` doubles where it should
halve). -/
theorem C44_dotted_always_wrong (tpq D : Int) (N : Nat) (hN : 0 < N) (hN' : N ≤ 39) (ht : 0 < tpq) (n : Api.DurationName) (dots : Nat) (hd : 0 < dots)
    (h : findNormalNameAndDots tpq (D / N) = some (n, dots)) : dotted (durQuarters n * tpq) dots ≠ (D : ℚ) / N := by
  obtain ⟨h1, h2, h3⟩ := C44_tuplet_length tpq D N hN hN' n dots h
  rw [h3, dotted_eq]
  have hpos : 0 < durQuarters n * tpq := mul_pos (durQuarters_pos n h1) (by exact_mod_cast ht)
  intro e
  have e' := mul_left_cancel₀ hpos.ne' e
  have hp : (2 : ℚ) ≤ 2 ^ dots := by
    calc (2 : ℚ) = 2 ^ 1 := by norm_num
      _ ≤ 2 ^ dots := pow_le_pow_right₀ (by norm_num) hd
  have h4 : (0 : ℚ) < 1 / 2 ^ dots := by positivity
  have h5 : (2 : ℚ) ^ (dots + 1) = 2 * 2 ^ dots := by ring
  rw [h5] at e'
  linarith

/-- A tuplet of two dotted half notes: the note is written as a quarter with one dot. -/
theorem C44_dotted_half_named_quarter : findNormalNameAndDots 420 (2520 / 2) = some (.quarter, 1) ∧ dotted (2 * 420) 1 = 2520 / 2 := by decide +kernel

end Mx.Props
