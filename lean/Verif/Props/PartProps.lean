import Verif.Proofs.PartGroups
import Verif.Proofs.ApiData

/-
C29: part groups.
-/
namespace Mx.Props
open Mx.Spec

/-! ### C29 -/

/-- **C29** exactly: for any sorting routine, part groups (nested, overlapping, adjacent, any number of them; different numbers where they overlap)
come back, each exactly once, with first part, last part, number, name and bracket type as in `keptGroup`, ordered by first part and number; the parts
come back in their order. -/
theorem C29_part_groups (σ : StdSort) (τ : GroupSort) (groups : List PartGroupData) (ids : List Str) (h : GroupsFit ids.length groups) (hi : ids ≠ []) :
    ∃ out, partsBack σ τ groups ids = some (.ok (out, ids)) ∧ out.Perm (groups.map keptGroup) ∧ out.Pairwise GroupOrder := parts_back σ τ h hi

theorem keptGroup_plain {g : PartGroupData} (h : PlainGroup g) : keptGroup g = g := by
  obtain ⟨h1, h2, h3, h4⟩ := h
  obtain ⟨a, b, c, d, e, f, x, y⟩ := g
  simp only at h1 h2 h3 h4
  subst h1 h2 h3
  rw [keptGroup]
  simp only [if_neg h4]

theorem groupOrder_asymm {a b : PartGroupData} (h1 : GroupOrder a b) (h2 : GroupOrder b a) : False := by
  unfold GroupOrder at h1 h2
  omega

/-- **C29** for groups without abbreviation and texts for display and with a bracket type (see the theorems below for what happens to these):
the part groups come back unchanged; if they are listed by first part and number, the list is unchanged. -/
theorem C29_part_groups_partial (σ : StdSort) (τ : GroupSort) (groups : List PartGroupData) (ids : List Str) (h : GroupsFit ids.length groups) (hi : ids ≠ [])
    (hp : ∀ g ∈ groups, PlainGroup g) :
    ∃ out, partsBack σ τ groups ids = some (.ok (out, ids)) ∧ out.Perm groups ∧ (groups.Pairwise GroupOrder → out = groups) := by
  obtain ⟨out, h1, h2, h3⟩ := parts_back σ τ h hi
  have e : groups.map keptGroup = groups := by
    rw [List.map_congr_left (fun g hg => keptGroup_plain (hp g hg)), List.map_id'' (fun _ => rfl)]
  rw [e] at h2
  exact ⟨out, h1, h2, fun hs => List.Perm.eq_of_pairwise (le := GroupOrder) (fun a b _ _ ha hb => (groupOrder_asymm ha hb).elim) h3 hs h2⟩

/-- **C29** The first part, last part, number and name of every group come back whatever else the groups have. -/
theorem C29_every_group (σ : StdSort) (τ : GroupSort) (groups : List PartGroupData) (ids : List Str) (h : GroupsFit ids.length groups) (hi : ids ≠ []) :
    ∃ out, partsBack σ τ groups ids = some (.ok (out, ids)) ∧ out.length = groups.length ∧
      ∀ g ∈ groups, ∃ g' ∈ out, g'.first = g.first ∧ g'.last = g.last ∧ g'.number = g.number ∧ g'.name = g.name ∧
        (g.bracket ≠ some .unspecified → g'.bracket = g.bracket) := by
  obtain ⟨out, h1, h2, _⟩ := parts_back σ τ h hi
  refine ⟨out, h1, by rw [h2.length_eq, List.length_map], fun g hg => ⟨keptGroup g, h2.mem_iff.mpr (List.mem_map_of_mem hg), rfl, rfl, rfl, rfl, fun hb => ?_⟩⟩
  exact if_neg hb

/-- A part list is not changed by writing and reading its XML. -/
theorem C29_part_list_text (pl : PartList) : PartList.ofChildren pl.children = some pl := ofChildren_children pl

/-- `groupLess` in words. -/
theorem groupLess_iff (a b : PartGroupData) : groupLess a b = true ↔ GroupOrder a b := by
  unfold groupLess GroupOrder
  split
  · simp only [true_iff]; left; assumption
  · split
    · simp only [Bool.false_eq_true, false_iff]; omega
    · split
      · simp only [true_iff]; omega
      · simp only [Bool.false_eq_true, false_iff]; omega

/-- Some `std::sort` on part groups. -/
def someGroupSort : GroupSort where
  sort l := l.mergeSort (fun a b => ! groupLess b a)
  perm l := List.mergeSort_perm _ _
  sorted l := (List.pairwise_mergeSort (le := fun a b => ! groupLess b a)
    (fun a b c h1 h2 => by
      rw [Bool.not_eq_true', ← Bool.not_eq_true, groupLess_iff] at *
      unfold GroupOrder at *; omega)
    (fun a b => by
      rw [Bool.or_eq_true, Bool.not_eq_true', Bool.not_eq_true', ← Bool.not_eq_true, ← Bool.not_eq_true, groupLess_iff, groupLess_iff]
      unfold GroupOrder; omega) l).imp (fun h => by simpa using h)

/-- Nested, overlapping and adjacent groups over five parts; two groups that do not overlap share a number. -/
def sampleGroups : List PartGroupData := [
  { first := 0, last := 3, number := 1, name := chars "Orchestra", bracket := some .bracket },
  { first := 0, last := 1, number := 2, name := chars "Winds", bracket := some .brace },
  { first := 1, last := 2, number := 0, bracket := some .line },
  { first := 2, last := 4, number := 2, name := chars "Strings", bracket := some .square },
  { first := 4, last := 4, number := -1, bracket := some .none }]

theorem sampleGroups_fit : GroupsFit 5 sampleGroups := by
  refine ⟨by decide, by decide, by decide, ?_⟩
  unfold Overlap
  decide

example : ∃ out, partsBack stableSort someGroupSort sampleGroups [chars "P1", chars "P2", chars "P3", chars "P4", chars "P5"] =
    some (.ok (out, [chars "P1", chars "P2", chars "P3", chars "P4", chars "P5"])) ∧ out.Perm sampleGroups := by
  obtain ⟨out, h1, h2, _⟩ := C29_part_groups_partial stableSort someGroupSort sampleGroups [chars "P1", chars "P2", chars "P3", chars "P4", chars "P5"] sampleGroups_fit
    (by decide) (fun g hg => by
      simp only [sampleGroups, List.mem_cons, List.not_mem_nil, or_false] at hg
      rcases hg with e | e | e | e | e <;> subst e <;> exact ⟨rfl, rfl, rfl, by decide⟩)
  exact ⟨out, h1, h2⟩

/-- **C29** is not true of the abbreviation and the texts for display: they are not written. -/
theorem C29_texts_lost (σ : StdSort) (τ : GroupSort) (groups : List PartGroupData) (ids : List Str) (h : GroupsFit ids.length groups) (hi : ids ≠ []) :
    ∃ out, partsBack σ τ groups ids = some (.ok (out, ids)) ∧ ∀ g ∈ out, g.abbreviation = [] ∧ g.displayName = [] ∧ g.displayAbbreviation = [] := by
  obtain ⟨out, h1, h2, _⟩ := parts_back σ τ h hi
  refine ⟨out, h1, fun g hg => ?_⟩
  obtain ⟨g', _, e⟩ := List.mem_map.mp (h2.mem_iff.mp hg)
  subst e
  exact ⟨rfl, rfl, rfl⟩

/-- **C29** A group with bracket type "unspecified" comes back with an indeterminate bracket type: the constructor does not initialise it. -/
theorem C29_unspecified_bracket_indeterminate (σ : StdSort) (τ : GroupSort) (groups : List PartGroupData) (ids : List Str) (h : GroupsFit ids.length groups)
    (hi : ids ≠ []) (g : PartGroupData) (hg : g ∈ groups) (hb : g.bracket = some .unspecified) :
    ∃ out, partsBack σ τ groups ids = some (.ok (out, ids)) ∧ ∃ g' ∈ out, g'.first = g.first ∧ g'.number = g.number ∧ g'.bracket = none := by
  obtain ⟨out, h1, h2, _⟩ := parts_back σ τ h hi
  exact ⟨out, h1, keptGroup g, h2.mem_iff.mpr (List.mem_map_of_mem hg), rfl, rfl, if_pos hb⟩

theorem perm_single {α : Type} (f : List α → List α) (h : ∀ l, (f l).Perm l) (a : α) : f [a] = [a] := List.perm_singleton.mp (h [a])

/-- **C29** Such a group, or any group whose bracket type was not assigned, cannot be written: the writer looks at the indeterminate value. -/
theorem C29_default_group_undefined (σ : StdSort) (groups : List PartGroupData) (ids : List Str) (g : PartGroupData) (hg : g ∈ groups) (hb : g.bracket = none)
    (h0 : 0 ≤ g.first) (hn : g.first < ids.length) : writePartList σ groups ids = none := by
  have key : ∀ (ids : List Str) (i : Nat) (pl : PartList), (i : Int) ≤ g.first → g.first < i + ids.length → writeParts σ groups i ids pl = none := by
    intro ids
    induction ids with
    | nil => intro i pl h1 h2; simp at h2; omega
    | cons id ids ih =>
      intro i pl h1 h2
      rw [List.length_cons] at h2
      by_cases e : g.first = i
      · have hm : (groupsStarting groups i).mapM makePartGroupStart = none := by
          have : ∀ l : List PartGroupData, g ∈ l → l.mapM makePartGroupStart = none := by
            intro l
            induction l with
            | nil => intro h; cases h
            | cons x l ihl =>
              intro h
              rw [List.mapM_cons]
              rcases List.mem_cons.mp h with e' | h'
              · subst e'
                rw [show makePartGroupStart g = none by unfold makePartGroupStart; rw [hb]; rfl]
                rfl
              · rw [ihl h']
                cases makePartGroupStart x <;> rfl
          exact this _ (List.mem_filter.mpr ⟨hg, decide_eq_true e⟩)
        rw [writeParts, addScorePart, hm]
        rfl
      · rw [writeParts]
        cases addScorePart σ groups i id pl with
        | none => rfl
        | some pl' => exact ih (i + 1) pl' (by push_cast; omega) (by push_cast at *; omega)
  exact key ids 0 .new h0 (by push_cast; omega)

example : writePartList stableSort [{ first := 0, last := 1, number := 1 }] [chars "P1", chars "P2"] = none :=
  C29_default_group_undefined stableSort _ _ _ List.mem_cons_self rfl (by decide) (by decide)

/-- **C29** cannot be observed with `==`: groups with different numbers and bracket types are equal. -/
theorem C29_equality_ignores_number : PartGroupData.eq { first := 0, last := 1, number := 1, bracket := some .brace } { first := 0, last := 1, number := 2, bracket := some .line } = true := by
  decide

/-- **C29** needs different numbers where groups overlap: with the same number the wrong group is closed (`σ` is any sorting routine). -/
theorem C29_same_number_swaps (σ : StdSort) (τ : GroupSort) : ∃ out,
    partsBack σ τ [{ first := 0, last := 1, number := 1, name := chars "A", bracket := some .brace }, { first := 1, last := 2, number := 1, name := chars "B", bracket := some .line }]
      [chars "P1", chars "P2", chars "P3"] = some (.ok (out, [chars "P1", chars "P2", chars "P3"])) ∧
    out.Perm [{ first := 1, last := 1, number := 1, name := chars "B", bracket := some .line }, { first := 0, last := 2, number := 1, name := chars "A", bracket := some .brace }] := by
  have s0 : ∀ {α : Type} (key : α → Int), σ.sort key [] = [] := fun key => List.perm_nil.mp (σ.perm key [])
  have s1 : ∀ {α : Type} (key : α → Int) (a : α), σ.sort key [a] = [a] := fun key a => perm_single _ (σ.perm key) a
  refine ⟨_, ?_, τ.perm _⟩
  have hw : writePartList σ [{ first := 0, last := 1, number := 1, name := chars "A", bracket := some .brace },
      { first := 1, last := 2, number := 1, name := chars "B", bracket := some .line }] [chars "P1", chars "P2", chars "P3"] =
      some ⟨[⟨true, some (chars "1"), some (chars "A"), none, some .brace⟩], chars "P1",
        [.partGroup ⟨true, some (chars "1"), some (chars "B"), none, some .line⟩, .scorePart (chars "P2"), .partGroup ⟨false, some (chars "1"), none, none, none⟩,
         .scorePart (chars "P3"), .partGroup ⟨false, some (chars "1"), none, none, none⟩]⟩ := by
    have e0 : stopEntries σ [{ first := 0, last := 1, number := 1, name := chars "A", bracket := some .brace },
      { first := 1, last := 2, number := 1, name := chars "B", bracket := some .line }] 0 = [] := by
      show (σ.sort _ []).map _ = _
      rw [s0]; rfl
    have e1 : stopEntries σ [{ first := 0, last := 1, number := 1, name := chars "A", bracket := some .brace },
      { first := 1, last := 2, number := 1, name := chars "B", bracket := some .line }] 1 = [.partGroup ⟨false, some (chars "1"), none, none, none⟩] := by
      show (σ.sort _ [_]).map _ = _
      rw [s1]; decide
    have e2 : stopEntries σ [{ first := 0, last := 1, number := 1, name := chars "A", bracket := some .brace },
      { first := 1, last := 2, number := 1, name := chars "B", bracket := some .line }] 2 = [.partGroup ⟨false, some (chars "1"), none, none, none⟩] := by
      show (σ.sort _ [_]).map _ = _
      rw [s1]; decide
    simp only [writePartList, writeParts, addScorePart, Nat.cast_zero, Nat.cast_one, Nat.cast_ofNat, zero_add, Nat.reduceAdd, e0, e1, e2]
    decide +kernel
  rw [partsBack, hw, Option.bind_some, ofChildren_children, Option.map_some, reconcileParts]
  have : List.foldlM (m := Except Failure) (handleEntry [chars "P1", chars "P2", chars "P3"]) {} (PartList.children ⟨[⟨true, some (chars "1"), some (chars "A"), none, some .brace⟩], chars "P1",
        [.partGroup ⟨true, some (chars "1"), some (chars "B"), none, some .line⟩, .scorePart (chars "P2"), .partGroup ⟨false, some (chars "1"), none, none, none⟩,
         .scorePart (chars "P3"), .partGroup ⟨false, some (chars "1"), none, none, none⟩]⟩) =
      .ok ⟨3, [], [{ first := 1, last := 1, number := 1, name := chars "B", bracket := some .line }, { first := 0, last := 2, number := 1, name := chars "A", bracket := some .brace }],
        [chars "P1", chars "P2", chars "P3"]⟩ := by decide +kernel
  rw [this]
  rfl

/-- **C29** A `<score-part>` without `<part>` shifts the groups: the group around the only part of the result has the index of a part that does not exist. -/
theorem C29_missing_part_shifts (τ : GroupSort) : ∃ out, reconcileParts τ [chars "P2"] ⟨[], chars "P1",
      [.partGroup ⟨true, some (chars "1"), none, none, some .brace⟩, .scorePart (chars "P2"), .partGroup ⟨false, some (chars "1"), none, none, none⟩]⟩ =
    .ok (out, [chars "P2"]) ∧ out = [{ first := 1, last := 1, number := 1, bracket := some .brace }] := by
  refine ⟨_, ?_, perm_single _ τ.perm _⟩
  rw [reconcileParts]
  have : List.foldlM (m := Except Failure) (handleEntry [chars "P2"]) {} (PartList.children ⟨[], chars "P1",
      [.partGroup ⟨true, some (chars "1"), none, none, some .brace⟩, .scorePart (chars "P2"), .partGroup ⟨false, some (chars "1"), none, none, none⟩]⟩) =
      .ok ⟨2, [], [{ first := 1, last := 1, number := 1, bracket := some .brace }], [chars "P2"]⟩ := by decide +kernel
  rw [this]
  rfl

/-- **C29** A group number that is not a numeral (the schema allows any token) makes reading throw. -/
theorem C29_named_number_throws (τ : GroupSort) : reconcileParts τ [chars "P1"] ⟨[⟨true, some (chars "winds"), none, none, none⟩], chars "P1", []⟩ = .error .throws := by
  have : List.foldlM (m := Except Failure) (handleEntry [chars "P1"]) {} (PartList.children ⟨[⟨true, some (chars "winds"), none, none, none⟩], chars "P1", []⟩) = .error .throws := by
    decide +kernel
  rw [reconcileParts, this]
  rfl

/-- **C29** A group that is never stopped in a document is lost. -/
theorem C29_unstopped_group_lost (τ : GroupSort) : reconcileParts τ [chars "P1"] ⟨[⟨true, some (chars "1"), none, none, some .brace⟩], chars "P1", []⟩ = .ok ([], [chars "P1"]) := by
  have : List.foldlM (m := Except Failure) (handleEntry [chars "P1"]) {} (PartList.children ⟨[⟨true, some (chars "1"), none, none, some .brace⟩], chars "P1", []⟩) =
      .ok ⟨1, [{ first := 0, number := 1, bracket := some .brace }], [], [chars "P1"]⟩ := by decide +kernel
  rw [reconcileParts, this]
  show Except.ok (τ.sort [], _) = _
  rw [List.perm_nil.mp (τ.perm [])]

/-- **C29** A stop ends the group with its number that was started last, or the group that was started last if no group has this number; with no open group it does nothing. -/
theorem C29_stop_matches (number : Int) (stack : List PartGroupData) :
    (popGroup number stack = none ↔ stack = []) ∧
    (∀ g rest, popGroup number stack = some (g, rest) →
      (∃ before after, stack = before ++ g :: after ∧ rest = before ++ after ∧ ((g.number = number ∧ ∀ x ∈ before, x.number ≠ number) ∨
        (before = [] ∧ ∀ x ∈ stack, x.number ≠ number)))) := by
  have none_iff : stack.find? (fun g => g.number = number) = none ↔ ∀ x ∈ stack, x.number ≠ number := by simp
  constructor
  · unfold popGroup
    cases h : stack.find? (fun g => g.number = number) with
    | some g => simp; rintro rfl; cases h
    | none => cases stack <;> simp
  · intro g rest h
    unfold popGroup at h
    cases hf : stack.find? (fun g => g.number = number) with
    | some g' =>
      rw [hf] at h
      cases h
      obtain ⟨hp, before, after, hs, hb⟩ := List.find?_eq_some_iff_append.mp hf
      have hp := of_decide_eq_true hp
      refine ⟨before, after, hs, ?_, Or.inl ⟨hp, fun x hx => by have := hb x hx; simpa using this⟩⟩
      rw [hs, List.eraseP_append_right _ (fun x hx => by have := hb x hx; simpa using this), List.eraseP_cons_of_pos (by simpa using hp)]
    | none =>
      rw [hf] at h
      cases stack with
      | nil => cases h
      | cons x l =>
        cases h
        exact ⟨[], rest, rfl, rfl, Or.inr ⟨rfl, none_iff.mp hf⟩⟩

example : popGroup 7 [{ first := 1, number := 2 }, { first := 0, number := 1 }] = some ({ first := 1, number := 2 }, [{ first := 0, number := 1 }]) := by decide

end Mx.Props
