import Verif.Model.ApiData
import Verif.Spec.ApiData
import Mathlib.Data.List.Sort
import Mathlib.Tactic.Ring
import Mathlib.Tactic.Linarith
import Mathlib.Tactic.NormNum
import Mathlib.Tactic.FieldSimp
import Mathlib.Data.Rat.Floor

namespace Mx
open Spec

theorem sizeMinusOne_pos {n : Nat} (h : 0 < n) (hn : n < 2 ^ 64) : sizeMinusOne n = n - 1 := by
  unfold sizeMinusOne; omega

theorem sizeMinusOne_zero : sizeMinusOne 0 = 2 ^ 64 - 1 := by decide

theorem getNumMeasures_fold {M : Type} (parts : List (ScorePart M)) (a : Int) :
    let r := parts.foldl (fun numMeasures p => if (p.measures.length : Int) > numMeasures then (p.measures.length : Int) else numMeasures) a
    a ≤ r ∧ (∀ p ∈ parts, (p.measures.length : Int) ≤ r) ∧ (r = a ∨ ∃ p ∈ parts, r = p.measures.length) := by
  induction parts generalizing a with
  | nil => simp
  | cons q qs ih =>
    simp only [List.foldl_cons]
    obtain ⟨h1, h2, h3⟩ := ih (if (q.measures.length : Int) > a then (q.measures.length : Int) else a)
    have hm : a ≤ (if (q.measures.length : Int) > a then (q.measures.length : Int) else a) ∧
        (q.measures.length : Int) ≤ (if (q.measures.length : Int) > a then (q.measures.length : Int) else a) := by
      split <;> omega
    refine ⟨le_trans hm.1 h1, ?_, ?_⟩
    · intro p hp
      rcases List.mem_cons.mp hp with rfl | hp
      · exact le_trans hm.2 h1
      · exact h2 p hp
    · rcases h3 with h3 | ⟨p, hp, h3⟩
      · by_cases hq : (q.measures.length : Int) > a
        · right; refine ⟨q, List.mem_cons_self, ?_⟩; rw [h3, if_pos hq]
        · left; rw [h3, if_neg hq]
      · exact Or.inr ⟨p, List.mem_cons_of_mem _ hp, h3⟩

/-- `applyDots` computes v·(2^(n+1) − 1). -/
theorem applyDotsLoop_eq (n : Nat) : ∀ o a : ℚ, applyDotsLoop n o a = o + a * (2 ^ n - 1) := by
  induction n with
  | zero => intro o a; simp [applyDotsLoop]
  | succ n ih => intro o a; rw [applyDotsLoop, ih]; ring

theorem applyDots_eq (v : ℚ) (n : Nat) : applyDots v n = v * (2 ^ (n + 1) - 1) := by
  rw [applyDots, applyDotsLoop_eq]; ring

theorem dotted_eq (v : ℚ) (n : Nat) : dotted v n = v * (2 - 1 / 2 ^ n) := by
  induction n with
  | zero => simp [dotted]; ring
  | succ n ih =>
    rw [dotted, ih]
    have : (2 : ℚ) ^ n ≠ 0 := pow_ne_zero _ (by norm_num)
    field_simp
    ring

/-- Two rationals with known denominators that are close are equal. -/
theorem eq_of_near {x y ε : ℚ} {a b : Int} {d : Nat} (hd : 0 < d) (hx : x = a / d) (hy : y = b / d) (hε : ε ≤ 1 / d) (h : |x - y| < ε) : x = y := by
  have hd' : (0 : ℚ) < d := by exact_mod_cast hd
  have h1 : |x - y| < 1 / d := lt_of_lt_of_le h hε
  have h2 : x - y = ((a - b : Int) : ℚ) / d := by rw [hx, hy]; push_cast; ring
  rw [h2, abs_div, abs_of_pos hd', div_lt_div_iff_of_pos_right hd'] at h1
  have h3 : |a - b| < 1 := by
    have : ((|a - b| : Int) : ℚ) < 1 := by rw [Int.cast_abs]; exact h1
    exact_mod_cast this
  have h4 : a - b = 0 := Int.abs_lt_one_iff.mp h3
  have h5 : a = b := by omega
  rw [hx, hy, h5]

theorem durQuarters_den (n : Api.DurationName) : ∃ k : Int, durQuarters n = k / 256 := by
  cases n
  · exact ⟨0, by norm_num [durQuarters]⟩
  · exact ⟨8192, by norm_num [durQuarters]⟩
  · exact ⟨4096, by norm_num [durQuarters]⟩
  · exact ⟨2048, by norm_num [durQuarters]⟩
  · exact ⟨1024, by norm_num [durQuarters]⟩
  · exact ⟨512, by norm_num [durQuarters]⟩
  · exact ⟨256, by norm_num [durQuarters]⟩
  · exact ⟨128, by norm_num [durQuarters]⟩
  · exact ⟨64, by norm_num [durQuarters]⟩
  · exact ⟨32, by norm_num [durQuarters]⟩
  · exact ⟨16, by norm_num [durQuarters]⟩
  · exact ⟨8, by norm_num [durQuarters]⟩
  · exact ⟨4, by norm_num [durQuarters]⟩
  · exact ⟨2, by norm_num [durQuarters]⟩
  · exact ⟨1, by norm_num [durQuarters]⟩

theorem durQuarters_spec (n : Api.DurationName) (h : n ≠ .unspecified) : quartersOf n = some (durQuarters n) := by
  cases n <;> first | exact absurd rfl h | rfl

theorem durQuarters_pos (n : Api.DurationName) (h : n ≠ .unspecified) : 0 < durQuarters n := by
  cases n <;> first | exact absurd rfl h | norm_num [durQuarters]

theorem durQuarters_inj : ∀ a b : Api.DurationName, durQuarters a = durQuarters b → a = b := by
  intro a b
  cases a <;> cases b <;> first | (intro _; rfl) | (intro h; exfalso; revert h; decide +kernel)

/-! ### Sorting -/

/-- A stable `std::sort`. -/
def stableSort : StdSort where
  sort key l := l.insertionSort (fun a b => key a ≤ key b)
  perm key l := List.perm_insertionSort _ l
  sorted key l := by
    haveI : Std.Total (fun a b => key a ≤ key b) := ⟨fun a b => le_total _ _⟩
    haveI : IsTrans _ (fun a b => key a ≤ key b) := ⟨fun a b c => le_trans⟩
    exact List.pairwise_insertionSort _ l

/-- A `std::sort` that reverses the order of equal items. -/
def reversingSort : StdSort where
  sort key l := l.reverse.insertionSort (fun a b => key a ≤ key b)
  perm key l := (List.perm_insertionSort _ l.reverse).trans (List.reverse_perm l)
  sorted key l := by
    haveI : Std.Total (fun a b => key a ≤ key b) := ⟨fun a b => le_total _ _⟩
    haveI : IsTrans _ (fun a b => key a ≤ key b) := ⟨fun a b c => le_trans⟩
    exact List.pairwise_insertionSort _ l.reverse

theorem key_inj_of_nodup {α : Type} {key : α → Int} : ∀ {l : List α}, (l.map key).Nodup → ∀ {a b}, a ∈ l → b ∈ l → key a = key b → a = b
  | [], _, _, _, ha, _, _ => absurd ha List.not_mem_nil
  | c :: l, h, a, b, ha, hb, e => by
    rw [List.map_cons, List.nodup_cons] at h
    rcases List.mem_cons.mp ha with ha' | ha' <;> rcases List.mem_cons.mp hb with hb' | hb'
    · rw [ha', hb']
    · exact absurd (by rw [← ha', e]; exact List.mem_map_of_mem hb') h.1
    · exact absurd (by rw [← hb', ← e]; exact List.mem_map_of_mem ha') h.1
    · exact key_inj_of_nodup h.2 ha' hb' e

theorem sort_unique {α : Type} {key : α → Int} {l a b : List α} (h : (l.map key).Nodup) (ha : SortedByTime key l a) (hb : SortedByTime key l b) : a = b := by
  refine List.Perm.eq_of_pairwise (le := fun x y => key x ≤ key y) ?_ ha.2 hb.2 (ha.1.trans hb.1.symm)
  intro x y hx hy h1 h2
  exact key_inj_of_nodup h (ha.1.subset hx) (hb.1.subset hy) (le_antisymm h1 h2)

theorem sort_times {α : Type} {key : α → Int} {l a b : List α} (ha : SortedByTime key l a) (hb : SortedByTime key l b) : a.map key = b.map key := by
  refine List.Perm.eq_of_pairwise (le := fun x y => x ≤ y) (fun _ _ _ _ => le_antisymm) ?_ ?_ ((ha.1.trans hb.1.symm).map key)
  · exact List.pairwise_map.mpr ha.2
  · exact List.pairwise_map.mpr hb.2

theorem std_sorted (σ : StdSort) {α : Type} (key : α → Int) (l : List α) : SortedByTime key l (σ.sort key l) := ⟨σ.perm key l, σ.sorted key l⟩

theorem staffAt_sort {P : Type} (σ : StdSort) (parts : List (List (Measure.MeasureData P))) (i j k : Nat) :
    staffAt (sortScore σ parts) i j k = (staffAt parts i j k).map (sortStaff σ) := by
  unfold staffAt sortScore
  rw [List.getElem?_map]
  cases parts[i]? with
  | none => rfl
  | some ms =>
    simp only [Option.map_some, Option.bind_some, List.getElem?_map]
    cases ms[j]? with
    | none => rfl
    | some m => simp only [Option.map_some, Option.bind_some, List.getElem?_map]

end Mx
