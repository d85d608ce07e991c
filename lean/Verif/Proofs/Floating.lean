import Verif.Model.Floating
import Mathlib.Tactic.Linarith
import Mathlib.Tactic.Ring
import Mathlib.Tactic.FieldSimp
import Mathlib.Tactic.NormNum
import Mathlib.Tactic.Positivity
import Mathlib.Algebra.Order.Field.Power

/-
Lemmas about floating point arithmetic.
-/
namespace Mx.Fl

theorem rne_near (q : ℚ) : |(rne q : ℚ) - q| ≤ 1 / 2 := by
  have h1 := Int.floor_le q
  have h2 := Int.lt_floor_add_one q
  unfold rne
  simp only
  rw [abs_le]
  split
  · constructor <;> linarith
  · split
    · push_cast; constructor <;> linarith
    · split <;> [skip; push_cast] <;> constructor <;> linarith

theorem rne_int (n : Int) : rne (n : ℚ) = n := by
  unfold rne
  simp

theorem ulp_pos (p : Nat) (x : ℚ) : 0 < ulp p x := by unfold ulp; positivity

theorem log_le {x : ℚ} (h : x ≠ 0) : (2 : ℚ) ^ (Int.log 2 |x|) ≤ |x| := by
  have := Int.zpow_log_le_self (b := 2) (r := |x|) (by norm_num) (abs_pos.mpr h)
  exact_mod_cast this

theorem lt_log (x : ℚ) : |x| < (2 : ℚ) ^ (Int.log 2 |x| + 1) := by
  have := Int.lt_zpow_succ_log_self (b := 2) (by norm_num) (|x|)
  exact_mod_cast this

/-- The relative error is at most half a unit. -/
theorem fl_near (p : Nat) (x : ℚ) : |fl p x - x| ≤ |x| / 2 ^ p := by
  unfold fl
  split
  · rename_i h; simp [h]
  · rename_i h
    have hu := ulp_pos p x
    have h1 := rne_near (x / ulp p x)
    have h2 : (rne (x / ulp p x) : ℚ) * ulp p x - x = ((rne (x / ulp p x) : ℚ) - x / ulp p x) * ulp p x := by
      field_simp
    rw [h2, abs_mul, abs_of_pos hu]
    have h3 : ulp p x = 2 ^ (Int.log 2 |x|) * 2 / 2 ^ p := by
      unfold ulp
      rw [zpow_add₀ (by norm_num), zpow_sub₀ (by norm_num)]
      simp only [zpow_natCast, zpow_one]
      ring
    have h4 := log_le h
    calc |(rne (x / ulp p x) : ℚ) - x / ulp p x| * ulp p x ≤ 1 / 2 * ulp p x := mul_le_mul_of_nonneg_right h1 hu.le
      _ = 2 ^ (Int.log 2 |x|) / 2 ^ p := by rw [h3]; ring
      _ ≤ |x| / 2 ^ p := by gcongr

/-- A number of `p` binary digits. -/
def Rep (p : Nat) (x : ℚ) : Prop := ∃ (m : Int) (k : Int), |m| ≤ 2 ^ p ∧ x = m * 2 ^ k

theorem Rep.zero (p : Nat) : Rep p 0 := ⟨0, 0, by simp, by simp⟩

theorem Rep.neg {p : Nat} {x : ℚ} (h : Rep p x) : Rep p (-x) := by
  obtain ⟨m, k, h1, rfl⟩ := h
  exact ⟨-m, k, by rwa [abs_neg], by push_cast; ring⟩

theorem Rep.mono {p q : Nat} {x : ℚ} (hpq : p ≤ q) (h : Rep p x) : Rep q x := by
  obtain ⟨m, k, h1, rfl⟩ := h
  exact ⟨m, k, le_trans h1 (pow_le_pow_right₀ (by norm_num) hpq), rfl⟩

theorem Rep.int {p : Nat} {n : Int} (h : |n| ≤ 2 ^ p) : Rep p n := ⟨n, 0, h, by simp⟩

/-- A multiple of a power of two below 2^p units. -/
theorem rep_of_multiple {p : Nat} {x : ℚ} (m k : Int) (hx : x = m * 2 ^ k) (h : |x| ≤ 2 ^ ((p : Int) + k)) : Rep p x := by
  refine ⟨m, k, ?_, hx⟩
  rw [hx, abs_mul, abs_of_pos (by positivity : (0 : ℚ) < 2 ^ k), zpow_add₀ (by norm_num)] at h
  have := le_of_mul_le_mul_right h (by positivity)
  simp only [zpow_natCast] at this
  have e : (|(m : ℚ)|) = ((|m| : Int) : ℚ) := by push_cast; rfl
  rw [e] at this
  exact_mod_cast this

/-- Numbers of `p` digits are not changed. -/
theorem fl_exact {p : Nat} (hp : 0 < p) {x : ℚ} (h : Rep p x) : fl p x = x := by
  unfold fl
  split
  · rename_i h0; exact h0.symm
  · rename_i h0
    have hu := ulp_pos p x
    -- x is a multiple of its unit
    have key : ∃ n : Int, x = n * ulp p x := by
      obtain ⟨m, k, h1, rfl⟩ := h
      have hm : m ≠ 0 := by rintro rfl; simp at h0
      have hlow := log_le h0
      generalize hL : Int.log 2 |(m : ℚ) * 2 ^ k| = L at hlow
      have hux : ulp p ((m : ℚ) * 2 ^ k) = 2 ^ (L - p + 1) := by unfold ulp; rw [hL]
      rw [hux]
      rw [abs_mul, abs_of_pos (by positivity : (0 : ℚ) < 2 ^ k)] at hlow
      have hmq : |(m : ℚ)| ≤ 2 ^ p := by
        have e : (|(m : ℚ)|) = ((|m| : Int) : ℚ) := by push_cast; rfl
        rw [e]; exact_mod_cast h1
      by_cases hk : L - p + 1 ≤ k
      · refine ⟨m * 2 ^ (k - (L - p + 1)).toNat, ?_⟩
        push_cast
        rw [mul_assoc]
        congr 1
        rw [← zpow_natCast, ← zpow_add₀ (by norm_num)]
        congr 1
        omega
      · -- then |m| = 2^p
        have hL2 : (2 : ℚ) ^ L ≤ 2 ^ ((p : Int) + k) := by
          refine le_trans hlow ?_
          rw [zpow_add₀ (by norm_num), zpow_natCast]
          exact mul_le_mul_of_nonneg_right hmq (by positivity)
        have hL3 : L ≤ (p : Int) + k := (zpow_le_zpow_iff_right₀ (by norm_num : (1 : ℚ) < 2)).mp hL2
        have hLe : L = (p : Int) + k := by omega
        rw [hLe] at hlow
        rw [zpow_add₀ (by norm_num), zpow_natCast] at hlow
        have hge := le_of_mul_le_mul_right hlow (by positivity)
        have habs : |(m : ℚ)| = 2 ^ p := le_antisymm hmq hge
        have hLu : L - p + 1 = k + 1 := by omega
        rw [hLu]
        cases p with
        | zero => omega
        | succ p =>
          rcases abs_choice (m : ℚ) with h2 | h2
          · refine ⟨2 ^ p, ?_⟩
            rw [h2] at habs
            rw [habs, zpow_add₀ (by norm_num)]
            push_cast
            ring
          · refine ⟨-2 ^ p, ?_⟩
            rw [h2] at habs
            have : (m : ℚ) = -2 ^ (p + 1) := by linarith
            rw [this, zpow_add₀ (by norm_num)]
            push_cast
            ring
    obtain ⟨n, hn⟩ := key
    have : x / ulp p x = n := by rw [div_eq_iff hu.ne']; exact hn
    rw [this, rne_int, ← hn]

/-- The result is a number of `p` digits. -/
theorem fl_rep (p : Nat) (hp : 0 < p) (x : ℚ) : Rep p (fl p x) := by
  unfold fl
  split
  · exact Rep.zero p
  · rename_i h0
    have hu := ulp_pos p x
    refine ⟨rne (x / ulp p x), Int.log 2 |x| - p + 1, ?_, rfl⟩
    have h1 := lt_log x
    have h2 : |x / ulp p x| < 2 ^ p := by
      rw [abs_div, abs_of_pos hu, div_lt_iff₀ hu]
      refine lt_of_lt_of_eq h1 ?_
      unfold ulp
      rw [← zpow_natCast, ← zpow_add₀ (by norm_num)]
      congr 1
      ring
    have h3 := rne_near (x / ulp p x)
    rw [abs_le] at h3
    rw [abs_lt] at h2
    have h4 : (rne (x / ulp p x) : ℚ) < 2 ^ p + 1 := by linarith
    have h5 : (-(2 ^ p) - 1 : ℚ) < (rne (x / ulp p x) : ℚ) := by linarith
    have h6 : rne (x / ulp p x) < 2 ^ p + 1 := by exact_mod_cast h4
    have h7 : -(2 ^ p) - 1 < rne (x / ulp p x) := by exact_mod_cast h5
    rw [abs_le]
    constructor <;> omega

theorem fl_fl {p : Nat} (hp : 0 < p) (x : ℚ) : fl p (fl p x) = fl p x := fl_exact hp (fl_rep p hp x)

theorem fl_int {p : Nat} (hp : 0 < p) {n : Int} (h : |n| ≤ 2 ^ p) : fl p (n : ℚ) = n := fl_exact hp (Rep.int h)

theorem fl_nat {p n : Nat} (hp : 0 < p) (h : n ≤ 2 ^ p) : fl p (n : ℚ) = n := by
  have := fl_int hp (p := p) (n := (n : Int)) (by rw [abs_of_nonneg (by omega)]; exact_mod_cast h)
  exact_mod_cast this

/-- A nonnegative number of `p` digits: its integer part and the rest are numbers of `p` digits. -/
theorem rep_floor {p : Nat} {x : ℚ} (h : Rep p x) (h0 : 0 ≤ x) : Rep p (⌊x⌋ : Int) ∧ Rep p (x - (⌊x⌋ : Int)) := by
  obtain ⟨m, k, h1, hx⟩ := h
  by_cases hk : 0 ≤ k
  · have hint : x = ((m * 2 ^ k.toNat : Int) : ℚ) := by
      rw [hx]; push_cast; congr 1
      rw [← zpow_natCast]; congr 1; omega
    have hf : ((⌊x⌋ : Int) : ℚ) = x := by rw [hint, Int.floor_intCast]
    rw [hf]
    exact ⟨⟨m, k, h1, hx⟩, by rw [sub_self]; exact Rep.zero p⟩
  · have hf0 : 0 ≤ ⌊x⌋ := Int.floor_nonneg.mpr h0
    have hfl := Int.floor_le x
    have hfr := Int.lt_floor_add_one x
    have hmq : (m : ℚ) ≤ 2 ^ p := by
      have := le_trans (le_abs_self m) h1
      exact_mod_cast this
    have h2k : (2 : ℚ) ^ k ≤ 1 := by
      rw [← zpow_zero (2 : ℚ)]
      exact zpow_le_zpow_right₀ (by norm_num) (by omega)
    have hxp : x ≤ 2 ^ p := by
      rw [hx]
      calc (m : ℚ) * 2 ^ k ≤ 2 ^ p * 2 ^ k := mul_le_mul_of_nonneg_right hmq (by positivity)
        _ ≤ 2 ^ p * 1 := mul_le_mul_of_nonneg_left h2k (by positivity)
        _ = 2 ^ p := mul_one _
    refine ⟨Rep.int ?_, ?_⟩
    · rw [abs_of_nonneg hf0]
      have : ((⌊x⌋ : Int) : ℚ) ≤ 2 ^ p := le_trans hfl hxp
      exact_mod_cast this
    · refine rep_of_multiple (m - ⌊x⌋ * 2 ^ (-k).toNat) k ?_ ?_
      · push_cast
        rw [sub_mul, ← hx, mul_assoc, ← zpow_natCast, ← zpow_add₀ (by norm_num)]
        have : (((-k).toNat : Int) + k) = 0 := by omega
        rw [this]; simp
      · rw [abs_of_nonneg (by linarith), zpow_add₀ (by norm_num), zpow_natCast]
        have hn : (0 : ℚ) ≤ (⌊x⌋ : Int) := by exact_mod_cast hf0
        calc x - (⌊x⌋ : Int) ≤ x := by linarith
          _ = m * 2 ^ k := hx
          _ ≤ 2 ^ p * 2 ^ k := mul_le_mul_of_nonneg_right hmq (by positivity)

end Mx.Fl
