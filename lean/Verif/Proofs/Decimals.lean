import Verif.Model.Decimals
import Verif.Spec.Decimal
import Verif.Proofs.Integers
import Mathlib.Tactic.Linarith
import Mathlib.Tactic.Ring
import Mathlib.Tactic.FieldSimp
import Mathlib.Tactic.NormNum

/-! Helper lemmas about decimals. -/
namespace Mx
open Spec

namespace PreciseDecimal

theorem findMax_eq (n : Nat) : findMax n = 10 ^ n - 1 := by
  induction n with
  | zero => rfl
  | succ n ih =>
    have : 0 < 10 ^ n := Nat.pos_of_ne_zero (by simp)
    simp only [findMax, ih, pow_succ]; omega

theorem findMax_lt (n k : Nat) : k > findMax n ↔ 10 ^ n ≤ k := by
  have : 0 < 10 ^ n := Nat.pos_of_ne_zero (by simp)
  rw [findMax_eq]; omega

/-- The absolute value. -/
def magnitude (p : PreciseDecimal) : ℚ := (p.integer : ℚ) + (p.decimal : ℚ) / 10 ^ p.maxDecimalDigits

theorem getValue_eq (p : PreciseDecimal) : p.getValue = if p.isNegative then -p.magnitude else p.magnitude := by
  unfold getValue express magnitude
  cases p.isNegative <;> simp

theorem magnitude_nonneg (p : PreciseDecimal) : 0 ≤ p.magnitude := by unfold magnitude; positivity

theorem abs_ite (q : ℚ) : (if q < 0 then q * -1 else q) = |q| := by
  split
  · rename_i h; rw [abs_of_neg h]; ring
  · rename_i h; rw [abs_of_nonneg (not_lt.mp h)]

/-- Rounding of a number in range. -/
theorem setValue_eq (p : PreciseDecimal) (q : ℚ) (hn : p.maxIntegerDigits ≤ 19) (hq : |q| < 10 ^ p.maxIntegerDigits) :
    ∃ p', p.setValue q = some p' ∧ p'.maxIntegerDigits = p.maxIntegerDigits ∧ p'.maxDecimalDigits = p.maxDecimalDigits ∧
      p'.isNegative = decide (q < 0) ∧ p'.decimal < 10 ^ p.maxDecimalDigits ∧ p'.integer ≤ 10 ^ p.maxIntegerDigits ∧
      (p'.integer : ℚ) * 10 ^ p.maxDecimalDigits + p'.decimal = ⌈|q| * 10 ^ p.maxDecimalDigits - pointFive⌉ := by
  unfold setValue
  simp only [abs_ite]
  have h0 := abs_nonneg q
  generalize |q| = x at h0 hq
  obtain ⟨k, hk⟩ : ∃ k : Nat, ⌊x⌋ = k := ⟨⌊x⌋.toNat, (Int.toNat_of_nonneg (Int.floor_nonneg.mpr h0)).symm⟩
  have hk1 : (k : ℚ) ≤ x := by have := Int.floor_le x; rw [hk] at this; exact_mod_cast this
  have hk2 : x < (k : ℚ) + 1 := by have := Int.lt_floor_add_one x; rw [hk] at this; exact_mod_cast this
  have hkn : k < 10 ^ p.maxIntegerDigits := by
    have : (k : ℚ) < 10 ^ p.maxIntegerDigits := lt_of_le_of_lt hk1 hq
    exact_mod_cast this
  have hle : (10 : Nat) ^ p.maxIntegerDigits ≤ 10 ^ 19 := Nat.pow_le_pow_right (by norm_num) hn
  have h64 : ¬ (k ≥ 2 ^ 64) := by
    have : (10 : Nat) ^ 19 < 2 ^ 64 := by norm_num
    omega
  simp only [hk, Int.toNat_natCast]
  rw [if_neg h64, if_neg (by rw [findMax_lt]; omega)]
  have hD : (0 : ℚ) < 10 ^ p.maxDecimalDigits := by positivity
  generalize hc : ⌈(x - (k : ℚ)) * 10 ^ p.maxDecimalDigits - pointFive⌉ = c
  have hcx : ⌈x * 10 ^ p.maxDecimalDigits - pointFive⌉ = (k : Int) * 10 ^ p.maxDecimalDigits + c := by
    rw [← hc]
    have : x * 10 ^ p.maxDecimalDigits - pointFive =
        (x - (k : ℚ)) * 10 ^ p.maxDecimalDigits - pointFive + (((k : Int) * 10 ^ p.maxDecimalDigits : Int) : ℚ) := by push_cast; ring
    rw [this, Int.ceil_add_intCast]; ring
  have hc0 : 0 ≤ c := by
    have h1 : (0 : ℚ) ≤ (x - k) * 10 ^ p.maxDecimalDigits := mul_nonneg (by linarith) hD.le
    have h2 := Int.le_ceil ((x - (k : ℚ)) * 10 ^ p.maxDecimalDigits - pointFive)
    rw [hc] at h2
    have h3 : (-1 : ℚ) < c := by unfold pointFive at h2; linarith
    have : (-1 : Int) < c := by exact_mod_cast h3
    omega
  have hc1 : c ≤ 10 ^ p.maxDecimalDigits := by
    rw [← hc]
    apply Int.ceil_le.mpr
    have : (x - k) * 10 ^ p.maxDecimalDigits ≤ 1 * 10 ^ p.maxDecimalDigits := mul_le_mul_of_nonneg_right (by linarith) hD.le
    unfold pointFive; push_cast; linarith
  obtain ⟨n, rfl⟩ : ∃ n : Nat, c = n := ⟨c.toNat, (Int.toNat_of_nonneg hc0).symm⟩
  simp only [Int.toNat_natCast]
  have hn1 : n ≤ 10 ^ p.maxDecimalDigits := by exact_mod_cast hc1
  by_cases hbig : n > findMax p.maxDecimalDigits
  · rw [if_pos hbig]
    refine ⟨_, rfl, rfl, rfl, rfl, ?_, ?_, ?_⟩
    · exact Nat.pos_of_ne_zero (by simp)
    · simp only; omega
    · rw [findMax_lt] at hbig
      have : n = 10 ^ p.maxDecimalDigits := by omega
      rw [hcx, this]; push_cast; ring
  · rw [if_neg hbig]
    rw [findMax_lt] at hbig
    refine ⟨_, rfl, rfl, rfl, rfl, ?_, ?_, ?_⟩
    · simp only; omega
    · simp only; omega
    · rw [hcx]; push_cast; ring

theorem magnitude_of_eq {p : PreciseDecimal} {x : ℚ} {c : Int} (h : (p.integer : ℚ) * 10 ^ p.maxDecimalDigits + p.decimal = c)
    (hc : c = ⌈x * 10 ^ p.maxDecimalDigits - pointFive⌉) :
    p.magnitude = c / 10 ^ p.maxDecimalDigits ∧ -(4999999 / 10000000) ≤ (p.magnitude - x) * 10 ^ p.maxDecimalDigits ∧
      (p.magnitude - x) * 10 ^ p.maxDecimalDigits < 5000001 / 10000000 := by
  have hD : (0 : ℚ) < 10 ^ p.maxDecimalDigits := by positivity
  have hm : p.magnitude * 10 ^ p.maxDecimalDigits = c := by
    rw [← h]; unfold magnitude; field_simp
  have h1 := Int.le_ceil (x * 10 ^ p.maxDecimalDigits - pointFive)
  have h2 := Int.ceil_lt_add_one (x * 10 ^ p.maxDecimalDigits - pointFive)
  rw [← hc] at h1 h2
  unfold pointFive at h1 h2
  refine ⟨by rw [eq_div_iff hD.ne']; exact hm, ?_, ?_⟩
  · rw [sub_mul, hm]; linarith
  · rw [sub_mul, hm]; linarith

/-- The number that is stored is the nearest one (up to the bias of a tie). -/
theorem setValue_near (p : PreciseDecimal) (q : ℚ) (hn : p.maxIntegerDigits ≤ 19) (hq : |q| < 10 ^ p.maxIntegerDigits) :
    ∃ p', p.setValue q = some p' ∧ p'.maxIntegerDigits = p.maxIntegerDigits ∧ p'.maxDecimalDigits = p.maxDecimalDigits ∧
      p'.isNegative = decide (q < 0) ∧ p'.decimal < 10 ^ p.maxDecimalDigits ∧ p'.integer ≤ 10 ^ p.maxIntegerDigits ∧
      |p'.getValue - q| ≤ 5000001 / 10000000 / 10 ^ p.maxDecimalDigits ∧
      (∀ c : Int, q * 10 ^ p.maxDecimalDigits = c → p'.getValue = q) := by
  obtain ⟨p', h1, h2, h3, h4, h5, h6, h7⟩ := setValue_eq p q hn hq
  refine ⟨p', h1, h2, h3, h4, h5, h6, ?_, ?_⟩
  all_goals
    rw [← h3] at h7
    obtain ⟨hm, g1, g2⟩ := magnitude_of_eq h7 rfl
    rw [← h3]
    have hD : (0 : ℚ) < 10 ^ p'.maxDecimalDigits := by positivity
    rw [getValue_eq, h4]
  · rw [le_div_iff₀ hD, ← abs_of_pos hD, ← abs_mul]
    by_cases hneg : q < 0
    · simp only [hneg, decide_true, if_true]
      rw [abs_of_neg hneg] at g1 g2
      rw [abs_le]; constructor <;> nlinarith
    · simp only [hneg, decide_false, Bool.false_eq_true, if_false]
      rw [abs_of_nonneg (not_lt.mp hneg)] at g1 g2
      rw [abs_le]; constructor <;> linarith
  · intro c hc
    have habs : |q| * 10 ^ p'.maxDecimalDigits = |c| := by
      have : (((|c| : Int)) : ℚ) = |(c : ℚ)| := Int.cast_abs
      rw [this, ← hc, abs_mul, abs_of_pos hD]
    have : ⌈|q| * 10 ^ p'.maxDecimalDigits - pointFive⌉ = |c| := by
      rw [habs, Int.ceil_eq_iff]
      unfold pointFive
      constructor <;> push_cast <;> linarith
    rw [this] at hm
    have : p'.magnitude = |q| := by rw [hm, ← habs]; field_simp
    rw [this]
    by_cases hneg : q < 0
    · simp only [hneg, decide_true, if_true]; rw [abs_of_neg hneg]; ring
    · simp only [hneg, decide_false, Bool.false_eq_true, if_false]; rw [abs_of_nonneg (not_lt.mp hneg)]

/-- Storing a number that is already stored. -/
theorem setValue_magnitude (p p' : PreciseDecimal) (q : ℚ) (hn : p.maxIntegerDigits ≤ 19) (hd : p'.maxDecimalDigits = p.maxDecimalDigits)
    (h1 : p'.decimal < 10 ^ p.maxDecimalDigits) (h2 : p'.integer < 10 ^ p.maxIntegerDigits) (hq : |q| = p'.magnitude) :
    p.setValue q = some { p with isNegative := decide (q < 0), integer := p'.integer, decimal := p'.decimal } := by
  have hD : (0 : ℚ) < 10 ^ p.maxDecimalDigits := by positivity
  have hlt : (p'.decimal : ℚ) / 10 ^ p.maxDecimalDigits < 1 := by
    rw [div_lt_one hD]; exact_mod_cast h1
  have hnn : (0 : ℚ) ≤ (p'.decimal : ℚ) / 10 ^ p.maxDecimalDigits := by positivity
  have hval : |q| = (p'.integer : ℚ) + (p'.decimal : ℚ) / 10 ^ p.maxDecimalDigits := by rw [hq, magnitude, hd]
  have hfl : ⌊|q|⌋ = p'.integer := by
    rw [hval, Int.floor_eq_iff]; push_cast; constructor <;> linarith
  unfold setValue
  simp only [abs_ite, hfl, Int.toNat_natCast]
  have hle : (10 : Nat) ^ p.maxIntegerDigits ≤ 10 ^ 19 := Nat.pow_le_pow_right (by norm_num) hn
  have h64 : ¬ (p'.integer ≥ 2 ^ 64) := by
    have : (10 : Nat) ^ 19 < 2 ^ 64 := by norm_num
    omega
  rw [if_neg h64, if_neg (by rw [findMax_lt]; omega)]
  have hc : ⌈(|q| - (p'.integer : ℚ)) * 10 ^ p.maxDecimalDigits - pointFive⌉ = (p'.decimal : Int) := by
    have : (|q| - (p'.integer : ℚ)) * 10 ^ p.maxDecimalDigits = p'.decimal := by rw [hval]; field_simp; ring
    rw [this, Int.ceil_eq_iff]
    unfold pointFive
    constructor <;> push_cast <;> linarith
  rw [hc]
  simp only [Int.toNat_natCast]
  rw [if_neg (by rw [findMax_lt]; omega)]

/-- Rounding does not cross a whole number. -/
theorem setValue_bounds (p p' : PreciseDecimal) (q : ℚ) (hn : p.maxIntegerDigits = 19) (h : p.setValue q = some p') :
    p'.maxIntegerDigits = 19 ∧ p'.maxDecimalDigits = p.maxDecimalDigits ∧ p'.decimal < 10 ^ p.maxDecimalDigits ∧
    p'.isNegative = decide (q < 0) ∧
    (∀ n : Nat, n ≤ 10 ^ 18 → (n : ℚ) ≤ |q| → (n : ℚ) ≤ p'.magnitude) ∧
    (∀ n : Nat, |q| ≤ n → n < 10 ^ 19 → p'.magnitude ≤ n) ∧ |q| < 2 ^ 64 := by
  have hD : (0 : ℚ) < 10 ^ p.maxDecimalDigits := by positivity
  by_cases hq : |q| < 10 ^ p.maxIntegerDigits
  · obtain ⟨p1, h1, h2, h3, h4, h5, h6, h7⟩ := setValue_eq p q (by omega) hq
    rw [h] at h1
    injection h1 with h1
    subst h1
    have h7' := h7
    rw [← h3] at h7'
    obtain ⟨hm, -, -⟩ := magnitude_of_eq h7' rfl
    rw [h3] at hm
    refine ⟨by rw [h2, hn], h3, h5, h4, ?_, ?_, ?_⟩
    · intro n _ hle
      rw [hm, le_div_iff₀ hD]
      have : ((n * 10 ^ p.maxDecimalDigits : Nat) : Int) ≤ ⌈|q| * 10 ^ p.maxDecimalDigits - pointFive⌉ := by
        have h1 : (((n * 10 ^ p.maxDecimalDigits : Nat) : Int) - 1 : ℚ) < ⌈|q| * 10 ^ p.maxDecimalDigits - pointFive⌉ := by
          have := Int.le_ceil (|q| * 10 ^ p.maxDecimalDigits - pointFive)
          have h2 : (n : ℚ) * 10 ^ p.maxDecimalDigits ≤ |q| * 10 ^ p.maxDecimalDigits := mul_le_mul_of_nonneg_right hle hD.le
          unfold pointFive at this ⊢
          push_cast
          linarith
        have h2 : ((n * 10 ^ p.maxDecimalDigits : Nat) : Int) - 1 < ⌈|q| * 10 ^ p.maxDecimalDigits - pointFive⌉ := by exact_mod_cast h1
        omega
      exact_mod_cast this
    · intro n hle _
      rw [hm, div_le_iff₀ hD]
      have : ⌈|q| * 10 ^ p.maxDecimalDigits - pointFive⌉ ≤ ((n * 10 ^ p.maxDecimalDigits : Nat) : Int) := by
        apply Int.ceil_le.mpr
        have h2 : |q| * 10 ^ p.maxDecimalDigits ≤ (n : ℚ) * 10 ^ p.maxDecimalDigits := mul_le_mul_of_nonneg_right hle hD.le
        unfold pointFive
        push_cast
        linarith
      exact_mod_cast this
    · rw [hn] at hq
      have : (10 : ℚ) ^ 19 < 2 ^ 64 := by norm_num
      linarith
  · unfold setValue at h
    simp only [abs_ite] at h
    have h0 := abs_nonneg q
    rw [hn] at hq
    have hq := not_lt.mp hq
    generalize |q| = x at h0 hq h
    obtain ⟨k, hk⟩ : ∃ k : Nat, ⌊x⌋ = k := ⟨⌊x⌋.toNat, (Int.toNat_of_nonneg (Int.floor_nonneg.mpr h0)).symm⟩
    have hk2 : x < (k : ℚ) + 1 := by have := Int.lt_floor_add_one x; rw [hk] at this; exact_mod_cast this
    have hk19 : 10 ^ 19 ≤ k := by
      have : (10 : ℚ) ^ 19 < (k : ℚ) + 1 := by linarith
      have : 10 ^ 19 < k + 1 := by exact_mod_cast this
      omega
    simp only [hk, Int.toNat_natCast] at h
    by_cases h64 : k ≥ 2 ^ 64
    · rw [if_pos h64] at h; cases h
    · rw [if_neg h64, if_pos (by rw [findMax_lt, hn]; exact hk19)] at h
      injection h with h
      subst h
      have hfm : findMax p.maxDecimalDigits < 10 ^ p.maxDecimalDigits := by
        have : 0 < 10 ^ p.maxDecimalDigits := Nat.pos_of_ne_zero (by simp)
        rw [findMax_eq]; omega
      refine ⟨hn, rfl, hfm, rfl, ?_, ?_, ?_⟩
      · intro n hn18 _
        unfold magnitude
        simp only [hn]
        have h1 : (n : ℚ) ≤ (findMax 19 : ℚ) := by
          have : n ≤ findMax 19 := by rw [findMax_eq]; omega
          exact_mod_cast this
        have h2 : (0 : ℚ) ≤ (findMax p.maxDecimalDigits : ℚ) / 10 ^ p.maxDecimalDigits := by positivity
        linarith
      · intro n hxn hlt
        exfalso
        have : (10 : ℚ) ^ 19 ≤ n := le_trans hq hxn
        have : 10 ^ 19 ≤ n := by exact_mod_cast this
        omega
      · have : (k : ℚ) + 1 ≤ 2 ^ 64 := by
          have : k + 1 ≤ 2 ^ 64 := by omega
          exact_mod_cast this
        linarith

theorem setValue_defined (p : PreciseDecimal) (q : ℚ) (h : |q| < 2 ^ 64) : (p.setValue q).isSome := by
  unfold setValue
  simp only [abs_ite]
  rw [if_neg]
  · split
    · rfl
    · split <;> rfl
  · intro hc
    have h0 := abs_nonneg q
    have h1 : ((2 ^ 64 : Nat) : ℚ) ≤ ((⌊|q|⌋.toNat : Nat) : ℚ) := by exact_mod_cast hc
    have h2 : ((⌊|q|⌋.toNat : Nat) : ℚ) = ((⌊|q|⌋ : Int) : ℚ) := by
      have : ((⌊|q|⌋.toNat : Nat) : Int) = ⌊|q|⌋ := Int.toNat_of_nonneg (Int.floor_nonneg.mpr h0)
      exact_mod_cast congrArg (fun z : Int => (z : ℚ)) this
    have h3 := Int.floor_le |q|
    push_cast at h1
    linarith

/-! ### Text -/

theorem countDigits_eq {dec : Nat} (hpos : 0 < dec) : ∀ (fuel digits : Nat), dec < 10 ^ (digits + fuel) → 10 ^ digits ≤ dec →
    10 ^ (countDigits dec fuel digits (10 ^ digits) - 1) ≤ dec ∧ dec < 10 ^ countDigits dec fuel digits (10 ^ digits) ∧
      digits < countDigits dec fuel digits (10 ^ digits) := by
  intro fuel
  induction fuel with
  | zero => intro digits h1 h2; simp at h1; omega
  | succ fuel ih =>
    intro digits h1 h2
    unfold countDigits
    rw [← pow_succ]
    have hp : 0 < 10 ^ (digits + 1) := Nat.pos_of_ne_zero (by simp)
    by_cases h : dec / 10 ^ (digits + 1) < 1
    · rw [if_pos h]
      rw [Nat.div_lt_one_iff hp] at h
      exact ⟨h2, h, by omega⟩
    · rw [if_neg h]
      have h : 10 ^ (digits + 1) ≤ dec := by
        by_contra hc
        exact h ((Nat.div_lt_one_iff hp).mpr (by omega))
      obtain ⟨g1, g2, g3⟩ := ih (digits + 1) (by rw [show digits + 1 + fuel = digits + (fuel + 1) by omega]; exact h1) h
      exact ⟨g1, g2, by omega⟩

theorem countDigits_length {dec n : Nat} (hpos : 0 < dec) (h : dec < 10 ^ n) : countDigits dec (n + 1) 0 1 = (Nat.toDigits 10 dec).length := by
  have hlt : dec < 10 ^ (0 + (n + 1)) := by
    have : (10 : Nat) ^ n ≤ 10 ^ (0 + (n + 1)) := Nat.pow_le_pow_right (by norm_num) (by omega)
    omega
  obtain ⟨g1, g2, g3⟩ := countDigits_eq hpos (n + 1) 0 hlt (by rw [pow_zero]; exact hpos)
  simp only [pow_zero] at g1 g2 g3
  generalize countDigits dec (n + 1) 0 1 = k at g1 g2 g3
  have a1 : (Nat.toDigits 10 dec).length ≤ k := (Nat.length_toDigits_le_iff (by norm_num) (by omega)).mpr g2
  have a2 : ¬ (Nat.toDigits 10 dec).length ≤ k - 1 := by
    intro hle
    by_cases hk : k - 1 = 0
    · have : 0 < (Nat.toDigits 10 dec).length := Nat.length_toDigits_pos
      omega
    · have := (Nat.length_toDigits_le_iff (by norm_num) (by omega)).mp hle
      omega
  omega

theorem digitsVal_append (a b : Str) : digitsVal (a ++ b) = digitsVal a * 10 ^ b.length + digitsVal b := by
  induction a with
  | nil => simp [digitsVal]
  | cons c cs ih =>
    simp only [List.cons_append, digitsVal, ih, List.length_append, pow_add]; ring

theorem digitsVal_replicate (k : Nat) : digitsVal (List.replicate k '0') = 0 := by
  induction k with
  | zero => rfl
  | succ k ih => rw [List.replicate_succ]; simp only [digitsVal, ih]; simp

theorem digitsVal_toDigits (n : Nat) : digitsVal (Nat.toDigits 10 n) = n := by
  rw [digitsVal_eq]; exact Nat.ofDigitChars_toDigits (by norm_num) (by norm_num)

theorem toDigits_head {n : Nat} (h : (Nat.toDigits 10 n).head? = some '0') : n = 0 := by
  induction n using Nat.strongRecOn with
  | ind n ih =>
    by_cases hn : n < 10
    · rw [Nat.toDigits_of_lt_base hn] at h
      simp only [List.head?_cons, Option.some.injEq] at h
      have : ∀ m : Fin 10, Nat.digitChar m.val = '0' → m.val = 0 := by decide
      exact this ⟨n, hn⟩ h
    · rw [Nat.toDigits_of_base_le (by norm_num) (by omega)] at h
      have hne : Nat.toDigits 10 (n / 10) ≠ [] := by
        intro e
        have : 0 < (Nat.toDigits 10 (n / 10)).length := Nat.length_toDigits_pos
        rw [e] at this; simp at this
      rw [List.head?_append_of_ne_nil _ hne] at h
      have := ih (n / 10) (by omega) h
      omega

/-- Digits without trailing zeros. -/
theorem strip_zeros (l : Str) : ∃ k, l = (l.reverse.dropWhile (· == '0')).reverse ++ List.replicate k '0' := by
  refine ⟨(l.reverse.takeWhile (· == '0')).length, ?_⟩
  have h1 : l.reverse.takeWhile (· == '0') = List.replicate (l.reverse.takeWhile (· == '0')).length '0' := by
    apply List.eq_replicate_of_mem
    intro c hc
    simpa using List.all_takeWhile (p := (· == '0')) (l := l.reverse) |> fun h => List.all_eq_true.mp h c hc
  have h2 : l.reverse = List.replicate (l.reverse.takeWhile (· == '0')).length '0' ++ l.reverse.dropWhile (· == '0') := by
    rw [← h1]; exact (List.takeWhile_append_dropWhile).symm
  have h3 := congrArg List.reverse h2
  rw [List.reverse_reverse, List.reverse_append, List.reverse_replicate] at h3
  exact h3

theorem strip_last (l : Str) : ((l.reverse.dropWhile (· == '0')).reverse).getLast? ≠ some '0' := by
  rw [List.getLast?_reverse]
  intro h
  have := List.head?_dropWhile_not (p := (· == '0')) l.reverse
  rw [h] at this
  simp at this

/-- The text of a decimal is the canonical numeral of its value. -/
theorem toStr_canonical (p : PreciseDecimal) (h : p.decimal < 10 ^ p.maxDecimalDigits) : CanonicalDecimal p.toStr p.getValue := by
  have hdig : ∀ n : Nat, ∀ c ∈ Nat.toDigits 10 n, Digit c := fun n c hc => isDigit_iff.mp (toDigits_isDigit c hc)
  have hne : ∀ n : Nat, Nat.toDigits 10 n ≠ [] := by
    intro n e
    have : 0 < (Nat.toDigits 10 n).length := Nat.length_toDigits_pos
    rw [e] at this; simp at this
  have hlead : ∀ n : Nat, (Nat.toDigits 10 n).head? = some '0' → Nat.toDigits 10 n = ['0'] := by
    intro n hh; rw [toDigits_head hh]; rfl
  rw [getValue_eq]
  unfold toStr
  by_cases hz : p.integer = 0 ∧ p.decimal = 0
  · rw [if_pos hz]
    refine ⟨[], ['0'], [], rfl, by simp, by decide, by simp, by simp, by simp, Or.inr ⟨rfl, ?_⟩⟩
    simp [magnitude, hz.1, hz.2, decimalVal, digitsVal]
  · rw [if_neg hz]
    have hpos : 0 < p.magnitude := by
      unfold magnitude
      rcases Nat.eq_zero_or_pos p.integer with h0 | h0
      · have h1 : 0 < p.decimal := by omega
        have : (0 : ℚ) < (p.decimal : ℚ) / 10 ^ p.maxDecimalDigits := div_pos (by exact_mod_cast h1) (by positivity)
        rw [h0]; push_cast; linarith
      · have h1 : (0 : ℚ) < p.integer := by exact_mod_cast h0
        have : (0 : ℚ) ≤ (p.decimal : ℚ) / 10 ^ p.maxDecimalDigits := by positivity
        linarith
    have hsign : ∀ v : ℚ, p.magnitude = v →
        (((if p.isNegative then ['-'] else []) = ['-'] ∧ (if p.isNegative then -p.magnitude else p.magnitude) = -v ∧
          (if p.isNegative then -p.magnitude else p.magnitude) ≠ 0) ∨
        ((if p.isNegative then ['-'] else []) = ([] : Str) ∧ (if p.isNegative then -p.magnitude else p.magnitude) = v)) := by
      intro v hv
      cases p.isNegative
      · right; simp [hv]
      · left; simp [hv]; rw [← hv]; exact hpos.ne'
    by_cases hd : p.decimal = 0
    · simp only [hd, if_true]
      refine ⟨if p.isNegative then ['-'] else [], Nat.toDigits 10 p.integer, [], by simp, hne _, hdig _, hlead _, by simp, by simp, ?_⟩
      apply hsign
      simp [magnitude, hd, decimalVal, digitsVal_toDigits, digitsVal]
    · simp only [hd, if_false]
      have hdpos : 0 < p.decimal := by omega
      rw [countDigits_length hdpos h]
      obtain ⟨k, hk⟩ := strip_zeros (Nat.toDigits 10 p.decimal)
      have hlast := strip_last (Nat.toDigits 10 p.decimal)
      have hlen : (Nat.toDigits 10 p.decimal).length ≤ p.maxDecimalDigits := by
        by_cases h0 : p.maxDecimalDigits = 0
        · rw [h0] at h; simp at h; omega
        · exact (Nat.length_toDigits_le_iff (by norm_num) (by omega)).mpr h
      have hval := digitsVal_toDigits p.decimal
      have hdg := hdig p.decimal
      generalize Nat.toDigits 10 p.decimal = ds at hk hlast hlen hval hdg
      generalize (ds.reverse.dropWhile (· == '0')).reverse = st at hk hlast
      subst hk
      have hst : st ≠ [] := by
        rintro rfl
        rw [List.nil_append, digitsVal_replicate] at hval; omega
      refine ⟨if p.isNegative then ['-'] else [], Nat.toDigits 10 p.integer,
        List.replicate (p.maxDecimalDigits - (st ++ List.replicate k '0').length) '0' ++ st, ?_, hne _, hdig _, hlead _, ?_, ?_, ?_⟩
      · rw [if_neg (List.append_ne_nil_of_right_ne_nil _ hst)]; simp
      · intro c hc
        rcases List.mem_append.mp hc with hc | hc
        · rw [(List.mem_replicate.mp hc).2]; decide
        · exact hdg c (by simp [hc])
      · rw [List.getLast?_append_of_ne_nil _ hst]; exact hlast
      · apply hsign
        rw [digitsVal_append, digitsVal_replicate, List.length_replicate] at hval
        unfold magnitude decimalVal
        rw [digitsVal_toDigits, digitsVal_append, digitsVal_replicate]
        simp only [List.length_append, List.length_replicate, zero_mul, zero_add] at hlen ⊢
        rw [← hval]
        have e : p.maxDecimalDigits = (p.maxDecimalDigits - (st.length + k) + st.length) + k := by omega
        generalize p.maxDecimalDigits - (st.length + k) + st.length = m at e
        rw [e, pow_add]
        push_cast
        field_simp
        simp
        ring

end PreciseDecimal

/-! ### Reading -/

theorem readSign_spec (s : Str) : ∃ sign, s = sign ++ (readSign s).2 ∧
    ((sign = ['-'] ∧ (readSign s).1 = true) ∨ ((sign = [] ∨ sign = ['+']) ∧ (readSign s).1 = false)) := by
  unfold readSign
  split
  · exact ⟨['-'], by simp⟩
  · exact ⟨['+'], by simp⟩
  · exact ⟨[], by simp⟩

theorem takeWhile_digits (u : Str) : ∀ x ∈ u.takeWhile Char.isDigit, x.isDigit := fun x hx =>
  List.all_eq_true.mp (List.all_takeWhile (l := u) (p := Char.isDigit)) x hx

theorem readFraction_spec (u : Str) : ∃ point, u = point ++ (readFraction u).1 ++ (readFraction u).2 ∧
    (point = ['.'] ∨ (point = [] ∧ (readFraction u).1 = [])) ∧ ∀ c ∈ (readFraction u).1, c.isDigit := by
  unfold readFraction
  split
  · rename_i v
    exact ⟨['.'], by simp [List.takeWhile_append_dropWhile], Or.inl rfl, takeWhile_digits v⟩
  · exact ⟨[], by simp, Or.inr ⟨rfl, rfl⟩, by simp⟩

/-- Texts of exponents. -/
def ExpText (ex : Str) (e : Int) : Prop :=
  (ex = [] ∧ e = 0) ∨ ∃ c esign es, ex = c :: esign ++ es ∧ (c = 'e' ∨ c = 'E') ∧ es ≠ [] ∧ (∀ c ∈ es, Digit c) ∧
    ((esign = ['-'] ∧ e = -(digitsVal es : Int)) ∨ ((esign = [] ∨ esign = ['+']) ∧ e = (digitsVal es : Int)))

theorem readExponent_spec (u : Str) (e : Int) (h : (readExponent u).1 = some e) : ∃ ex, u = ex ++ (readExponent u).2 ∧ ExpText ex e := by
  unfold readExponent at h ⊢
  split at h
  · rename_i c t
    by_cases hc : c = 'e' ∨ c = 'E'
    · simp only [hc, if_true] at h ⊢
      obtain ⟨sign, h1, h2⟩ := readSign_spec t
      generalize readSign t = p at *
      obtain ⟨neg, v⟩ := p
      simp only at h h1 h2 ⊢
      by_cases he : v.takeWhile Char.isDigit = []
      · simp [he] at h
      · simp only [he, if_false, Option.some.injEq] at h
        refine ⟨c :: sign ++ v.takeWhile Char.isDigit, ?_, Or.inr ⟨c, sign, v.takeWhile Char.isDigit, rfl, hc, he, ?_, ?_⟩⟩
        · rw [h1]; simp [List.takeWhile_append_dropWhile]
        · exact fun x hx => isDigit_iff.mp (takeWhile_digits v x hx)
        · rw [digitsVal_eq]
          rcases h2 with ⟨a, b⟩ | ⟨a, b⟩
          · left; refine ⟨a, ?_⟩; rw [← h, b]; simp
          · right; refine ⟨a, ?_⟩; rw [← h, b]; simp
    · simp only [hc, if_false, Option.some.injEq] at h ⊢
      exact ⟨[], rfl, Or.inl ⟨rfl, h.symm⟩⟩
  · simp only [Option.some.injEq] at h
    exact ⟨[], rfl, Or.inl ⟨rfl, h.symm⟩⟩

theorem decimalVal_eq (ip fp : Str) : decimalVal ip fp = (Nat.ofDigitChars 10 (ip ++ fp) 0 : ℚ) / 10 ^ fp.length := by
  rw [← digitsVal_eq, PreciseDecimal.digitsVal_append]
  unfold decimalVal
  push_cast
  field_simp

theorem head_ws {w : Str} (hw : ∀ c ∈ w, White c) {c : Char} (h : w.head? = some c) : isWs c = true := isWs_iff.mpr (hw c (List.mem_of_head? h))

/-- Complete characterisation of a successful "read a decimal, then only white space". -/
theorem readDecimal_complete (s : Str) (v : ℚ) :
    ((readDecimal s).value = some v ∧ skipWs (readDecimal s).rest = []) ↔ (DecimalText s v ∧ |v| < 2 ^ 16384) := by
  constructor
  · rintro ⟨hv, hr⟩
    obtain ⟨w, hs, hw⟩ := skipWs_split s
    unfold readDecimal at hv hr
    revert hv hr
    split
    · simp
    · rename_i c t hct
      rw [hct] at hs
      obtain ⟨sign, hsg, hsg2⟩ := readSign_spec (c :: t)
      generalize readSign (c :: t) = p at *
      obtain ⟨neg, u⟩ := p
      simp only at hsg hsg2 ⊢
      obtain ⟨point, hf1, hf2, hf3⟩ := readFraction_spec (u.dropWhile Char.isDigit)
      generalize readFraction (u.dropWhile Char.isDigit) = p at *
      obtain ⟨fp, u2⟩ := p
      simp only at hf1 hf2 hf3 ⊢
      by_cases hne : u.takeWhile Char.isDigit = [] ∧ fp = []
      · simp [hne]
      · rw [if_neg hne]
        have hex := readExponent_spec u2
        generalize readExponent u2 = p at *
        obtain ⟨e, rest⟩ := p
        cases e with
        | none => simp
        | some e =>
          obtain ⟨ex, he1, he2⟩ := hex e rfl
          simp only at he1 ⊢
          generalize hvv : (if neg = true then -((Nat.ofDigitChars 10 (u.takeWhile Char.isDigit ++ fp) 0 : Nat) : ℚ)
            else ((Nat.ofDigitChars 10 (u.takeWhile Char.isDigit ++ fp) 0 : Nat) : ℚ)) / 10 ^ fp.length * 10 ^ e = vv
          by_cases hlt : |vv| < 2 ^ 16384
          · rw [if_pos hlt]
            intro hv hr
            simp only [Option.some.injEq] at hv
            rw [hv] at hlt hvv
            refine ⟨⟨w, sign, u.takeWhile Char.isDigit, fp, point, ex, rest, ?_, ?_, ?_, ?_, ?_, ?_, hf2, e, he2, ?_⟩, hlt⟩
            · rw [hs, hsg]
              conv_lhs => rw [← List.takeWhile_append_dropWhile (p := Char.isDigit) (l := u), hf1, he1]
              simp only [List.append_assoc]
            · exact fun x hx => isWs_iff.mp (hw x hx)
            · exact fun x hx => isWs_iff.mp (skipWs_eq_nil.mp hr x hx)
            · exact fun x hx => isDigit_iff.mp (takeWhile_digits u x hx)
            · exact fun x hx => isDigit_iff.mp (hf3 x hx)
            · intro hh; exact hne (List.append_eq_nil_iff.mp hh)
            · rw [decimalVal_eq]
              rcases hsg2 with ⟨a, b⟩ | ⟨a, b⟩
              · left; refine ⟨a, ?_⟩; rw [← hvv, b]; simp only [if_true]; ring
              · right; refine ⟨a, ?_⟩; rw [← hvv, b]; simp
          · simp [hlt]
  · rintro ⟨⟨w₁, sign, ip, fp, point, ex, w₂, rfl, hw1, hw2, hip, hfp, hne, hpt, e, hex, hsv⟩, hlt⟩
    have hw1' : ∀ c ∈ w₁, isWs c := fun c hc => isWs_iff.mpr (hw1 c hc)
    have hw2' : ∀ c ∈ w₂, isWs c := fun c hc => isWs_iff.mpr (hw2 c hc)
    have hip' : ∀ c ∈ ip, c.isDigit := fun c hc => isDigit_iff.mpr (hip c hc)
    have hfp' : ∀ c ∈ fp, c.isDigit := fun c hc => isDigit_iff.mpr (hfp c hc)
    have hws : ∀ c, w₂.head? = some c → c.isDigit = false := fun c hc => not_isDigit_of_isWs (head_ws hw2 hc)
    -- what can follow the mantissa
    have hxw : ∀ c, (ex ++ w₂).head? = some c → c.isDigit = false ∧ c ≠ '.' := by
      intro c hc
      rcases hex with ⟨rfl, _⟩ | ⟨c0, esign, es, rfl, hc0, _⟩
      · refine ⟨hws c hc, ?_⟩
        rintro rfl
        have := head_ws hw2 hc
        revert this; decide
      · simp only [List.cons_append, List.head?_cons, Option.some.injEq] at hc
        subst hc
        rcases hc0 with rfl | rfl <;> decide
    have hrest : ∀ c, (point ++ fp ++ ex ++ w₂).head? = some c → c.isDigit = false := by
      intro c hc
      rcases hpt with rfl | ⟨rfl, rfl⟩
      · simp at hc; subst hc; decide
      · exact (hxw c (by simpa using hc)).1
    -- the exponent
    have hre : readExponent (ex ++ w₂) = (some e, w₂) := by
      rcases hex with ⟨rfl, rfl⟩ | ⟨c0, esign, es, rfl, hc0, hes, hed, hev⟩
      · rw [List.nil_append]
        unfold readExponent
        split
        · rename_i c t
          have hcw := hw2' c (by simp)
          rw [if_neg]
          rintro (rfl | rfl) <;> (revert hcw; decide)
        · rfl
      · have hed' : ∀ c ∈ es, c.isDigit := fun c hc => isDigit_iff.mpr (hed c hc)
        have hrs : readSign (esign ++ es ++ w₂) = (decide (esign = ['-']), es ++ w₂) := by
          obtain ⟨d0, dt, rfl⟩ := List.exists_cons_of_ne_nil hes
          have hds := ne_sign_of_isDigit (hed' d0 (by simp))
          rcases hev with ⟨rfl, _⟩ | ⟨rfl | rfl, _⟩
          · rfl
          · exact readSign_of_ne hds
          · rfl
        have e1 : c0 :: esign ++ es ++ w₂ = c0 :: (esign ++ es ++ w₂) := by simp
        rw [e1]
        unfold readExponent
        simp only [hc0, if_true, hrs]
        rw [takeWhile_append_of_all hed' hws, dropWhile_append_of_all hed' hws]
        simp only [hes, if_false, decide_eq_true_eq]
        rw [digitsVal_eq] at hev
        rcases hev with ⟨rfl, h⟩ | ⟨rfl | rfl, h⟩ <;> simp [h]
    have hrf : readFraction (point ++ fp ++ ex ++ w₂) = (fp, ex ++ w₂) := by
      rcases hpt with rfl | ⟨rfl, rfl⟩
      · have e1 : ['.'] ++ fp ++ ex ++ w₂ = '.' :: (fp ++ (ex ++ w₂)) := by simp
        rw [e1]
        show ((fp ++ (ex ++ w₂)).takeWhile Char.isDigit, (fp ++ (ex ++ w₂)).dropWhile Char.isDigit) = _
        rw [takeWhile_append_of_all hfp' (fun c hc => (hxw c hc).1), dropWhile_append_of_all hfp' (fun c hc => (hxw c hc).1)]
      · simp only [List.nil_append]
        unfold readFraction
        split
        · rename_i v hv
          exact absurd rfl (hxw '.' (by rw [hv]; rfl)).2
        · rfl
    -- the first character
    have hhead : ∃ c t, ip ++ (point ++ fp ++ ex ++ w₂) = c :: t ∧ isWs c = false ∧ c ≠ '-' ∧ c ≠ '+' := by
      cases ip with
      | cons c t => exact ⟨c, _, rfl, isWs_of_isDigit (hip' c (by simp)), ne_sign_of_isDigit (hip' c (by simp))⟩
      | nil =>
        rcases hpt with rfl | ⟨rfl, rfl⟩
        · exact ⟨'.', _, rfl, by decide, by decide, by decide⟩
        · exact absurd rfl hne
    obtain ⟨c0, t0, hc0, hcw, hcs⟩ := hhead
    have hsk : skipWs (w₁ ++ sign ++ ip ++ point ++ fp ++ ex ++ w₂) = sign ++ (ip ++ (point ++ fp ++ ex ++ w₂)) := by
      simp only [List.append_assoc] at hc0 ⊢
      rw [skipWs_append_ws hw1']
      rcases hsv with ⟨rfl, _⟩ | ⟨rfl | rfl, _⟩
      · exact skipWs_of_head (by decide)
      · rw [List.nil_append, hc0]; exact skipWs_of_head hcw
      · exact skipWs_of_head (by decide)
    have hrs : readSign (sign ++ (ip ++ (point ++ fp ++ ex ++ w₂))) = (decide (sign = ['-']), ip ++ (point ++ fp ++ ex ++ w₂)) := by
      rcases hsv with ⟨rfl, _⟩ | ⟨rfl | rfl, _⟩
      · rfl
      · rw [List.nil_append, hc0]; exact readSign_of_ne hcs
      · rfl
    have hcons : ∃ c t, sign ++ (ip ++ (point ++ fp ++ ex ++ w₂)) = c :: t := by
      rw [hc0]
      rcases hsv with ⟨rfl, _⟩ | ⟨rfl | rfl, _⟩ <;> exact ⟨_, _, rfl⟩
    obtain ⟨c, t, hct⟩ := hcons
    have hval : v = (if sign = ['-'] then -(Nat.ofDigitChars 10 (ip ++ fp) 0 : ℚ) else (Nat.ofDigitChars 10 (ip ++ fp) 0 : ℚ)) / 10 ^ fp.length * 10 ^ e := by
      rw [decimalVal_eq] at hsv
      rcases hsv with ⟨rfl, h⟩ | ⟨rfl | rfl, h⟩
      · rw [h]; simp only [if_true]; ring
      · rw [h]; simp
      · rw [h]; simp
    have hread : readDecimal (w₁ ++ sign ++ ip ++ point ++ fp ++ ex ++ w₂) = ⟨some v, w₂⟩ := by
      unfold readDecimal
      rw [hsk, hct]
      simp only
      rw [← hct, hrs]
      simp only [takeWhile_append_of_all hip' hrest, dropWhile_append_of_all hip' hrest, hrf, hre, decide_eq_true_eq]
      rw [if_neg (fun hh => hne (by rw [hh.1, hh.2]; rfl)), ← hval, if_pos hlt]
    rw [hread]
    exact ⟨rfl, skipWs_eq_nil.mpr hw2'⟩

theorem CanonicalDecimal.text {s : Str} {v : ℚ} (h : CanonicalDecimal s v) : DecimalText s v := by
  obtain ⟨sign, ip, fp, rfl, h1, h2, _, h4, _, h6⟩ := h
  refine ⟨[], sign, ip, fp, if fp = [] then [] else ['.'], [], [], ?_, by simp, by simp, h2, h4, ?_, ?_, 0, Or.inl ⟨rfl, rfl⟩, ?_⟩
  · by_cases hf : fp = [] <;> simp [hf]
  · intro hh; exact h1 (List.append_eq_nil_iff.mp hh).1
  · by_cases hf : fp = [] <;> simp [hf]
  · rcases h6 with ⟨a, b, _⟩ | ⟨a, b⟩
    · left; exact ⟨a, by rw [b]; simp⟩
    · right; exact ⟨Or.inl a, by rw [b]; simp⟩

end Mx
