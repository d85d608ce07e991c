import Verif.Proofs.FloatReals

/-! Real numbers of the API (widths, margins, positions, sizes, volumes ...) in floating point arithmetic, written to a document and read again. -/
open Spec
namespace Mx.Props
open Fl

/-- **C84** Every number comes back as a number at most 0.77 millionths away, in the range of the class. -/
theorem C84_near {prec : Nat} (hp : 53 ≤ prec) (k : DecimalKind) (v : ℚ) (hv : fl prec v = v) (h : Holds k v) : ∃ v', throughText prec k v = some v' ∧ |v' - v| ≤ 0.77 / 10 ^ 6 ∧ InRange k v' := by
  obtain ⟨n, h1, h2, h3, h4⟩ := through_any hp (by rw [← hv]; exact fl_rep prec (by omega) v) h
  refine ⟨_, h4, ?_, microF_inRange hp h2 h3⟩
  have h5 := abs_le.mp (microF_near hp h2)
  have h1' := abs_le.mp h1
  rw [abs_le]
  constructor <;> linarith [h5.1, h5.2, h1'.1, h1'.2]

/-- **C84** What has come back once comes back unchanged ever after. -/
theorem C84_stable {prec : Nat} (hp : 53 ≤ prec) (k : DecimalKind) (v v' : ℚ) (hv : fl prec v = v) (h : Holds k v) (h' : throughText prec k v = some v') : throughText prec k v' = some v' := by
  obtain ⟨n, -, h2, h3, h4⟩ := through_any hp (by rw [← hv]; exact fl_rep prec (by omega) v) h
  rw [h', Option.some.injEq] at h4
  rw [h4]
  exact through_micro hp h2 h3

/-- **C84** Multiples of a 64th come back exactly. -/
theorem C84_exact {prec : Nat} (hp : 53 ≤ prec) (k : DecimalKind) (m : Int) (h : Holds k ((m : ℚ) / 64)) : throughText prec k ((m : ℚ) / 64) = some ((m : ℚ) / 64) := by
  have hmod := h.moderate
  rw [abs_div, abs_of_pos (by norm_num : (0 : ℚ) < 64), div_le_iff₀ (by norm_num)] at hmod
  have hm : |m| ≤ 2 ^ 52 := by
    have : ((|m| : Int) : ℚ) ≤ ((2 ^ 52 : Int) : ℚ) := by push_cast; exact le_trans hmod (by norm_num)
    exact_mod_cast this
  have hd := microF_dyadic hp hm
  obtain ⟨n, h1, -, -, h4⟩ := through_any hp (v := (m : ℚ) / 64) (by rw [← hd]; exact microF_rep (by omega) _) h
  have hn : n = 15625 * m := by
    have e : ((n - 15625 * m : Int) : ℚ) = (n : ℚ) - (m : ℚ) / 64 * 10 ^ 6 := by push_cast; ring
    rw [← e] at h1
    have h2 : |n - 15625 * m| < 1 := by
      have : ((|n - 15625 * m| : Int) : ℚ) < (1 : Int) := by
        push_cast at h1 ⊢
        linarith
      exact_mod_cast this
    have := Int.abs_lt_one_iff.mp h2
    omega
  rw [h4, hn, hd]

/-- **C84** Numbers of at most six decimals, given as a `double` or a `long double`, come back as numbers that are equal to them up to the tolerance of the comparison of positions. -/
theorem C84_tolerance {prec q : Nat} (hp : 53 ≤ prec) (hq : q = 53 ∨ q = prec) (k : DecimalKind) (c : Int) (h : Holds k (fl q ((c : ℚ) / 10 ^ 6))) (hc : |(c : ℚ) / 10 ^ 6| ≤ 10000000) :
    ∃ v', throughText prec k (fl q ((c : ℚ) / 10 ^ 6)) = some v' ∧ |v' - fl q ((c : ℚ) / 10 ^ 6)| < 1 / 10 ^ 8 := by
  have hq53 : 53 ≤ q := by rcases hq with h | h <;> omega
  have hrep : Rep prec (fl q ((c : ℚ) / 10 ^ 6)) := (fl_rep q (by omega) _).mono (by rcases hq with h | h <;> omega)
  obtain ⟨n, h1, h2, -, h4⟩ := through_any hp hrep h
  refine ⟨_, h4, ?_⟩
  have e1 := Measure.fl_err hq53 ((c : ℚ) / 10 ^ 6)
  have e2 : Measure.U * |(c : ℚ) / 10 ^ 6| ≤ Measure.U * 10000000 := mul_le_mul_of_nonneg_left hc Measure.U_pos.le
  have u1 : Measure.U * 10000000 ≤ 12 / 10 ^ 10 := by unfold Measure.U; norm_num
  have e3 := abs_le.mp (le_trans e1 (le_trans e2 u1))
  have hn : n = c := by
    have h1' := abs_le.mp h1
    have : |((n - c : Int) : ℚ)| < 1 := by
      push_cast
      rw [abs_lt]
      constructor <;> linarith [h1'.1, h1'.2, e3.1, e3.2]
    have h2 : |n - c| < 1 := by
      have : ((|n - c| : Int) : ℚ) < (1 : Int) := by push_cast at this ⊢; exact this
      exact_mod_cast this
    have := Int.abs_lt_one_iff.mp h2
    omega
  rw [hn]
  have g1 := Measure.microF_err hp c
  have g2 : (3 * Measure.U) * |(c : ℚ) / 10 ^ 6| ≤ (3 * Measure.U) * 10000000 := mul_le_mul_of_nonneg_left hc (by unfold Measure.U; norm_num)
  have u2 : (3 * Measure.U) * 10000000 ≤ 36 / 10 ^ 10 := by unfold Measure.U; norm_num
  have g3 := abs_le.mp (le_trans g1 (le_trans g2 u2))
  rw [abs_lt]
  constructor <;> linarith [e3.1, e3.2, g3.1, g3.2]

/-! ### Examples -/

example : Holds .TenthsValue (fl 53 (-101 / 10)) ∧ Holds .Percent (33 / 64) ∧ Holds .PositiveDivisions (1 / 10 ^ 6) :=
  ⟨⟨trivial, by decide +kernel, by rintro (h | h | h) <;> cases h⟩, ⟨⟨by decide +kernel, by decide +kernel⟩, by decide +kernel, by rintro (h | h | h) <;> cases h⟩, ⟨(by decide +kernel : (0 : ℚ) < 1 / 10 ^ 6), by decide +kernel, fun _ => le_refl _⟩⟩

example : throughText 64 .RotationDegrees (-45 - 1 / 64) = some (-45 - 1 / 64) := by decide +kernel

/-- **C84** A width of 10.1, a `double`, is not equal to the one that comes back where `long double` has 64 binary digits (widths, margins, sizes of fonts and the like are compared exactly), as it is where it has 53. -/
theorem C84_exact_comparison_fails : throughText 53 .TenthsValue (fl 53 (101 / 10)) = some (fl 53 (101 / 10)) ∧ throughText 64 .TenthsValue (fl 53 (101 / 10)) = some (fl 64 (101 / 10)) ∧
    fl 64 (101 / 10) ≠ fl 53 (101 / 10) := by decide +kernel

/-- **C84** Without the condition on small numbers the statement is false where 0 is excluded: a tiny positive number is written as 0 and comes back as a millionth. -/
theorem C84_tiny_positive : throughText 64 .PositiveDecimal (1 / 2 ^ 30) = some (fl 64 (1 / 10 ^ 6)) := by decide +kernel

end Mx.Props
