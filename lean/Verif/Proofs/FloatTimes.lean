import Verif.Model.FloatTimes
import Verif.Spec.FloatTimes
import Verif.Proofs.FloatDecimals
import Verif.Proofs.MeasureReaderRounding
import Mathlib.Tactic.Linarith

/-! Times in floating point arithmetic. -/
namespace Mx.Measure
open Spec Fl

variable {P : Type}

/-! ### Relative errors -/

/-- The unit of the error of one operation. -/
def U : ℚ := 1 / 2 ^ 53

theorem U_pos : 0 < U := by unfold U; positivity

theorem fl_err {p : Nat} (hp : 53 ≤ p) (x : ℚ) : |fl p x - x| ≤ U * |x| := by
  have := PreciseDecimal.small_error hp (y := x) (le_refl _)
  unfold U
  linarith

theorem err_fl {p : Nat} (hp : 53 ≤ p) {a x α : ℚ} (h : |a - x| ≤ α * |x|) : |fl p a - x| ≤ (α + U + α * U) * |x| := by
  have h1 := fl_err hp a
  have h2 : |a| ≤ |x| + |a - x| := by
    have : a = x + (a - x) := by ring
    calc |a| = |x + (a - x)| := by rw [← this]
      _ ≤ _ := abs_add_le _ _
  have h3 : fl p a - x = (fl p a - a) + (a - x) := by ring
  have h4 : |fl p a - x| ≤ |fl p a - a| + |a - x| := by rw [h3]; exact abs_add_le _ _
  have h5 : U * |a| ≤ U * (|x| + α * |x|) := mul_le_mul_of_nonneg_left (by linarith) U_pos.le
  calc _ ≤ U * (|x| + α * |x|) + α * |x| := by linarith
    _ = _ := by ring

theorem err_mul {a b x y α β : ℚ} (ha : |a - x| ≤ α * |x|) (hb : |b - y| ≤ β * |y|) (hα : 0 ≤ α) : |a * b - x * y| ≤ (α + β + α * β) * |x * y| := by
  have h3 : a * b - x * y = (a - x) * (b - y) + (x * (b - y) + (a - x) * y) := by ring
  have h4 : |a * b - x * y| ≤ |a - x| * |b - y| + (|x| * |b - y| + |a - x| * |y|) := by
    rw [h3]
    refine le_trans (abs_add_le _ _) ?_
    have := abs_add_le (x * (b - y)) ((a - x) * y)
    rw [abs_mul x, abs_mul (a - x) y] at this
    rw [abs_mul (a - x)]
    linarith
  have h5 : |a - x| * |b - y| ≤ (α * |x|) * (β * |y|) := mul_le_mul ha hb (abs_nonneg _) (mul_nonneg hα (abs_nonneg _))
  have h6 : |x| * |b - y| ≤ |x| * (β * |y|) := mul_le_mul_of_nonneg_left hb (abs_nonneg _)
  have h7 : |a - x| * |y| ≤ (α * |x|) * |y| := mul_le_mul_of_nonneg_right ha (abs_nonneg _)
  rw [abs_mul]
  calc _ ≤ (α * |x|) * (β * |y|) + (|x| * (β * |y|) + (α * |x|) * |y|) := by linarith
    _ = _ := by ring

theorem err_mono {a x α β : ℚ} (h : |a - x| ≤ α * |x|) (hab : α ≤ β) : |a - x| ≤ β * |x| := le_trans h (mul_le_mul_of_nonneg_right hab (abs_nonneg _))

theorem micro_parts (d : Int) : (d : ℚ) / 10 ^ 6 = (if d < 0 then -1 else 1) * (((d.natAbs / 10 ^ 6 : Nat) : ℚ) + ((d.natAbs % 10 ^ 6 : Nat) : ℚ) / 10 ^ 6) := by
  have h1 : ((d.natAbs / 10 ^ 6 : Nat) : ℚ) * 10 ^ 6 + ((d.natAbs % 10 ^ 6 : Nat) : ℚ) = (d.natAbs : Nat) := by
    have := Nat.div_add_mod d.natAbs (10 ^ 6)
    have e : d.natAbs / 10 ^ 6 * 10 ^ 6 + d.natAbs % 10 ^ 6 = d.natAbs := by omega
    exact_mod_cast e
  have h2 : ((d.natAbs / 10 ^ 6 : Nat) : ℚ) + ((d.natAbs % 10 ^ 6 : Nat) : ℚ) / 10 ^ 6 = (d.natAbs : Nat) / 10 ^ 6 := by
    rw [← h1]; field_simp
  rw [h2]
  have h3 : ((d.natAbs : Nat) : ℚ) = |(d : ℚ)| := by rw [Nat.cast_natAbs]; push_cast; rfl
  rw [h3]
  split
  · rename_i h; rw [abs_of_neg (by exact_mod_cast h)]; ring
  · rename_i h; rw [abs_of_nonneg (by exact_mod_cast (by omega : 0 ≤ d))]; ring

/-- The value of a decimal number, in binary. -/
theorem microF_err {p : Nat} (hp : 53 ≤ p) (d : Int) : |microF p d - (d : ℚ) / 10 ^ 6| ≤ (3 * U) * |(d : ℚ) / 10 ^ 6| := by
  have hpos : 0 < p := by omega
  rw [micro_parts d]
  unfold microF PreciseDecimal.expressF
  simp only
  have hdec : d.natAbs % 10 ^ 6 < 10 ^ 6 := Nat.mod_lt _ (by norm_num)
  generalize hi : d.natAbs / 10 ^ 6 = i at *
  generalize he : d.natAbs % 10 ^ 6 = e at *
  have f1 : fl p ((e : Nat) : ℚ) = e := fl_nat hpos (le_trans (by omega) (Nat.pow_le_pow_right (by norm_num) hp : 2 ^ 53 ≤ 2 ^ p))
  rw [f1, PreciseDecimal.fl_ten6 hp]
  have hi0 : (0 : ℚ) ≤ i := by positivity
  have he0 : (0 : ℚ) ≤ (e : ℚ) / 10 ^ 6 := by positivity
  have g1 := fl_err hp (i : ℚ)
  have g2 := fl_err hp ((e : ℚ) / 10 ^ 6)
  rw [abs_of_nonneg hi0] at g1
  rw [abs_of_nonneg he0] at g2
  have g3 : |fl p (i : ℚ) + fl p ((e : ℚ) / 10 ^ 6) - ((i : ℚ) + (e : ℚ) / 10 ^ 6)| ≤ U * |(i : ℚ) + (e : ℚ) / 10 ^ 6| := by
    rw [abs_of_nonneg (add_nonneg hi0 he0)]
    have e1 : fl p (i : ℚ) + fl p ((e : ℚ) / 10 ^ 6) - ((i : ℚ) + (e : ℚ) / 10 ^ 6) = (fl p (i : ℚ) - i) + (fl p ((e : ℚ) / 10 ^ 6) - (e : ℚ) / 10 ^ 6) := by ring
    rw [e1]
    refine le_trans (abs_add_le _ _) ?_
    rw [mul_add]; linarith
  have g4 := err_mono (β := 3 * U) (err_fl hp g3) (by unfold U; norm_num)
  by_cases hd : d < 0
  · rw [decide_eq_true hd, if_pos rfl, if_pos hd]
    have e2 : fl p (fl p (fl p (i : ℚ) + fl p ((e : ℚ) / 10 ^ 6)) * -1) = -fl p (fl p (i : ℚ) + fl p ((e : ℚ) / 10 ^ 6)) := by
      rw [mul_neg_one]; exact fl_exact hpos (fl_rep p hpos _).neg
    rw [e2]
    have e3 : ∀ a x : ℚ, |(-a) - (-1) * x| = |a - x| := by intro a x; rw [← abs_neg]; congr 1; ring
    rw [e3, neg_one_mul, abs_neg]
    exact g4
  · rw [decide_eq_false hd, if_neg (by simp), if_neg hd, one_mul]
    exact g4

/-- Rounding to a whole number. -/
theorem roundF_near {p : Nat} (hp : 53 ≤ p) {v x : ℚ} (h : |v - x| ≤ (6 * U) * |x|) (hx : |x| ≤ 2147483647) : |(roundF p v : ℚ) - x| ≤ 50001 / 100000 := by
  have h1 := fl_err hp (v - 1 / 2)
  have h2 : (6 * U) * |x| ≤ 1 / 400000 := by
    have : (6 * U) * |x| ≤ (6 * U) * 2147483647 := mul_le_mul_of_nonneg_left hx (by unfold U; norm_num)
    refine le_trans this ?_
    unfold U; norm_num
  have h3 : |v - 1 / 2| ≤ 2147483649 := by
    rw [abs_le] at hx ⊢
    have h' := abs_le.mp (le_trans h h2)
    constructor <;> linarith [h'.1, h'.2, hx.1, hx.2]
  have h4 : U * |v - 1 / 2| ≤ 1 / 400000 := by
    have : U * |v - 1 / 2| ≤ U * 2147483649 := mul_le_mul_of_nonneg_left h3 U_pos.le
    refine le_trans this ?_
    unfold U; norm_num
  have h5 := abs_le.mp (le_trans h1 h4)
  have h6 := abs_le.mp (le_trans h h2)
  unfold roundF
  have c1 := Int.le_ceil (fl p (v - 1 / 2))
  have c2 := Int.ceil_lt_add_one (fl p (v - 1 / 2))
  rw [abs_le]
  constructor <;> linarith [h5.1, h5.2, h6.1, h6.2]

/-- A duration is rounded to a whole number of ticks, in floating point arithmetic. -/
theorem convertF_near {p : Nat} (hp : 53 ≤ p) {C G d : Int} (hC : 0 < C) (hC' : C ≤ INT_MAX) (hG : 0 < G) (hG' : G ≤ INT_MAX) (hx : |(d : ℚ) / 1000000 * (1 / (C : ℚ)) * G| ≤ 2147483647) :
    ∃ t, convertDurationF p C G d = some t ∧ |(t : ℚ) - (d : ℚ) / 1000000 * (1 / (C : ℚ)) * G| ≤ 50001 / 100000 := by
  have hpos : 0 < p := by omega
  have hCq : (0 : ℚ) < C := by exact_mod_cast hC
  have hm := microF_err hp d
  have e6 : (10 : ℚ) ^ 6 = 1000000 := by norm_num
  rw [e6] at hm
  unfold convertDurationF
  split
  · rename_i he
    subst he
    have e : (d : ℚ) / 1000000 * (1 / (C : ℚ)) * C = (d : ℚ) / 1000000 := by field_simp
    rw [e] at hx ⊢
    exact ⟨_, rfl, roundF_near hp (err_mono hm (by unfold U; norm_num)) hx⟩
  · rw [if_neg (by omega)]
    refine ⟨_, rfl, roundF_near hp ?_ hx⟩
    have big : (2 : Int) ^ 53 ≤ 2 ^ p := pow_le_pow_right₀ (by norm_num) hp
    have fG : fl p (G : ℚ) = G := fl_int hpos (by rw [abs_of_pos hG]; unfold INT_MAX at hG'; omega)
    have fC : fl p (C : ℚ) = C := fl_int hpos (by rw [abs_of_pos hC]; unfold INT_MAX at hC'; omega)
    rw [fG, fC]
    have hq := fl_err hp ((G : ℚ) / C)
    have h1 := err_mul hm hq (by unfold U; norm_num)
    have h2 := err_fl hp h1
    have e : (d : ℚ) / 1000000 * (1 / (C : ℚ)) * G = (d : ℚ) / 1000000 * ((G : ℚ) / C) := by field_simp
    rw [e]
    exact err_mono h2 (by unfold U; norm_num)

theorem half_way {t t0 : Int} {x : ℚ} (h : |(t : ℚ) - x| ≤ 50001 / 100000) (h0 : |(t0 : ℚ) - x| ≤ 1 / 2) (hx : NoHalfTick x) : t = t0 := by
  rw [abs_le] at h h0
  by_contra hne
  have far : ∀ a b : Int, a < b → |(a : ℚ) - x| ≤ 50001 / 100000 → |(b : ℚ) - x| ≤ 50001 / 100000 → False := by
    intro a b hab ha hb
    rw [abs_le] at ha hb
    have h1 : (a : ℚ) + 1 ≤ b := by exact_mod_cast hab
    have h2 := hx a
    have h3 : |x - (a + 1 / 2)| ≤ 1 / 100000 := by
      rw [abs_le]
      constructor <;> linarith [ha.1, ha.2, hb.1, hb.2]
    linarith
  have h' : |(t : ℚ) - x| ≤ 50001 / 100000 := abs_le.mpr h
  have h0' : |(t0 : ℚ) - x| ≤ 50001 / 100000 := abs_le.mpr ⟨by linarith [h0.1], by linarith [h0.2]⟩
  rcases lt_or_gt_of_ne hne with hlt | hgt
  · exact far t t0 hlt h' h0'
  · exact far t0 t hgt h0' h'

theorem noHalf_int (n : Int) : NoHalfTick (n : ℚ) := by
  intro m
  by_contra h
  rw [not_lt, abs_le] at h
  have h1 : (m : ℚ) < n := by linarith [h.1]
  have h2 : (m : ℚ) + 1 > n := by linarith [h.2]
  have h1 : m < n := by exact_mod_cast h1
  have h2 : m + 1 > n := by exact_mod_cast h2
  omega

/-! ### Values of six decimals -/

theorem microF_half {p : Nat} (hp : 53 ≤ p) {d n : Int} (hd : d = (2 * n + 1) * 500000) (hb : |d| ≤ 2147483647 * 1000000) : microF p d = (n : ℚ) + 1 / 2 := by
  have hpos : 0 < p := by omega
  have hq : (d : ℚ) / 10 ^ 6 = (n : ℚ) + 1 / 2 := by rw [hd]; push_cast; ring
  rw [← hq, micro_parts d]
  have he : d.natAbs % 10 ^ 6 = 500000 := by omega
  have hi : d.natAbs / 10 ^ 6 ≤ 2147483647 := by
    have : (d.natAbs : Int) ≤ 2147483647 * 1000000 := by rw [Int.natCast_natAbs]; exact hb
    omega
  unfold microF PreciseDecimal.expressF
  simp only
  rw [he]
  generalize d.natAbs / 10 ^ 6 = i at *
  have big : (2 : Nat) ^ 53 ≤ 2 ^ p := Nat.pow_le_pow_right (by norm_num) hp
  have f1 : fl p ((500000 : Nat) : ℚ) = (500000 : Nat) := fl_nat hpos (by omega)
  have f2 : fl p ((i : Nat) : ℚ) = i := fl_nat hpos (by omega)
  have f3 : fl p (((500000 : Nat) : ℚ) / 10 ^ 6) = 1 / 2 := by
    have e : ((500000 : Nat) : ℚ) / 10 ^ 6 = 1 / 2 := by norm_num
    rw [e]
    exact fl_exact hpos ⟨1, -1, by rw [abs_one]; exact one_le_pow₀ (by norm_num), by norm_num⟩
  have hrep : Rep p ((i : ℚ) + 1 / 2) := by
    refine ⟨2 * i + 1, -1, ?_, by push_cast; rw [zpow_neg_one]; ring⟩
    rw [abs_of_nonneg (by positivity)]
    have : 2 * i + 1 ≤ 2 ^ p := by omega
    exact_mod_cast this
  have e5 : ((500000 : Nat) : ℚ) / 10 ^ 6 = 1 / 2 := by norm_num
  rw [f1, f2, PreciseDecimal.fl_ten6 hp, f3, fl_exact hpos hrep, e5]
  by_cases h : d < 0
  · rw [decide_eq_true h, if_pos rfl, if_pos h, mul_neg_one, fl_exact hpos hrep.neg]; ring
  · rw [decide_eq_false h, if_neg (by simp), if_neg h]; ring

theorem roundMicro_near' (o : Int) : |(roundMicro o : ℚ) - (o : ℚ) / 1000000| ≤ 1 / 2 := by
  obtain ⟨t, h1, h2⟩ := convert_near (C := 1) (G := 1) (d := o) (by decide)
  have : convertDuration 1 1 o = some (roundMicro o) := if_pos rfl
  rw [this, Option.some.injEq] at h1
  subst h1
  simpa using h2

/-- Rounding a number of six decimals to a whole number is exact. -/
theorem roundMicroF_eq {p : Nat} (hp : 53 ≤ p) {d : Int} (hb : |d| ≤ 2147483647 * 1000000) : roundMicroF p d = roundMicro d := by
  have hpos : 0 < p := by omega
  have hbq : |(d : ℚ) / 1000000| ≤ 2147483647 := by
    rw [abs_div, abs_of_pos (by norm_num : (0 : ℚ) < 1000000), div_le_iff₀ (by norm_num)]
    have : ((|d| : Int) : ℚ) ≤ ((2147483647 * 1000000 : Int) : ℚ) := by exact_mod_cast hb
    push_cast at this
    linarith
  by_cases hh : ∃ n : Int, d = (2 * n + 1) * 500000
  · obtain ⟨n, hn⟩ := hh
    unfold roundMicroF roundF
    rw [microF_half hp hn hb]
    have e : (n : ℚ) + 1 / 2 - 1 / 2 = n := by ring
    have hnb : |n| ≤ 2 ^ p := by
      have big : (2 : Int) ^ 53 ≤ 2 ^ p := pow_le_pow_right₀ (by norm_num) hp
      rw [abs_le] at hb ⊢
      constructor <;> omega
    rw [e, fl_int hpos hnb, Int.ceil_intCast, hn]
    unfold roundMicro ceilDiv MICRO
    omega
  · have hm := microF_err hp d
    have e6 : (10 : ℚ) ^ 6 = 1000000 := by norm_num
    rw [e6] at hm
    have h1 := fl_err hp (microF p d - 1 / 2)
    have h2 : (3 * U) * |(d : ℚ) / 1000000| ≤ (3 * U) * 2147483647 := mul_le_mul_of_nonneg_left hbq (by unfold U; norm_num)
    have h2' := abs_le.mp (le_trans hm h2)
    have h3 : |microF p d - 1 / 2| ≤ 2147483648 := by
      rw [abs_le] at hbq ⊢
      have : (3 * U) * 2147483647 ≤ 1 / 100 := by unfold U; norm_num
      constructor <;> linarith [h2'.1, h2'.2, hbq.1, hbq.2]
    have h4 := abs_le.mp (le_trans h1 (mul_le_mul_of_nonneg_left h3 U_pos.le))
    have hU : (3 * U) * 2147483647 + U * 2147483648 ≤ 96 / 100000000 := by unfold U; norm_num
    have c1 := Int.le_ceil (fl p (microF p d - 1 / 2))
    have c2 := Int.ceil_lt_add_one (fl p (microF p d - 1 / 2))
    have near : |(roundMicroF p d : ℚ) - (d : ℚ) / 1000000| ≤ 1 / 2 + 96 / 100000000 := by
      unfold roundMicroF roundF
      rw [abs_le]
      constructor <;> linarith [h2'.1, h2'.2, h4.1, h4.2]
    have near0 : |(roundMicro d : ℚ) - (d : ℚ) / 1000000| ≤ 1 / 2 + 96 / 100000000 := le_trans (roundMicro_near' d) (by norm_num)
    have far : ∀ a b : Int, a < b → |(a : ℚ) - (d : ℚ) / 1000000| ≤ 1 / 2 + 96 / 100000000 → |(b : ℚ) - (d : ℚ) / 1000000| ≤ 1 / 2 + 96 / 100000000 → False := by
      intro a b hab ha hb'
      rw [abs_le] at ha hb'
      have g1 : (a : ℚ) + 1 ≤ b := by exact_mod_cast hab
      have g2 : |((d - (2 * a + 1) * 500000 : Int) : ℚ)| < 1 := by
        have e : ((d - (2 * a + 1) * 500000 : Int) : ℚ) = ((d : ℚ) / 1000000 - (a + 1 / 2)) * 1000000 := by push_cast; ring
        rw [e, abs_lt]
        constructor <;> linarith [ha.1, ha.2, hb'.1, hb'.2]
      have g3 : |d - (2 * a + 1) * 500000| < 1 := by
        have : ((|d - (2 * a + 1) * 500000| : Int) : ℚ) < (1 : Int) := by push_cast at g2 ⊢; exact g2
        exact_mod_cast this
      have g4 : d - (2 * a + 1) * 500000 = 0 := Int.abs_lt_one_iff.mp g3
      exact hh ⟨a, by omega⟩
    by_contra hne
    rcases lt_or_gt_of_ne hne with hlt | hgt
    · exact far _ _ hlt near near0
    · exact far _ _ hgt near0 near

/-- Converting is exact unless the length is nearly an odd number of half ticks. -/
theorem convertF_eq {p : Nat} (hp : 53 ≤ p) {C G d : Int} (hC : 0 < C) (hC' : C ≤ INT_MAX) (hG : 0 < G) (hG' : G ≤ INT_MAX) (hx : |(d : ℚ) / 1000000 * (1 / (C : ℚ)) * G| ≤ 2147483647)
    (hh : C = G ∨ NoHalfTick ((d : ℚ) / 1000000 * (1 / (C : ℚ)) * G)) : convertDurationF p C G d = convertDuration C G d := by
  rcases hh with rfl | hh
  · have hCq : (0 : ℚ) < C := by exact_mod_cast hC
    have e : (d : ℚ) / 1000000 * (1 / (C : ℚ)) * C = (d : ℚ) / 1000000 := by field_simp
    rw [e, abs_div, abs_of_pos (by norm_num : (0 : ℚ) < 1000000), div_le_iff₀ (by norm_num)] at hx
    have hb : |d| ≤ 2147483647 * 1000000 := by
      have : ((|d| : Int) : ℚ) ≤ ((2147483647 * 1000000 : Int) : ℚ) := by push_cast; linarith
      exact_mod_cast this
    unfold convertDurationF convertDuration
    rw [if_pos rfl, if_pos rfl, roundMicroF_eq hp hb]
  · obtain ⟨t, h1, h2⟩ := convertF_near hp hC hC' hG hG' hx
    obtain ⟨t0, h3, h4⟩ := convert_near (G := G) (d := d) hC
    rw [h1, h3, half_way h2 h4 hh]

/-! ### Reading a measure -/

/-- The reader knows the divisions of the clock. -/
structure Divides (c : Clock) (st : RSt P) : Prop where
  pos : 0 < st.ticksPerQuarter
  fits : st.ticksPerQuarter ≤ INT_MAX
  clock : c.division = 1 / (st.ticksPerQuarter : ℚ)

theorem divides_step {c : Clock} {st st' : RSt P} {env : REnv} {b : Bool} {e : Elem P} {es : List (Elem P)} {G : Int} (h : Divides c st) (hm : ModerateTimes G c (e :: es)) (hp : parseElem env b e st = some st') :
    Divides (c.step e) st' := by
  obtain ⟨h1, h2, h3⟩ := h
  cases e with
  | note n =>
    have hc : (c.step (.note n)).division = c.division := by simp only [Clock.step]; split <;> rfl
    simp only [parseElem, parseNote, Option.bind_eq_bind] at hp
    obtain ⟨t, -, hp⟩ := Option.bind_eq_some_iff.mp hp
    split at hp
    · cases hp
    · rw [Option.some.injEq] at hp; subst hp; exact ⟨h1, h2, by rw [hc]; exact h3⟩
  | backup d =>
    simp only [parseElem, parseBackup, Option.bind_eq_bind] at hp
    obtain ⟨t, -, hp⟩ := Option.bind_eq_some_iff.mp hp
    rw [Option.some.injEq] at hp; subst hp; exact ⟨h1, h2, h3⟩
  | forward d =>
    simp only [parseElem, parseForward, Option.bind_eq_bind] at hp
    obtain ⟨t, -, hp⟩ := Option.bind_eq_some_iff.mp hp
    rw [Option.some.injEq] at hp; subst hp; exact ⟨h1, h2, h3⟩
  | direction s o x =>
    simp only [parseElem, parseDirection] at hp
    split at hp
    · cases hp
    · rw [Option.some.injEq] at hp; subst hp; exact ⟨h1, h2, h3⟩
  | barline l x =>
    simp only [parseElem, parseBarline] at hp
    rw [Option.some.injEq] at hp; subst hp; exact ⟨h1, h2, h3⟩
  | other =>
    simp only [parseElem] at hp
    rw [Option.some.injEq] at hp; subst hp; exact ⟨h1, h2, h3⟩
  | attributes a =>
    simp only [parseElem, parseProperties] at hp
    split at hp
    · cases hp
    · rw [Option.some.injEq] at hp; subst hp
      cases hd : a.divisions with
      | none => exact ⟨by simpa using h1, by simpa using h2, by simpa [Clock.step, hd] using h3⟩
      | some d =>
        obtain ⟨k, hk, hk', rfl⟩ := hm.1 d hd
        have hr : roundMicro (k * 1000000) = k := roundMicro_mul k
        refine ⟨by simpa [hr] using hk, by simpa [hr] using hk', ?_⟩
        simp only [Clock.step, hd, hr]
        have : (k : ℚ) ≠ 0 := by exact_mod_cast (by omega)
        push_cast
        field_simp

theorem division_tick {c : Clock} {st : RSt P} {G : Int} (h : Divides c st) (hg : c.division * G = 1) : st.ticksPerQuarter = G := by
  have h1 : (st.ticksPerQuarter : ℚ) ≠ 0 := by have := h.pos; exact_mod_cast (by omega)
  rw [h.clock] at hg
  field_simp at hg
  exact_mod_cast hg.symm

theorem convertF_clock {p : Nat} (hp : 53 ≤ p) {c : Clock} {st : RSt P} {G d : Int} (hG : 0 < G) (hG' : G ≤ INT_MAX) (h : Divides c st) (hx : |c.quarters d * G| ≤ 2147483647)
    (hh : c.division * G = 1 ∨ NoHalfTick (c.quarters d * G)) : convertDurationF p st.ticksPerQuarter G d = convertDuration st.ticksPerQuarter G d := by
  have e : c.quarters d * G = (d : ℚ) / 1000000 * (1 / (st.ticksPerQuarter : ℚ)) * G := by unfold Clock.quarters; rw [h.clock]
  rw [e] at hx hh
  exact convertF_eq hp h.pos h.fits hG hG' hx (hh.imp_left (division_tick h))

theorem convertF_zero {p : Nat} (hp : 53 ≤ p) {c : Clock} {st : RSt P} {G : Int} (hG : 0 < G) (hG' : G ≤ INT_MAX) (h : Divides c st) :
    convertDurationF p st.ticksPerQuarter G 0 = convertDuration st.ticksPerQuarter G 0 := by
  have e : c.quarters 0 * G = 0 := by simp [Clock.quarters]
  refine convertF_clock hp hG hG' h (by rw [e]; simp) (Or.inr ?_)
  rw [e]
  have := noHalf_int 0
  simpa using this

theorem parseElemF_eq {p : Nat} (hp : 53 ≤ p) {env : REnv} {G : Int} (hg : env.globalTicksPerQuarter = G) (hG : 0 < G) (hG' : G ≤ INT_MAX) {c : Clock} {st : RSt P} {b : Bool} {e : Elem P} {es : List (Elem P)} (h : Divides c st)
    (hm : ModerateTimes G c (e :: es)) (hh : NoHalfTicks G c (e :: es)) : parseElemF p env b e st = parseElem env b e st := by
  cases e with
  | note n =>
    simp only [parseElemF, parseElem, parseNoteF, parseNote, hg]
    have : convertDurationF p st.ticksPerQuarter G (if n.kind = .grace then 0 else n.dur) = convertDuration st.ticksPerQuarter G (if n.kind = .grace then 0 else n.dur) := by
      split
      · exact convertF_zero hp hG hG' h
      · exact convertF_clock hp hG hG' h hm.1 hh.1
    rw [this]
  | backup d => simp only [parseElemF, parseElem, parseBackupF, parseBackup, hg, convertF_clock hp hG hG' h hm.1 hh.1]
  | forward d => simp only [parseElemF, parseElem, parseForwardF, parseForward, hg, convertF_clock hp hG hG' h hm.1 hh.1]
  | direction s o x => simp only [parseElemF, parseElem, parseDirectionF, parseDirection, roundMicroF_eq hp hm.1]; cases s <;> rfl
  | barline l x => rfl
  | other => rfl
  | attributes a =>
    simp only [parseElemF, parseElem, parsePropertiesF, parseProperties]
    cases hd : a.divisions with
    | none => rfl
    | some d =>
      obtain ⟨k, hk, hk', rfl⟩ := hm.1 d hd
      simp only
      rw [roundMicroF_eq hp (by unfold INT_MAX at hk'; rw [abs_of_nonneg (by omega)]; omega)]

theorem readElemsF_eq {p : Nat} (hp : 53 ≤ p) {env : REnv} {G : Int} (hg : env.globalTicksPerQuarter = G) (hG : 0 < G) (hG' : G ≤ INT_MAX) : ∀ (es : List (Elem P)) (c : Clock) (st : RSt P), Divides c st →
    ModerateTimes G c es → NoHalfTicks G c es → readElemsF p env es st = readElems env false es st
  | [], _, _, _, _, _ => rfl
  | e :: es, c, st, h, hm, hh => by
    have ih := readElemsF_eq hp hg hG hG' es
    simp only [readElemsF, readElems, parseElemF_eq hp hg hG hG' h hm hh]
    cases hs : parseElem env (nextNoteIsChord false es) e st with
    | none => rfl
    | some st' =>
      have hd := divides_step h hm hs
      simp only [Option.bind_eq_bind, Option.bind_some]
      refine ih (c.step e) st' hd ?_ ?_
      · cases e <;> first | exact hm.2 | exact hm
      · cases e <;> first | exact hh.2 | exact hh

/-- Whole ticks are no half ticks. -/
theorem wellTimed_noHalf {G : Int} : ∀ (es : List (Elem P)) (c : Clock) (base : Option Int), WellTimed G c base es → NoHalfTicks G c es
  | [], _, _, _ => trivial
  | e :: es, c, base, h => by
    have ih := wellTimed_noHalf (G := G) es
    have whole : ∀ d : Int, (∃ t : Int, c.quarters d * G = t) → NoHalfTick (c.quarters d * G) := by
      rintro d ⟨t, ht⟩
      rw [ht]; exact noHalf_int t
    cases e with
    | note n => exact ⟨Or.inr (whole _ h.1), ih _ _ h.2.2.2.2⟩
    | backup d => exact ⟨Or.inr (whole _ h.1), ih _ _ h.2.2⟩
    | forward d => exact ⟨Or.inr (whole _ h.1), ih _ _ h.2.2⟩
    | direction s o x => exact ih c base h
    | barline l x => exact ih c base h
    | other => exact ih c base h
    | attributes a => exact ih _ _ h.2

end Mx.Measure
