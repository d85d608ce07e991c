import Verif.Model.FloatDecimals
import Verif.Proofs.Floating
import Verif.Proofs.Decimals
import Verif.Spec.FloatRange

/-
Lemmas about decimal numbers in floating point arithmetic.
-/
namespace Mx
open Fl Spec

namespace PreciseDecimal

/-- The number of `c` millionths. -/
def ofCount (p : PreciseDecimal) (neg : Bool) (c : Nat) : PreciseDecimal := { p with isNegative := neg, integer := c / 10 ^ 6, decimal := c % 10 ^ 6 }

theorem ceil_eq {y pf s : ℚ} {D : Int} (h1 : |y - D| ≤ 1 / 4) (h2 : |s - (y - pf)| ≤ 1 / 100) (h3 : 49 / 100 ≤ pf) (h4 : pf ≤ 1 / 2) : ⌈s⌉ = D := by
  rw [abs_le] at h1 h2
  rw [Int.ceil_eq_iff]
  constructor <;> linarith [h1.1, h1.2, h2.1, h2.2]

/-- What is stored if the digits are right. -/
theorem stored {p : PreciseDecimal} (hd : p.maxDecimalDigits = 6) {neg : Bool} {v : ℚ} (h0 : 0 ≤ v) {c : Nat} (hc : |v * 10 ^ 6 - c| ≤ 1 / 4) {digits : Int}
    (hdig : digits = (c : Int) - ⌊v⌋ * 10 ^ 6) :
    (if digits.toNat > findMax p.maxDecimalDigits then some { p with isNegative := neg, integer := ⌊v⌋.toNat + 1, decimal := 0 }
      else some { p with isNegative := neg, integer := ⌊v⌋.toNat, decimal := digits.toNat }) = some (ofCount p neg c) := by
  have h1 := Int.floor_le v
  have h2 := Int.lt_floor_add_one v
  have hn : 0 ≤ ⌊v⌋ := Int.floor_nonneg.mpr h0
  rw [abs_le] at hc
  have g1 : (-1 : ℚ) < digits := by rw [hdig]; push_cast; linarith [hc.2]
  have g2 : (digits : ℚ) < 1000001 := by rw [hdig]; push_cast; linarith [hc.1]
  have g1' : -1 < digits := by exact_mod_cast g1
  have g2' : digits < 1000001 := by exact_mod_cast g2
  have e : c = ⌊v⌋.toNat * 1000000 + digits.toNat := by omega
  rw [hd]
  have hm : findMax 6 = 999999 := by rw [findMax_eq]; norm_num
  rw [hm]
  unfold ofCount
  split
  · congr 2 <;> omega
  · congr 2 <;> omega

theorem setValue_count {p : PreciseDecimal} (h19 : p.maxIntegerDigits = 19) (h6 : p.maxDecimalDigits = 6) {x : ℚ} (hx : |x| < 10 ^ 19) {c : Nat} (hc : |x| * 10 ^ 6 = c) :
    p.setValue x = some (ofCount p (decide (x < 0)) c) := by
  unfold setValue
  simp only
  rw [abs_ite]
  have hn : 0 ≤ ⌊|x|⌋ := Int.floor_nonneg.mpr (abs_nonneg x)
  have hlt : ⌊|x|⌋ < 10 ^ 19 := by
    have : ((⌊|x|⌋ : Int) : ℚ) < 10 ^ 19 := lt_of_le_of_lt (Int.floor_le _) hx
    exact_mod_cast this
  rw [if_neg (by omega), if_neg (by rw [h19, findMax_eq]; omega)]
  refine stored h6 (abs_nonneg x) (by rw [hc]; simp) ?_
  have hcast : ((⌊|x|⌋.toNat : Nat) : ℚ) = (⌊|x|⌋ : Int) := by
    have : ((⌊|x|⌋.toNat : Nat) : Int) = ⌊|x|⌋ := Int.toNat_of_nonneg hn
    exact_mod_cast this
  refine ceil_eq (y := (|x| - ⌊|x|⌋.toNat) * 10 ^ p.maxDecimalDigits) (pf := pointFive) ?_ (by simp) (by norm_num [pointFive]) (by norm_num [pointFive])
  rw [h6, hcast, sub_mul, hc]
  push_cast
  norm_num

theorem pointFiveF_near : 49 / 100 ≤ pointFiveF ∧ pointFiveF ≤ 1 / 2 := by decide +kernel

theorem fl_ten6 {p : Nat} (hp : 53 ≤ p) : fl p (10 ^ 6) = 10 ^ 6 := by
  have := fl_nat (p := p) (n := 10 ^ 6) (by omega) (le_trans (by norm_num) (Nat.pow_le_pow_right (by norm_num) hp : 2 ^ 53 ≤ 2 ^ p))
  exact_mod_cast this

theorem small_error {p : Nat} (hp : 53 ≤ p) {y B : ℚ} (hy : |y| ≤ B) : |fl p y - y| ≤ B / 2 ^ 53 := by
  refine le_trans (fl_near p y) ?_
  have h1 : (2 : ℚ) ^ 53 ≤ 2 ^ p := pow_le_pow_right₀ (by norm_num) hp
  have : (0 : ℚ) ≤ B := le_trans (abs_nonneg y) hy
  exact div_le_div₀ this hy (by positivity) h1

theorem setValueF_count {prec : Nat} (hp : 53 ≤ prec) {p : PreciseDecimal} (h19 : p.maxIntegerDigits = 19) (h6 : p.maxDecimalDigits = 6) {v : ℚ} (hr : Rep prec v) (hv : |v| < 10 ^ 19) {c : Nat}
    (hc : |(|v| * 10 ^ 6) - c| ≤ 1 / 4) : p.setValueF prec v = some (ofCount p (decide (v < 0)) c) := by
  have hpos : 0 < prec := by omega
  unfold setValueF
  simp only
  have hval : (if v < 0 then fl prec (v * -1) else v) = |v| := by
    split
    · rename_i hneg
      rw [abs_of_neg hneg, show v * -1 = -v by ring, fl_exact hpos hr.neg]
    · rename_i hneg
      rw [abs_of_nonneg (not_lt.mp hneg)]
  rw [hval]
  have hra : Rep prec |v| := by
    rcases abs_choice v with h | h <;> rw [h]
    · exact hr
    · exact hr.neg
  have hn : 0 ≤ ⌊|v|⌋ := Int.floor_nonneg.mpr (abs_nonneg v)
  have hlt : ⌊|v|⌋ < 10 ^ 19 := by
    have : ((⌊|v|⌋ : Int) : ℚ) < 10 ^ 19 := lt_of_le_of_lt (Int.floor_le _) hv
    exact_mod_cast this
  rw [if_neg (by omega), if_neg (by rw [h19, findMax_eq]; omega)]
  obtain ⟨r1, r2⟩ := rep_floor hra (abs_nonneg v)
  have hcast : ((⌊|v|⌋.toNat : Nat) : ℚ) = (⌊|v|⌋ : Int) := by
    have : ((⌊|v|⌋.toNat : Nat) : Int) = ⌊|v|⌋ := Int.toNat_of_nonneg hn
    exact_mod_cast this
  refine stored h6 (abs_nonneg v) hc ?_
  rw [hcast, fl_exact hpos r1, fl_exact hpos r2, h6, fl_ten6 hp]
  have f0 : 0 ≤ |v| - (⌊|v|⌋ : Int) := by linarith [Int.floor_le |v|]
  have f1 : |v| - (⌊|v|⌋ : Int) < 1 := by linarith [Int.lt_floor_add_one |v|]
  generalize hf : |v| - ((⌊|v|⌋ : Int) : ℚ) = f at f0 f1 ⊢
  have e1 := small_error hp (y := f * 10 ^ 6) (B := 10 ^ 6) (by rw [abs_of_nonneg (by positivity)]; linarith)
  rw [abs_le] at e1
  have e1' : (10 : ℚ) ^ 6 / 2 ^ 53 ≤ 1 / 1000 := by norm_num
  have pf := pointFiveF_near
  have e2 := small_error hp (y := fl prec (f * 10 ^ 6) - pointFiveF) (B := 2000000) (by
    rw [abs_le]
    have k1 : 0 ≤ f * 10 ^ 6 := by positivity
    have k2 : f * 10 ^ 6 ≤ 10 ^ 6 := by linarith
    obtain ⟨a1, a2⟩ := e1
    obtain ⟨b1, b2⟩ := pf
    generalize fl prec (f * 10 ^ 6) = t at a1 a2 ⊢
    norm_num at a1 a2 e1' k2 ⊢
    constructor <;> linarith)
  rw [abs_le] at e2
  have e2' : (2000000 : ℚ) / 2 ^ 53 ≤ 1 / 1000 := by norm_num
  refine ceil_eq (y := f * 10 ^ 6) (pf := pointFiveF) ?_ ?_ pf.1 pf.2
  · have : f * 10 ^ 6 - (((c : Int) - ⌊|v|⌋ * 10 ^ 6 : Int) : ℚ) = |v| * 10 ^ 6 - c := by
      rw [← hf]; push_cast; ring
    rw [this]; exact hc
  · generalize fl prec (fl prec (f * 10 ^ 6) - pointFiveF) = s at e2 ⊢
    generalize fl prec (f * 10 ^ 6) = t at e1 e2
    obtain ⟨a1, a2⟩ := e1
    obtain ⟨b1, b2⟩ := e2
    rw [abs_le]
    constructor <;> linarith

/-- Any number of the type is stored to six decimals. -/
theorem setValueF_near {prec : Nat} (hp : 53 ≤ prec) {p : PreciseDecimal} (h19 : p.maxIntegerDigits = 19) (h6 : p.maxDecimalDigits = 6) {v : ℚ} (hr : Rep prec v) (hv : |v| ≤ 10 ^ 18) :
    ∃ p', p.setValueF prec v = some p' ∧ |p'.getValue - v| ≤ 0.51 / 10 ^ 6 := by
  have hpos : 0 < prec := by omega
  unfold setValueF
  simp only
  have hval : (if v < 0 then fl prec (v * -1) else v) = |v| := by
    split
    · rename_i hneg
      rw [abs_of_neg hneg, show v * -1 = -v by ring, fl_exact hpos hr.neg]
    · rename_i hneg
      rw [abs_of_nonneg (not_lt.mp hneg)]
  rw [hval]
  have hra : Rep prec |v| := by
    rcases abs_choice v with h | h <;> rw [h]
    · exact hr
    · exact hr.neg
  have hn : 0 ≤ ⌊|v|⌋ := Int.floor_nonneg.mpr (abs_nonneg v)
  have hlt : ⌊|v|⌋ ≤ 10 ^ 18 := by
    have : ((⌊|v|⌋ : Int) : ℚ) ≤ 10 ^ 18 := le_trans (Int.floor_le _) hv
    exact_mod_cast this
  rw [if_neg (by omega), if_neg (by rw [h19, findMax_eq]; omega)]
  obtain ⟨r1, r2⟩ := rep_floor hra (abs_nonneg v)
  have hcast : ((⌊|v|⌋.toNat : Nat) : ℚ) = (⌊|v|⌋ : Int) := by
    have : ((⌊|v|⌋.toNat : Nat) : Int) = ⌊|v|⌋ := Int.toNat_of_nonneg hn
    exact_mod_cast this
  rw [hcast, fl_exact hpos r1, fl_exact hpos r2, h6, fl_ten6 hp]
  have f0 : 0 ≤ |v| - (⌊|v|⌋ : Int) := by linarith [Int.floor_le |v|]
  have f1 : |v| - (⌊|v|⌋ : Int) < 1 := by linarith [Int.lt_floor_add_one |v|]
  generalize hf : |v| - ((⌊|v|⌋ : Int) : ℚ) = f at f0 f1 ⊢
  have k1 : 0 ≤ f * 10 ^ 6 := by positivity
  have k2 : f * 10 ^ 6 ≤ 10 ^ 6 := by linarith
  have e1 := small_error hp (y := f * 10 ^ 6) (B := 10 ^ 6) (by rw [abs_of_nonneg (by positivity)]; linarith)
  rw [abs_le] at e1
  obtain ⟨a1, a2⟩ := e1
  obtain ⟨b1, b2⟩ : 4999998 / 10000000 ≤ pointFiveF ∧ pointFiveF ≤ 1 / 2 := by decide +kernel
  have e2 := small_error hp (y := fl prec (f * 10 ^ 6) - pointFiveF) (B := 2000000) (by
    rw [abs_le]
    generalize fl prec (f * 10 ^ 6) = t at a1 a2 ⊢
    norm_num at a1 a2 k2 ⊢
    constructor <;> linarith)
  rw [abs_le] at e2
  obtain ⟨c1, c2⟩ := e2
  generalize fl prec (fl prec (f * 10 ^ 6) - pointFiveF) = s at c1 c2 ⊢
  generalize fl prec (f * 10 ^ 6) = t at a1 a2 c1 c2
  have l1 := Int.le_ceil s
  have l2 := Int.ceil_lt_add_one s
  norm_num at a1 a2 c1 c2 k1 k2
  have hs0 : -1 < ⌈s⌉ := by
    have : (-1 : ℚ) < (⌈s⌉ : Int) := by linarith
    exact_mod_cast this
  have hs1 : ⌈s⌉ ≤ 1000000 := by
    rw [Int.ceil_le]; push_cast; linarith
  have hcs : ((⌈s⌉.toNat : Nat) : ℚ) = (⌈s⌉ : Int) := by
    have : ((⌈s⌉.toNat : Nat) : Int) = ⌈s⌉ := Int.toNat_of_nonneg (by omega)
    exact_mod_cast this
  have hm : findMax 6 = 999999 := by rw [findMax_eq]; norm_num
  have hnear : |((⌈s⌉ : Int) : ℚ) - f * 1000000| ≤ 0.51 := by
    rw [abs_le]; norm_num
    constructor <;> linarith
  have fin : ∀ (neg : Bool) (i j : Nat), neg = decide (v < 0) → (i : ℚ) * 10 ^ 6 + j = (⌊|v|⌋ : Int) * 10 ^ 6 + (⌈s⌉ : Int) →
      |getValue (PreciseDecimal.mk neg i j p.maxIntegerDigits 6) - v| ≤ 0.51 / 10 ^ 6 := by
    intro neg i j hneg hij
    have hmag : magnitude (PreciseDecimal.mk neg i j p.maxIntegerDigits 6) - |v| = ((⌈s⌉ : Int) - f * 1000000) / 10 ^ 6 := by
      unfold magnitude
      simp only
      rw [eq_div_iff (by norm_num), sub_mul, add_mul, div_mul_cancel₀ _ (by norm_num), hij, ← hf]
      ring
    have hmag' : |magnitude (PreciseDecimal.mk neg i j p.maxIntegerDigits 6) - (|v|)| ≤ 0.51 / 10 ^ 6 := by
      rw [hmag, abs_div, abs_of_pos (by norm_num : (0 : ℚ) < 10 ^ 6)]
      gcongr
    rw [getValue_eq]
    simp only [hneg]
    by_cases hv0 : v < 0
    · simp only [hv0, decide_true, if_true]
      rw [abs_of_neg hv0] at hmag'
      rw [← abs_neg]
      convert hmag' using 2
      subst hneg
      simp only [hv0, decide_true]
      ring
    · simp only [hv0, decide_false, Bool.false_eq_true, if_false]
      rw [abs_of_nonneg (not_lt.mp hv0)] at hmag'
      subst hneg
      simpa only [hv0, decide_false] using hmag'
  rw [hm]
  split
  · refine ⟨_, rfl, fin _ _ _ rfl ?_⟩
    have : ⌈s⌉ = 1000000 := by omega
    rw [this]
    push_cast
    rw [hcast]
    norm_num
    ring
  · refine ⟨_, rfl, fin _ _ _ rfl ?_⟩
    rw [hcast, hcs]

/-- Numbers of six decimals below 2^(prec-22): the next number of the type is near enough. -/
theorem fl_count {prec : Nat} (hp : 53 ≤ prec) {x : ℚ} (hx : |x| < 2 ^ (prec - 22)) {c : Nat} (hc : |x| * 10 ^ 6 = c) :
    |(|fl prec x| * 10 ^ 6) - c| ≤ 1 / 4 ∧ (fl prec x < 0 ↔ x < 0) ∧ |fl prec x - x| * 10 ^ 6 ≤ 1 / 4 := by
  have h1 := fl_near prec x
  have hp2 : (2 : ℚ) ^ prec = 2 ^ (prec - 22) * 2 ^ 22 := by rw [← pow_add]; congr 1; omega
  have h2 : |x| / 2 ^ prec ≤ 1 / 2 ^ 22 := by
    rw [hp2, div_le_div_iff₀ (by positivity) (by positivity)]
    nlinarith [hx.le]
  have h3 : |fl prec x - x| * 10 ^ 6 ≤ 1 / 4 := by
    have : |fl prec x - x| ≤ 1 / 2 ^ 22 := le_trans h1 h2
    norm_num at this ⊢
    linarith
  have h4 := abs_abs_sub_abs_le_abs_sub (fl prec x) x
  refine ⟨?_, ?_, h3⟩
  · rw [← hc, ← sub_mul, abs_mul, abs_of_pos (by norm_num : (0 : ℚ) < 10 ^ 6)]
    exact le_trans (mul_le_mul_of_nonneg_right h4 (by norm_num)) h3
  · have h5 : |x| / 2 ^ prec ≤ |x| / 2 := by
      apply div_le_div_of_nonneg_left (abs_nonneg x) (by norm_num)
      exact le_trans (by norm_num) (pow_le_pow_right₀ (by norm_num) hp : (2 : ℚ) ^ 53 ≤ 2 ^ prec)
    have h6 := abs_le.mp (le_trans h1 h5)
    constructor
    · intro h
      by_contra hc
      rw [abs_of_nonneg (not_lt.mp hc)] at h6
      linarith [h6.1]
    · intro h
      rw [abs_of_neg h] at h6
      linarith [h6.2]

/-- Setting a number of six decimals gives what exact arithmetic gives. -/
theorem setValueF_fl {prec : Nat} (hp : 53 ≤ prec) {p : PreciseDecimal} (h19 : p.maxIntegerDigits = 19) (h6 : p.maxDecimalDigits = 6) {x : ℚ} (hx : |x| < 2 ^ (prec - 22)) (hx' : |x| ≤ 10 ^ 18)
    {c : Nat} (hc : |x| * 10 ^ 6 = c) : p.setValueF prec (fl prec x) = p.setValue x := by
  obtain ⟨h1, h2, h3⟩ := fl_count hp hx hc
  rw [setValue_count h19 h6 (by linarith) hc, setValueF_count hp h19 h6 (fl_rep prec (by omega) x) ?_ h1]
  · simp only [h2]
  · have := abs_abs_sub_abs_le_abs_sub (fl prec x) x
    have := (abs_le.mp this).2
    linarith

/-- The value of a number of six decimals is near enough. -/
theorem getValueF_near {prec : Nat} (hp : 53 ≤ prec) {p : PreciseDecimal} (h6 : p.maxDecimalDigits = 6) (hi : p.integer < 2 ^ (prec - 22)) (hd : p.decimal < 10 ^ 6) :
    Rep prec (p.getValueF prec) ∧ |(|p.getValueF prec| * 10 ^ 6) - (p.integer * 10 ^ 6 + p.decimal : Nat)| ≤ 1 / 4 ∧
    (p.getValueF prec < 0 ↔ p.isNegative = true ∧ ¬ (p.integer = 0 ∧ p.decimal = 0)) := by
  have hpos : 0 < prec := by omega
  have hp53 : (2 : Nat) ^ 53 ≤ 2 ^ prec := Nat.pow_le_pow_right (by norm_num) hp
  have hpi : (2 : Nat) ^ (prec - 22) ≤ 2 ^ prec := Nat.pow_le_pow_right (by norm_num) (by omega)
  have q53 : (2 : ℚ) ^ 53 ≤ 2 ^ prec := by exact_mod_cast hp53
  unfold getValueF expressF
  simp only
  rw [h6, fl_ten6 hp, fl_nat hpos (by omega : p.integer ≤ 2 ^ prec), fl_nat hpos (le_trans (by omega) hp53 : p.decimal ≤ 2 ^ prec)]
  have hI : (0 : ℚ) ≤ p.integer := by positivity
  have hD : (0 : ℚ) ≤ p.decimal := by positivity
  have hD1 : (p.decimal : ℚ) ≤ 999999 := by
    have : p.decimal ≤ 999999 := by omega
    exact_mod_cast this
  have hI1 : (p.integer : ℚ) < 2 ^ (prec - 22) := by exact_mod_cast hi
  generalize hw : (p.decimal : ℚ) / 10 ^ 6 = w
  have hw0 : 0 ≤ w := by rw [← hw]; positivity
  have hw1 : w < 1 := by rw [← hw, div_lt_one (by norm_num)]; linarith
  have e1 := fl_near prec w
  rw [abs_of_nonneg hw0] at e1
  have e1' : w / 2 ^ prec ≤ w / 2 ^ 53 := div_le_div_of_nonneg_left hw0 (by positivity) q53
  have e1a := abs_le.mp (le_trans e1 e1')
  generalize hg : fl prec w = g at *
  have hg0 : 0 ≤ g := by
    have : w / 2 ^ 53 ≤ w := div_le_self hw0 (by norm_num)
    linarith [e1a.1]
  have hgpos : 0 < w → 0 < g := fun h => by
    have : w / 2 ^ 53 < w := div_lt_self h (by norm_num)
    linarith [e1a.1]
  have hg1 : g ≤ 2 := by
    have : w / 2 ^ 53 ≤ w := div_le_self hw0 (by norm_num)
    linarith [e1a.2]
  have e2 := fl_near prec (p.integer + g)
  rw [abs_of_nonneg (by linarith : (0 : ℚ) ≤ p.integer + g)] at e2
  have hp2 : (2 : ℚ) ^ prec = 2 ^ (prec - 22) * 2 ^ 22 := by rw [← pow_add]; congr 1; omega
  have e2' : ((p.integer : ℚ) + g) / 2 ^ prec ≤ 1 / 2 ^ 22 + 2 / 2 ^ 53 := by
    rw [add_div]
    have a1 : (p.integer : ℚ) / 2 ^ prec ≤ 1 / 2 ^ 22 := by
      rw [hp2, div_le_div_iff₀ (by positivity) (by positivity)]
      nlinarith [hI1.le]
    have a2 : g / 2 ^ prec ≤ 2 / 2 ^ 53 := div_le_div₀ (by norm_num) hg1 (by norm_num) q53
    linarith
  have e2b : ((p.integer : ℚ) + g) / 2 ^ prec ≤ ((p.integer : ℚ) + g) / 2 := by
    apply div_le_div_of_nonneg_left (by linarith) (by norm_num)
    exact le_trans (by norm_num) q53
  have e2a := abs_le.mp (le_trans e2 e2')
  have e2c := abs_le.mp (le_trans e2 e2b)
  generalize hy : fl prec ((p.integer : ℚ) + g) = y at *
  have hry : Rep prec y := by rw [← hy]; exact fl_rep prec hpos _
  have hy0 : 0 ≤ y := by linarith [e2c.1]
  have hypos : ¬ (p.integer = 0 ∧ p.decimal = 0) → 0 < y := by
    intro h
    have : 0 < (p.integer : ℚ) + g := by
      by_cases hz : p.integer = 0
      · have hdp : 0 < p.decimal := by
          rcases Nat.eq_zero_or_pos p.decimal with h' | h'
          · exact absurd ⟨hz, h'⟩ h
          · exact h'
        have : 0 < w := by rw [← hw]; have : (0 : ℚ) < p.decimal := by exact_mod_cast hdp
                           positivity
        linarith [hgpos this]
      · have : (0 : ℚ) < p.integer := by exact_mod_cast Nat.pos_of_ne_zero hz
        linarith
    linarith [e2c.1]
  have hzero : p.integer = 0 ∧ p.decimal = 0 → y = 0 := by
    rintro ⟨a, b⟩
    have hw' : w = 0 := by rw [← hw, b]; simp
    have hg' : g = 0 := by rw [← hg, hw']; simp [fl]
    rw [← hy, a, hg']; simp [fl]
  have herr : |y * 10 ^ 6 - (p.integer * 10 ^ 6 + p.decimal : Nat)| ≤ 1 / 4 := by
    have hwD : (p.decimal : ℚ) = w * 10 ^ 6 := by rw [← hw]; field_simp
    push_cast
    rw [hwD, abs_le]
    have hww : w / 2 ^ 53 ≤ 1 / 2 ^ 53 := by gcongr
    norm_num at e2a e1a hww ⊢
    constructor <;> linarith [e1a.1, e1a.2, e2a.1, e2a.2]
  cases hneg : p.isNegative
  · simp only [Bool.false_eq_true, if_false]
    rw [abs_of_nonneg hy0]
    exact ⟨hry, herr, ⟨fun h => absurd h (not_lt.mpr hy0), fun h => absurd h.1 (by simp)⟩⟩
  · simp only [if_true]
    rw [show y * -1 = -y by ring, fl_exact hpos hry.neg, abs_neg, abs_of_nonneg hy0]
    refine ⟨hry.neg, herr, ?_⟩
    constructor
    · intro h
      exact ⟨trivial, fun hz => by rw [hzero hz] at h; simp at h⟩
    · intro h
      linarith [hypos h.2]

end PreciseDecimal

namespace DecimalRange

/-- Comparing with a whole number. -/
theorem fl_compare {prec : Nat} (hp : 53 ≤ prec) {x : ℚ} (h : SixDecimals prec x) (b : Int) (hb : |b| ≤ 2 ^ 53) : (fl prec x < b ↔ x < b) ∧ (b < fl prec x ↔ b < x) := by
  obtain ⟨h1, h2, c, hc⟩ := h
  have h3 := (PreciseDecimal.fl_count hp h1 hc).2.2
  have hpos : (0 : ℚ) < 10 ^ 6 := by norm_num
  -- x in millionths
  obtain ⟨n, hn⟩ : ∃ n : Int, x * 10 ^ 6 = n := by
    rcases abs_choice x with h | h
    · exact ⟨c, by rw [h] at hc; exact_mod_cast hc⟩
    · exact ⟨-c, by rw [h] at hc; push_cast; linarith⟩
  rw [← abs_of_pos hpos, ← abs_mul, sub_mul, hn, abs_le] at h3
  have he : x = b → fl prec x = b := by
    intro hx
    rw [hx]
    exact fl_int (by omega) (le_trans hb (pow_le_pow_right₀ (by norm_num) hp))
  have key : ∀ y : ℚ, (y < b ↔ y * 10 ^ 6 < b * 10 ^ 6) ∧ (b < y ↔ b * 10 ^ 6 < y * 10 ^ 6) := fun y =>
    ⟨(mul_lt_mul_iff_left₀ hpos).symm, (mul_lt_mul_iff_left₀ hpos).symm⟩
  have hlt : x < b → fl prec x < b := by
    intro hx
    rw [(key _).1, hn] at hx
    rw [(key _).1]
    have : n < b * 10 ^ 6 := by exact_mod_cast hx
    have : n + 1 ≤ b * 10 ^ 6 := this
    have : (n : ℚ) + 1 ≤ b * 10 ^ 6 := by exact_mod_cast this
    linarith [h3.2]
  have hgt : b < x → b < fl prec x := by
    intro hx
    rw [(key _).2, hn] at hx
    rw [(key _).2]
    have : b * 10 ^ 6 < n := by exact_mod_cast hx
    have : b * 10 ^ 6 + 1 ≤ n := this
    have : (b : ℚ) * 10 ^ 6 + 1 ≤ n := by exact_mod_cast this
    linarith [h3.1]
  rcases lt_trichotomy x b with g | g | g
  · exact ⟨⟨fun _ => g, hlt⟩, ⟨fun k => absurd k (not_lt.mpr (hlt g).le), fun k => absurd k (not_lt.mpr g.le)⟩⟩
  · rw [he g, g]; simp
  · exact ⟨⟨fun k => absurd k (not_lt.mpr (hgt g).le), fun k => absurd k (not_lt.mpr g.le)⟩, ⟨fun _ => g, hgt⟩⟩

theorem sixDecimals_int {prec : Nat} (hp : 53 ≤ prec) (b : Int) (hb : |b| ≤ 1000) : SixDecimals prec (b : ℚ) := by
  have hb' : |(b : ℚ)| ≤ 1000 := by
    have e : |(b : ℚ)| = ((|b| : Int) : ℚ) := by push_cast; rfl
    rw [e]; exact_mod_cast hb
  refine ⟨?_, by linarith [show (1000 : ℚ) ≤ 10 ^ 18 by norm_num], ⟨(|b| * 10 ^ 6).toNat, ?_⟩⟩
  · refine lt_of_le_of_lt hb' ?_
    exact lt_of_lt_of_le (by norm_num) (pow_le_pow_right₀ (by norm_num) (by omega) : (2 : ℚ) ^ 31 ≤ 2 ^ (prec - 22))
  · have : (((|b| * 10 ^ 6).toNat : Nat) : Int) = |b| * 10 ^ 6 := Int.toNat_of_nonneg (by positivity)
    have h2 : (((|b| * 10 ^ 6).toNat : Nat) : ℚ) = ((|b| * 10 ^ 6 : Int) : ℚ) := by exact_mod_cast this
    rw [h2]; push_cast; rfl

/-- The second clamp. -/
theorem maxClamp_fl {prec : Nat} (hp : 53 ≤ prec) (k : DecimalKind) {x : ℚ} (h : SixDecimals prec x) :
    SixDecimals prec (k.maxClamp x) ∧ k.maxClamp (fl prec x) = fl prec (k.maxClamp x) := by
  have one : ∀ b : Int, |b| ≤ 1000 → SixDecimals prec (maxInclusive b x) ∧ maxInclusive b (fl prec x) = fl prec (maxInclusive b x) := by
    intro b hb
    obtain ⟨-, h2⟩ := fl_compare hp h b (le_trans hb (by norm_num))
    unfold maxInclusive
    simp only [gt_iff_lt, h2]
    split
    · exact ⟨sixDecimals_int hp b hb, (fl_int (by omega) (le_trans hb (le_trans (by norm_num) (pow_le_pow_right₀ (by norm_num) hp : (2 : Int) ^ 53 ≤ 2 ^ prec)))).symm⟩
    · exact ⟨h, rfl⟩
  cases k <;> try exact ⟨h, rfl⟩
  · exact_mod_cast one 100 (by norm_num)
  · exact_mod_cast one 180 (by norm_num)

/-- The first clamp: either the numbers correspond or both are the smallest positive number. -/
theorem minClamp_fl {prec : Nat} (hp : 53 ≤ prec) (k : DecimalKind) {x : ℚ} (h : SixDecimals prec x) :
    (SixDecimals prec (k.minClamp x) ∧ k.minClampF prec (fl prec x) = fl prec (k.minClamp x)) ∨
    (k.minClamp x = 0 + nonZeroAmount ∧ k.minClampF prec (fl prec x) = fl prec (0 + nonZeroAmountF)) := by
  have one : ∀ b : Int, |b| ≤ 1000 → SixDecimals prec (minInclusive b x) ∧ minInclusive b (fl prec x) = fl prec (minInclusive b x) := by
    intro b hb
    obtain ⟨h1, -⟩ := fl_compare hp h b (le_trans hb (by norm_num))
    unfold minInclusive
    simp only [h1]
    split
    · exact ⟨sixDecimals_int hp b hb, (fl_int (by omega) (le_trans hb (le_trans (by norm_num) (pow_le_pow_right₀ (by norm_num) hp : (2 : Int) ^ 53 ≤ 2 ^ prec)))).symm⟩
    · exact ⟨h, rfl⟩
  have exc : (SixDecimals prec (minExclusive 0 x) ∧ minExclusiveF prec 0 (fl prec x) = fl prec (minExclusive 0 x)) ∨
      (minExclusive 0 x = 0 + nonZeroAmount ∧ minExclusiveF prec 0 (fl prec x) = fl prec (0 + nonZeroAmountF)) := by
    obtain ⟨-, h2⟩ := fl_compare hp h 0 (by norm_num)
    unfold minExclusive minExclusiveF
    simp only [Int.cast_zero] at h2
    have h2' : fl prec x ≤ 0 ↔ x ≤ 0 := by rw [← not_lt, ← not_lt, h2]
    simp only [h2']
    split
    · exact Or.inr ⟨rfl, rfl⟩
    · exact Or.inl ⟨h, rfl⟩
  cases k <;> first | exact Or.inl ⟨h, rfl⟩ | exact exc | skip
  · exact Or.inl (by exact_mod_cast one 0 (by norm_num))
  · exact Or.inl (by exact_mod_cast one 0 (by norm_num))
  · exact Or.inl (by exact_mod_cast one (-180) (by norm_num))
  · exact Or.inl (by exact_mod_cast one 2 (by norm_num))

theorem setValueF_ok {prec : Nat} (hp : 53 ≤ prec) (d : DecimalRange) (h19 : d.value.maxIntegerDigits = 19) (h6 : d.value.maxDecimalDigits = 6) {x : ℚ} (h : SixDecimals prec x) :
    d.setValueF prec (fl prec x) = d.setValue x := by
  unfold setValueF setValue
  congr 1
  obtain ⟨h1, h2⟩ := maxClamp_fl hp d.kind h
  rw [h2]
  rcases minClamp_fl hp d.kind h1 with ⟨⟨g1, g2, c, g3⟩, g4⟩ | ⟨g1, g2⟩
  · rw [g4]
    exact PreciseDecimal.setValueF_fl hp h19 h6 g1 g2 g3
  · rw [g1, g2]
    have hz : Rep prec nonZeroAmountF := (fl_rep 53 (by norm_num) _).mono hp
    have hz' : 999999 / 1000000000000 ≤ nonZeroAmountF ∧ nonZeroAmountF ≤ 1000001 / 1000000000000 := by decide +kernel
    rw [zero_add, zero_add, fl_exact (by omega) hz,
      PreciseDecimal.setValue_count h19 h6 (x := nonZeroAmount) (c := 1) (by norm_num [nonZeroAmount, abs_of_pos]) (by norm_num [nonZeroAmount, abs_of_pos]),
      PreciseDecimal.setValueF_count hp h19 h6 (c := 1) hz (by rw [abs_of_nonneg (by linarith [hz'.1])]; linarith [hz'.2, show (1 : ℚ) < 10 ^ 19 by norm_num]) (by
        rw [abs_of_nonneg (by linarith [hz'.1] : 0 ≤ nonZeroAmountF), abs_le]
        push_cast
        constructor <;> linarith [hz'.1, hz'.2])]
    have a1 : ¬ nonZeroAmountF < 0 := by linarith [hz'.1]
    have a2 : ¬ nonZeroAmount < 0 := by norm_num [nonZeroAmount]
    simp only [a1, a2]

/-- The format of all numbers of the library. -/
def Format (d : DecimalRange) : Prop := d.value.maxIntegerDigits = 19 ∧ d.value.maxDecimalDigits = 6

theorem setValue_format {d d' : DecimalRange} {v : ℚ} (hf : d.Format) (h : d.setValue v = some d') : d'.Format := by
  unfold setValue at h
  obtain ⟨p, h1, rfl⟩ := Option.map_eq_some_iff.mp h
  unfold PreciseDecimal.setValue at h1
  simp only at h1
  rw [PreciseDecimal.abs_ite] at h1
  repeat' split at h1
  all_goals first
    | (rw [Option.some.injEq] at h1; subst h1; exact hf)
    | cases h1

theorem parseF_ok {prec : Nat} (hp : 53 ≤ prec) (d : DecimalRange) (hf : d.Format) (s : Str) (h : ∀ x, DecimalText s x → |x| < 2 ^ 16384 → SixDecimals prec x) : d.parseF prec s = d.parse s := by
  unfold parseF parse
  simp only
  cases hv : (readDecimal s).value with
  | none => rfl
  | some v =>
    simp only
    split
    · rename_i hr
      rw [setValueF_ok hp d hf.1 hf.2 (h v ((readDecimal_complete s v).mp ⟨hv, hr⟩).1 ((readDecimal_complete s v).mp ⟨hv, hr⟩).2)]
    · rfl

end DecimalRange

end Mx
