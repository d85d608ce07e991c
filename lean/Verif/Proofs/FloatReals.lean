import Verif.Model.FloatReals
import Verif.Spec.FloatReals
import Verif.Proofs.FloatPitch

/-! Real numbers on their way through a document. -/
open Spec
namespace Mx
open Fl Props Measure

theorem microF_rep {p : Nat} (hp : 0 < p) (n : Int) : Rep p (microF p n) := by
  unfold microF PreciseDecimal.expressF
  simp only
  split <;> exact fl_rep p hp _

theorem microF_near {p : Nat} (hp : 53 ≤ p) {n : Int} (hn : |n| ≤ 2 ^ 49) : |microF p n * 10 ^ 6 - n| ≤ 1 / 4 := by
  have h := microF_err hp n
  have hnq : |(n : ℚ)| ≤ 2 ^ 49 := by exact_mod_cast hn
  have e : microF p n * 10 ^ 6 - n = (microF p n - (n : ℚ) / 10 ^ 6) * 10 ^ 6 := by field_simp
  rw [e, abs_mul, abs_of_pos (by norm_num : (0 : ℚ) < 10 ^ 6)]
  rw [abs_div, abs_of_pos (by norm_num : (0 : ℚ) < 10 ^ 6)] at h
  have h2 : (3 * U) * (|(n : ℚ)| / 10 ^ 6) ≤ (3 * U) * (2 ^ 49 / 10 ^ 6) := mul_le_mul_of_nonneg_left (div_le_div_of_nonneg_right hnq (by norm_num)) (by unfold U; norm_num)
  have h3 : (3 * U) * (2 ^ 49 / 10 ^ 6) * 10 ^ 6 ≤ 1 / 4 := by unfold U; norm_num
  calc _ ≤ (3 * U) * (2 ^ 49 / 10 ^ 6) * 10 ^ 6 := mul_le_mul_of_nonneg_right (le_trans h h2) (by norm_num)
    _ ≤ _ := h3

theorem microF_neg {p : Nat} (hp : 53 ≤ p) {n : Int} (hn : |n| ≤ 2 ^ 49) : microF p n < 0 ↔ n < 0 := by
  have h := abs_le.mp (microF_near hp hn)
  constructor
  · intro h0
    by_contra hc
    rcases eq_or_lt_of_le (not_lt.mp hc) with h' | h'
    · have := microF_int hp (k := 0) (by norm_num)
      rw [zero_mul] at this
      rw [← h', this] at h0
      norm_num at h0
    · have : (1 : ℚ) ≤ n := by exact_mod_cast h'
      linarith [h.1]
  · intro h0
    have : (n : ℚ) ≤ -1 := by exact_mod_cast (by omega : n ≤ -1)
    linarith [h.2]

/-- Comparing with a whole number. -/
theorem microF_le {p : Nat} (hp : 53 ≤ p) {n b : Int} (hn : |n| ≤ 2 ^ 49) (hb : |b| ≤ 2 ^ 52) (h : n ≤ b * 10 ^ 6) : microF p n ≤ b := by
  rcases eq_or_lt_of_le h with h' | h'
  · have := microF_int hp hb
    have e : b * 10 ^ 6 = b * 1000000 := by norm_num
    rw [h', e, this]
  · have h1 := abs_le.mp (microF_near hp hn)
    have h2 : (n : ℚ) + 1 ≤ b * 10 ^ 6 := by exact_mod_cast h'
    have : microF p n * 10 ^ 6 ≤ b * 10 ^ 6 := by linarith [h1.2]
    exact le_of_mul_le_mul_right this (by norm_num)

theorem le_microF {p : Nat} (hp : 53 ≤ p) {n b : Int} (hn : |n| ≤ 2 ^ 49) (hb : |b| ≤ 2 ^ 52) (h : b * 10 ^ 6 ≤ n) : (b : ℚ) ≤ microF p n := by
  rcases eq_or_lt_of_le h with h' | h'
  · have := microF_int hp hb
    have e : b * 10 ^ 6 = b * 1000000 := by norm_num
    rw [← h', e, this]
  · have h1 := abs_le.mp (microF_near hp hn)
    have h2 : (b : ℚ) * 10 ^ 6 + 1 ≤ n := by exact_mod_cast h'
    have : (b : ℚ) * 10 ^ 6 ≤ microF p n * 10 ^ 6 := by linarith [h1.1]
    exact le_of_mul_le_mul_right this (by norm_num)

/-- Numbers in the range of the class stay as they are. -/
theorem clampF_id {prec : Nat} {k : DecimalKind} {v : ℚ} (h : InRange k v) : k.minClampF prec (k.maxClamp v) = v := by
  cases k
  case NonNegativeDecimal => exact minInc_ge h
  case TrillBeats => exact minInc_ge h
  case Percent => exact (clamp_two (by norm_num)).1 h
  case RotationDegrees => exact (clamp_two (by norm_num)).1 h
  case PositiveDecimal => exact if_neg (not_le.mpr h)
  case PositiveDivisions => exact if_neg (not_le.mpr h)
  case PositiveDivisionsValue => exact if_neg (not_le.mpr h)
  all_goals rfl

theorem mult_le {n b : Int} : (n : ℚ) / 10 ^ 6 ≤ b ↔ n ≤ b * 10 ^ 6 := by
  rw [div_le_iff₀ (by norm_num)]; exact_mod_cast Iff.rfl

theorem le_mult {n b : Int} : (b : ℚ) ≤ (n : ℚ) / 10 ^ 6 ↔ b * 10 ^ 6 ≤ n := by
  rw [le_div_iff₀ (by norm_num)]; exact_mod_cast Iff.rfl

/-- The number that is got is in the range if the decimal is. -/
theorem microF_inRange {prec : Nat} (hp : 53 ≤ prec) {k : DecimalKind} {n : Int} (hn : |n| ≤ 2 ^ 49) (h : InRange k ((n : ℚ) / 10 ^ 6)) : InRange k (microF prec n) := by
  have lo : ∀ b : Int, |b| ≤ 2 ^ 52 → (b : ℚ) ≤ (n : ℚ) / 10 ^ 6 → (b : ℚ) ≤ microF prec n := fun b hb h => le_microF hp hn hb (le_mult.mp h)
  have hi : ∀ b : Int, |b| ≤ 2 ^ 52 → (n : ℚ) / 10 ^ 6 ≤ b → microF prec n ≤ b := fun b hb h => microF_le hp hn hb (mult_le.mp h)
  have pos : 0 < (n : ℚ) / 10 ^ 6 → 0 < microF prec n := by
    intro h0
    have h1 : (0 : ℚ) < n := by
      by_contra hc
      have := div_nonpos_of_nonpos_of_nonneg (not_lt.mp hc) (by norm_num : (0 : ℚ) ≤ 10 ^ 6)
      linarith
    have h2 : (1 : ℚ) ≤ n := by exact_mod_cast (by exact_mod_cast h1 : 0 < n)
    have h3 := abs_le.mp (microF_near hp hn)
    by_contra hc
    linarith [h3.1]
  cases k
  case NonNegativeDecimal => exact_mod_cast lo 0 (by norm_num) (by exact_mod_cast h)
  case TrillBeats => exact_mod_cast lo 2 (by norm_num) (by exact_mod_cast h)
  case Percent => exact ⟨by exact_mod_cast lo 0 (by norm_num) (by exact_mod_cast h.1), by exact_mod_cast hi 100 (by norm_num) (by exact_mod_cast h.2)⟩
  case RotationDegrees => exact ⟨by exact_mod_cast lo (-180) (by norm_num) (by exact_mod_cast h.1), by exact_mod_cast hi 180 (by norm_num) (by exact_mod_cast h.2)⟩
  case PositiveDecimal => exact pos h
  case PositiveDivisions => exact pos h
  case PositiveDivisionsValue => exact pos h
  all_goals trivial

/-- The decimal next to a number of the range is in the range. -/
theorem rounded_inRange {k : DecimalKind} {v : ℚ} {n : Int} (h : Holds k v) (hn : |(n : ℚ) - v * 10 ^ 6| ≤ 51 / 100) : InRange k ((n : ℚ) / 10 ^ 6) := by
  have h1 := abs_le.mp hn
  have lo : ∀ b : Int, (b : ℚ) ≤ v → (b : ℚ) ≤ (n : ℚ) / 10 ^ 6 := by
    intro b hb
    rw [le_mult]
    by_contra hc
    have : (n : ℚ) + 1 ≤ b * 10 ^ 6 := by exact_mod_cast (not_le.mp hc)
    linarith [h1.1]
  have hi : ∀ b : Int, v ≤ b → (n : ℚ) / 10 ^ 6 ≤ b := by
    intro b hb
    rw [mult_le]
    by_contra hc
    have : (b : ℚ) * 10 ^ 6 + 1 ≤ n := by exact_mod_cast (not_le.mp hc)
    linarith [h1.2]
  have pos : ExcludesZero k → 0 < (n : ℚ) / 10 ^ 6 := by
    intro hk
    have h2 := h.visible hk
    refine div_pos ?_ (by norm_num)
    linarith [h1.1]
  have hr := h.inRange
  cases k
  case NonNegativeDecimal => exact_mod_cast lo 0 (by exact_mod_cast hr)
  case TrillBeats => exact_mod_cast lo 2 (by exact_mod_cast hr)
  case Percent => exact ⟨by exact_mod_cast lo 0 (by exact_mod_cast hr.1), by exact_mod_cast hi 100 (by exact_mod_cast hr.2)⟩
  case RotationDegrees => exact ⟨by exact_mod_cast lo (-180) (by exact_mod_cast hr.1), by exact_mod_cast hi 180 (by exact_mod_cast hr.2)⟩
  case PositiveDecimal => exact pos (Or.inl rfl)
  case PositiveDivisions => exact pos (Or.inr (Or.inl rfl))
  case PositiveDivisionsValue => exact pos (Or.inr (Or.inr rfl))
  all_goals trivial

theorem make_default (k : DecimalKind) : ∃ d, DecimalRange.make k k.defaultValue = some d ∧ d.kind = k ∧ d.value.maxIntegerDigits = 19 ∧ d.value.maxDecimalDigits = 6 := by
  obtain ⟨d, h⟩ : ∃ d, DecimalRange.make k k.defaultValue = some d := Option.isSome_iff_exists.mp (by cases k <;> decide +kernel)
  exact ⟨d, h, (sound_make h).1, (sound_make h).2.1, (sound_make h).2.2.1⟩

/-- What a decimal of `n` millionths gives when its text is read. -/
theorem read_micro {prec : Nat} (hp : 53 ≤ prec) {k : DecimalKind} {d d0 : DecimalRange} {n : Int} (hd0 : DecimalRange.make k k.defaultValue = some d0) (hk : d.kind = k) (h6 : d.value.maxDecimalDigits = 6)
    (hd : d.value.decimal < 10 ^ 6) (hc : d.value.integer * 10 ^ 6 + d.value.decimal = n.natAbs) (hs : n ≠ 0 → d.value.isNegative = decide (n < 0)) (hn : |n| ≤ 2 ^ 49) (hr : InRange k ((n : ℚ) / 10 ^ 6)) :
    (d0.parseF prec d.toStr).map (fun r => r.2.getValueF prec) = some (microF prec n) := by
  -- the decimal that exact arithmetic makes of the number
  have hX : |(n : ℚ) / 10 ^ 6| ≤ 2 ^ 30 := by
    have hnq : |(n : ℚ)| ≤ 2 ^ 49 := by exact_mod_cast hn
    rw [abs_div, abs_of_pos (by norm_num : (0 : ℚ) < 10 ^ 6), div_le_iff₀ (by norm_num)]
    exact le_trans hnq (by norm_num)
  have hcnt : |(n : ℚ) / 10 ^ 6| * 10 ^ 6 = ((n.natAbs : Nat) : ℚ) := by
    rw [abs_div, abs_of_pos (by norm_num : (0 : ℚ) < 10 ^ 6), div_mul_cancel₀ _ (by norm_num), Nat.cast_natAbs]
    push_cast; rfl
  have hclamp : k.minClamp (k.maxClamp ((n : ℚ) / 10 ^ 6)) = (n : ℚ) / 10 ^ 6 := (clamp_eq k _).1 hr
  obtain ⟨p, hp1, hp2⟩ : ∃ p, DecimalRange.make k ((n : ℚ) / 10 ^ 6) = some ⟨k, p⟩ ∧ p = PreciseDecimal.ofCount p (decide ((n : ℚ) / 10 ^ 6 < 0)) n.natAbs := by
    unfold DecimalRange.make PreciseDecimal.make
    rw [hclamp, PreciseDecimal.setValue_count (by rfl) (by rfl) (lt_of_le_of_lt hX (by norm_num)) hcnt]
    exact ⟨_, rfl, rfl⟩
  obtain ⟨a1, a2, a3, a4, -⟩ := sound_make hp1
  have a3' : p.maxDecimalDigits = 6 := a3
  have i1 : p.integer = n.natAbs / 10 ^ 6 := by rw [hp2]; rfl
  have i2 : p.decimal = n.natAbs % 10 ^ 6 := by rw [hp2]; rfl
  have i3 : p.isNegative = decide ((n : ℚ) / 10 ^ 6 < 0) := by rw [hp2]; rfl
  have hsign : decide ((n : ℚ) / 10 ^ 6 < 0) = decide (n < 0) := by
    rw [decide_eq_decide, div_lt_iff₀ (by norm_num), zero_mul]; exact_mod_cast Iff.rfl
  have j1 : d.value.integer = p.integer := by rw [i1]; omega
  have j2 : d.value.decimal = p.decimal := by rw [i2]; omega
  have htext : d.toStr = (DecimalRange.mk k p).toStr := by
    show d.value.toStr = p.toStr
    unfold PreciseDecimal.toStr
    rw [j1, j2, h6, a3']
    by_cases h0 : n = 0
    · have z1 : p.integer = 0 := by rw [i1, h0]; rfl
      have z2 : p.decimal = 0 := by rw [i2, h0]; rfl
      rw [if_pos ⟨z1, z2⟩, if_pos ⟨z1, z2⟩]
    · rw [hs h0, i3, hsign]
  have hval : (DecimalRange.mk k p).getValue * 10 ^ 6 = n := by
    show p.getValue * 10 ^ 6 = n
    unfold PreciseDecimal.getValue PreciseDecimal.express
    simp only
    rw [a3', i3, hsign, i1, i2]
    have h1 : ((n.natAbs / 10 ^ 6 : Nat) : ℚ) * 10 ^ 6 + ((n.natAbs % 10 ^ 6 : Nat) : ℚ) = (n.natAbs : Nat) := by
      have e : n.natAbs / 10 ^ 6 * 10 ^ 6 + n.natAbs % 10 ^ 6 = n.natAbs := Nat.div_add_mod' _ _
      exact_mod_cast e
    have h2 : (((n.natAbs / 10 ^ 6 : Nat) : ℚ) + ((n.natAbs % 10 ^ 6 : Nat) : ℚ) / 10 ^ 6) * 10 ^ 6 = (n.natAbs : Nat) := by rw [← h1]; field_simp
    have h3 : ((n.natAbs : Nat) : ℚ) = |(n : ℚ)| := by rw [Nat.cast_natAbs]; push_cast; rfl
    by_cases hneg : n < 0
    · rw [decide_eq_true hneg, if_pos rfl, mul_right_comm, h2, h3, abs_of_neg (by exact_mod_cast hneg)]; ring
    · rw [decide_eq_false hneg, if_neg (by simp), h2, h3, abs_of_nonneg (by exact_mod_cast (not_lt.mp hneg))]
  have hint : p.integer < 2 ^ 30 := by
    have : n.natAbs ≤ 2 ^ 49 := by rw [abs_le] at hn; omega
    rw [i1]; omega
  obtain ⟨b1, b2, b3, -⟩ := sound_make hd0
  have hval' : (DecimalRange.mk k p).getValue = (n : ℚ) / 10 ^ 6 := by rw [← hval]; field_simp
  obtain ⟨d', e1, e2, -⟩ := C81_saved_loaded hp k _ k.defaultValue [] ⟨k, p⟩ d0 d0 hp1 (by rw [hval']; exact hr)
    (lt_of_lt_of_le hint (Nat.pow_le_pow_right (by norm_num) (by omega))) (lt_of_lt_of_le hint (by norm_num)) (by rw [hclamp]; exact le_trans hX (by norm_num)) hd0 rfl
  obtain ⟨k1, k2⟩ := parseF_decimals b3 e1
  rw [htext, e1, Option.map_some]
  show some (d'.value.getValueF prec) = _
  rw [getValueF_micro k1 k2 (n := n) (by rw [← hval, ← e2]; rfl)]

/-- What is got is the rounded value of the decimal that is stored. -/
theorem through_any {prec : Nat} (hp : 53 ≤ prec) {k : DecimalKind} {v : ℚ} (hv : Rep prec v) (h : Holds k v) :
    ∃ n : Int, |(n : ℚ) - v * 10 ^ 6| ≤ 51 / 100 ∧ |n| ≤ 2 ^ 49 ∧ InRange k ((n : ℚ) / 10 ^ 6) ∧ throughText prec k v = some (microF prec n) := by
  obtain ⟨d0, hd0, hk, h19, h6⟩ := make_default k
  obtain ⟨p, hp1, hp2⟩ := PreciseDecimal.setValueF_near hp h19 h6 hv (le_trans h.moderate (by norm_num))
  obtain ⟨q1, q2⟩ := setValueF_decimals h6 hp1
  obtain ⟨n, hn0, hneg, hval⟩ : ∃ n : Int, p.integer * 10 ^ 6 + p.decimal = n.natAbs ∧ (n ≠ 0 → p.isNegative = decide (n < 0)) ∧ p.getValue * 10 ^ 6 = n := by
    have hq : p.getValue * 10 ^ 6 = (if p.isNegative then -1 else 1) * ((p.integer * 10 ^ 6 + p.decimal : Nat) : ℚ) := by
      unfold PreciseDecimal.getValue PreciseDecimal.express
      simp only
      rw [q1]
      push_cast
      split <;> field_simp <;> norm_num
    generalize p.integer * 10 ^ 6 + p.decimal = c at *
    cases hb : p.isNegative
    · rw [hb, if_neg (by simp), one_mul] at hq
      exact ⟨c, by omega, fun _ => (decide_eq_false (by omega)).symm, by rw [hq]; push_cast; rfl⟩
    · rw [hb, if_pos rfl, neg_one_mul] at hq
      exact ⟨-c, by omega, fun _ => (decide_eq_true (by omega)).symm, by rw [hq]; push_cast; rfl⟩
  have hn : |(n : ℚ) - v * 10 ^ 6| ≤ 51 / 100 := by
    rw [← hval, ← sub_mul, abs_mul, abs_of_pos (by norm_num : (0 : ℚ) < 10 ^ 6)]
    calc _ ≤ 0.51 / 10 ^ 6 * 10 ^ 6 := mul_le_mul_of_nonneg_right hp2 (by norm_num)
      _ ≤ _ := by norm_num
  have hb : |n| ≤ 2 ^ 49 := by
    have h1 := abs_le.mp hn
    have h2 := abs_le.mp h.moderate
    have h3 : |(n : ℚ)| ≤ 2 ^ 49 := by
      rw [abs_le]
      constructor <;> linarith [h1.1, h1.2, h2.1, h2.2, show (500000000 : ℚ) * 10 ^ 6 + 1 ≤ 2 ^ 49 by norm_num]
    exact_mod_cast h3
  have hr := rounded_inRange h hn
  refine ⟨n, hn, hb, hr, ?_⟩
  have hset : d0.setValueF prec v = some ⟨d0.kind, p⟩ := by
    unfold DecimalRange.setValueF
    rw [hk, clampF_id h.inRange, hp1, Option.map_some, ← hk]
  unfold throughText
  rw [hd0, Option.bind_some, hset, Option.bind_some, Option.bind_some]
  exact read_micro hp hd0 hk q1 q2 hn0 hneg hb hr

/-- The second time nothing changes. -/
theorem through_micro {prec : Nat} (hp : 53 ≤ prec) {k : DecimalKind} {n : Int} (hn : |n| ≤ 2 ^ 49) (hr : InRange k ((n : ℚ) / 10 ^ 6)) : throughText prec k (microF prec n) = some (microF prec n) := by
  obtain ⟨d0, hd0, hk, h19, h6⟩ := make_default k
  have hnear := microF_near hp hn
  have hnq : |(n : ℚ)| ≤ 2 ^ 49 := by exact_mod_cast hn
  have hcount : |(|microF prec n| * 10 ^ 6) - ((n.natAbs : Nat) : ℚ)| ≤ 1 / 4 := by
    have e : ((n.natAbs : Nat) : ℚ) = |(n : ℚ)| := by rw [Nat.cast_natAbs]; push_cast; rfl
    have e2 : |microF prec n| * 10 ^ 6 = |microF prec n * 10 ^ 6| := by rw [abs_mul, abs_of_pos (by norm_num : (0 : ℚ) < 10 ^ 6)]
    rw [e, e2]
    exact le_trans (abs_abs_sub_abs_le _ _) hnear
  have hsmall : |microF prec n| < 10 ^ 19 := by
    have h1 := abs_le.mp hnear
    have h2 := abs_le.mp hnq
    rw [abs_lt]
    constructor <;> linarith [h1.1, h1.2, h2.1, h2.2, show (2 : ℚ) ^ 49 + 1 < 10 ^ 25 by norm_num]
  have hp1 := PreciseDecimal.setValueF_count hp h19 h6 (microF_rep (by omega) n) hsmall hcount
  have hset : d0.setValueF prec (microF prec n) = some ⟨d0.kind, PreciseDecimal.ofCount d0.value (decide (microF prec n < 0)) n.natAbs⟩ := by
    unfold DecimalRange.setValueF
    rw [hk, clampF_id (microF_inRange hp hn hr), hp1, Option.map_some, ← hk]
  unfold throughText
  rw [hd0, Option.bind_some, hset, Option.bind_some, Option.bind_some]
  refine read_micro hp hd0 hk h6 ?_ ?_ ?_ hn hr
  · show n.natAbs % 10 ^ 6 < 10 ^ 6
    omega
  · show n.natAbs / 10 ^ 6 * 10 ^ 6 + n.natAbs % 10 ^ 6 = _
    omega
  · intro _
    show decide (microF prec n < 0) = _
    rw [decide_eq_decide]
    exact microF_neg hp hn

/-- Multiples of a 64th are exact. -/
theorem microF_dyadic {prec : Nat} (hp : 53 ≤ prec) {m : Int} (hm : |m| ≤ 2 ^ 52) : microF prec (15625 * m) = (m : ℚ) / 64 := by
  have hpos : 0 < prec := by omega
  have big : (2 : Nat) ^ 53 ≤ 2 ^ prec := Nat.pow_le_pow_right (by norm_num) hp
  have hparts := micro_parts (15625 * m)
  have hmn : m.natAbs ≤ 2 ^ 52 := by rw [abs_le] at hm; omega
  have e1 : (15625 * m).natAbs / 10 ^ 6 = m.natAbs / 64 := by omega
  have e2 : (15625 * m).natAbs % 10 ^ 6 = 15625 * (m.natAbs % 64) := by omega
  have eq : ((15625 * m : Int) : ℚ) / 10 ^ 6 = (m : ℚ) / 64 := by push_cast; ring
  rw [eq, e1, e2] at hparts
  unfold microF PreciseDecimal.expressF
  simp only
  rw [e1, e2]
  have f1 : fl prec ((m.natAbs / 64 : Nat) : ℚ) = (m.natAbs / 64 : Nat) := fl_nat hpos (by omega)
  have f2 : fl prec ((15625 * (m.natAbs % 64) : Nat) : ℚ) = (15625 * (m.natAbs % 64) : Nat) := fl_nat hpos (by omega)
  have q : ((15625 * (m.natAbs % 64) : Nat) : ℚ) / 10 ^ 6 = ((m.natAbs % 64 : Nat) : ℚ) / 64 := by push_cast; ring
  have small : ∀ c : Nat, c ≤ 2 ^ 53 → Rep prec ((c : ℚ) / 64) := by
    intro c hc
    refine ⟨c, -6, ?_, by rw [zpow_neg]; norm_num [div_eq_mul_inv]⟩
    rw [abs_of_nonneg (by positivity)]
    exact_mod_cast (le_trans hc big)
  rw [f1, f2, PreciseDecimal.fl_ten6 hp, q, fl_exact hpos (small _ (by omega))]
  have sum : ((m.natAbs / 64 : Nat) : ℚ) + ((m.natAbs % 64 : Nat) : ℚ) / 64 = ((m.natAbs : Nat) : ℚ) / 64 := by
    have h : m.natAbs / 64 * 64 + m.natAbs % 64 = m.natAbs := by omega
    have h' : ((m.natAbs / 64 : Nat) : ℚ) * 64 + ((m.natAbs % 64 : Nat) : ℚ) = (m.natAbs : Nat) := by exact_mod_cast h
    rw [← h']; ring
  rw [q, sum] at hparts
  rw [sum, fl_exact hpos (small _ (by omega)), hparts]
  by_cases h : 15625 * m < 0
  · rw [decide_eq_true h, if_pos rfl, if_pos h, mul_neg_one, fl_exact hpos (small _ (by omega)).neg]; ring
  · rw [decide_eq_false h, if_neg (by simp), if_neg h, one_mul]

end Mx
