import Verif.Model.FloatPitch
import Verif.Proofs.FloatScore
import Verif.Proofs.NoteDetails
import Verif.Props.FloatProps

/-! Alterations and cents in floating point arithmetic. -/
open Spec
namespace Mx
open Fl Props Measure

theorem fl_zero_iff {p : Nat} (hp : 53 ≤ p) (x : ℚ) : fl p x = 0 ↔ x = 0 := by
  constructor
  · intro h
    have := fl_err hp x
    rw [h, zero_sub, abs_neg] at this
    by_contra hx
    have h0 : 0 < |x| := abs_pos.mpr hx
    have : U * |x| < 1 * |x| := mul_lt_mul_of_pos_right (by unfold U; norm_num) h0
    linarith
  · rintro rfl; unfold fl; simp

theorem fl_small_int {p : Nat} (hp : 53 ≤ p) {a : Int} (ha : |a| ≤ 100000) : fl p (a : ℚ) = a :=
  fl_int (by omega) (le_trans ha (le_trans (by norm_num) (pow_le_pow_right₀ (by norm_num) hp : (2 : Int) ^ 53 ≤ 2 ^ p)))

/-- Alteration and cents point the same way. -/
theorem same_way {a : Int} {C : ℚ} (h : 0 ≤ (a : ℚ) * C) : |(a : ℚ) + C / 100| = |(a : ℚ)| + |C| / 100 := by
  have e : |C| / 100 = |C / 100| := by rw [abs_div, abs_of_pos (by norm_num : (0 : ℚ) < 100)]
  rw [e]
  have h' : 0 ≤ (a : ℚ) * (C / 100) := by have : (a : ℚ) * (C / 100) = (a : ℚ) * C / 100 := by ring
                                          rw [this]; exact div_nonneg h (by norm_num)
  exact abs_add_eq_add_abs_iff _ _ |>.mpr (by
    rcases mul_nonneg_iff.mp h' with h | h
    · exact Or.inl h
    · exact Or.inr h)

/-- The sum is calculated with a small error. -/
theorem convertToAlterF_near {a : Int} {C c : ℚ} (ha : |a| ≤ 100000) (hC : |C| < 100) (hc : |c - C| ≤ 1 / 10 ^ 8) : |convertToAlterF a c - ((a : ℚ) + C / 100)| ≤ 1 / 10 ^ 8 := by
  have z : fl 53 (0 : ℚ) = 0 := (fl_zero_iff (le_refl _) 0).mpr rfl
  have e1 : convertToAlterF a c = fl 53 ((a : ℚ) + fl 53 (c / 100)) := by
    unfold convertToAlterF
    rw [fl_small_int (le_refl _) ha]
    split
    · split
      · rfl
      · rename_i h; push Not at h; rw [h, zero_div, z]
    · rename_i h
      push Not at h
      rw [h.1, h.2, zero_div, z]
      simp [z]
  rw [e1]
  have ha' : |(a : ℚ)| ≤ 100000 := by exact_mod_cast ha
  have g1 := fl_err (le_refl 53) (c / 100)
  have hc100 : |c / 100| ≤ 2 := by
    rw [abs_le] at hc ⊢
    rw [abs_lt] at hC
    constructor <;> linarith [hc.1, hc.2, hC.1, hC.2]
  have g2 : U * |c / 100| ≤ U * 2 := mul_le_mul_of_nonneg_left hc100 U_pos.le
  have u1 : U * 2 ≤ 1 / 10 ^ 12 := by unfold U; norm_num
  have g3 := abs_le.mp (le_trans g1 (le_trans g2 u1))
  generalize fl 53 (c / 100) = z1 at *
  have g4 := fl_err (le_refl 53) ((a : ℚ) + z1)
  have g5 : |(a : ℚ) + z1| ≤ 100003 := by
    rw [abs_le] at ha' hc100 ⊢
    constructor <;> linarith [ha'.1, ha'.2, hc100.1, hc100.2, g3.1, g3.2]
  have u2 : U * 100003 ≤ 1 / 10 ^ 10 := by unfold U; norm_num
  have g6 := abs_le.mp (le_trans g4 (le_trans (mul_le_mul_of_nonneg_left g5 U_pos.le) u2))
  generalize fl 53 ((a : ℚ) + z1) = r at *
  rw [abs_le] at hc ⊢
  constructor <;> linarith [hc.1, hc.2, g3.1, g3.2, g6.1, g6.2]

/-- The bounds on the sum. -/
theorem alter_bound {a : Int} {C : ℚ} (ha : |a| ≤ 100000) (hc : CentsFit a C) : |(a : ℚ) + C / 100| ≤ 100001 ∧ ∃ c : Nat, |(a : ℚ) + C / 100| * 10 ^ 6 = c := by
  obtain ⟨h1, h2, n, hn⟩ := hc
  have ha' : |(a : ℚ)| ≤ 100000 := by exact_mod_cast ha
  refine ⟨by rw [same_way h2]; linarith, (a * 10 ^ 6 + n).natAbs, ?_⟩
  have e : ((a : ℚ) + C / 100) * 10 ^ 6 = ((a * 10 ^ 6 + n : Int) : ℚ) := by push_cast; rw [← hn]; ring
  have e2 : |(a : ℚ) + C / 100| * 10 ^ 6 = |((a : ℚ) + C / 100) * 10 ^ 6| := by rw [abs_mul, abs_of_pos (by norm_num : (0 : ℚ) < 10 ^ 6)]
  rw [e2, e, Nat.cast_natAbs]
  push_cast
  rfl

theorem make_zero : ∃ d, DecimalRange.make .Semitones 0 = some d ∧ d.kind = .Semitones ∧ d.value.maxIntegerDigits = 19 ∧ d.value.maxDecimalDigits = 6 := by
  obtain ⟨d, h⟩ : ∃ d, DecimalRange.make .Semitones 0 = some d := Option.isSome_iff_exists.mp (by decide +kernel)
  exact ⟨d, h, (sound_make h).1, (sound_make h).2.1, (sound_make h).2.2.1⟩

/-- The text is that of exact arithmetic. -/
theorem semitonesTextF_eq {prec : Nat} (hp : 53 ≤ prec) {A X : ℚ} (hrep : Rep prec A) (hX : |X| ≤ 100001) {c : Nat} (hc : |X| * 10 ^ 6 = c) (hA : |A - X| ≤ 1 / 10 ^ 8) (h0 : X = 0 → A = 0) :
    semitonesTextF prec A = semitonesText X := by
  obtain ⟨d, hd, hk, h19, h6⟩ := make_zero
  unfold semitonesTextF semitonesText
  rw [hd]
  have hneg : decide (A < 0) = decide (X < 0) := by
    rw [decide_eq_decide]
    by_cases hx0 : X = 0
    · rw [h0 hx0, hx0]
    · have hc1 : 1 ≤ c := by
        rcases Nat.eq_zero_or_pos c with h | h
        · rw [h, Nat.cast_zero, mul_eq_zero, abs_eq_zero] at hc
          rcases hc with hc | hc
          · exact absurd hc hx0
          · norm_num at hc
        · exact h
      have hc1q : (1 : ℚ) ≤ c := by exact_mod_cast hc1
      have hlt : 1 / 10 ^ 6 ≤ |X| := by
        rw [div_le_iff₀ (by norm_num), hc]; exact hc1q
      have h1 := abs_le.mp hA
      constructor
      · intro hA0
        by_contra hx
        rw [abs_of_nonneg (not_lt.mp hx)] at hlt
        linarith [h1.1]
      · intro hx
        rw [abs_of_neg hx] at hlt
        linarith [h1.2]
  have hset : d.setValueF prec A = some { d with value := PreciseDecimal.ofCount d.value (decide (X < 0)) c } := by
    unfold DecimalRange.setValueF
    rw [hk]
    show (d.value.setValueF prec A).map _ = _
    rw [PreciseDecimal.setValueF_count hp h19 h6 hrep (c := c) ?_ ?_, hneg]
    · rfl
    · have h1 : |A| ≤ |X| + |A - X| := by
        have : A = X + (A - X) := by ring
        calc |A| = |X + (A - X)| := by rw [← this]
          _ ≤ _ := abs_add_le _ _
      refine lt_of_le_of_lt h1 ?_
      have : |A - X| ≤ 1 := le_trans hA (by norm_num)
      refine lt_of_le_of_lt (add_le_add hX this) (by norm_num)
    · rw [← hc, ← sub_mul, abs_mul, abs_of_pos (by norm_num : (0 : ℚ) < 10 ^ 6)]
      have h1 : |(|A|) - (|X|)| ≤ |A - X| := abs_abs_sub_abs_le _ _
      have h2 : |(|A|) - (|X|)| ≤ 1 / 10 ^ 8 := le_trans h1 hA
      calc _ ≤ (1 : ℚ) / 10 ^ 8 * 10 ^ 6 := mul_le_mul_of_nonneg_right h2 (by norm_num)
        _ ≤ _ := by norm_num
  have hmake : DecimalRange.make .Semitones X = some { d with value := PreciseDecimal.ofCount d.value (decide (X < 0)) c } := by
    unfold DecimalRange.make PreciseDecimal.make
    have e1 : DecimalKind.Semitones.minClamp (DecimalKind.Semitones.maxClamp X) = X := rfl
    rw [e1, PreciseDecimal.setValue_count (by rfl) (by rfl) (lt_of_le_of_lt hX (by norm_num)) hc]
    simp only [Option.map_some, PreciseDecimal.ofCount]
    have e19 : PreciseDecimal.clampDigits 19 = 19 := rfl
    have e6 : PreciseDecimal.clampDigits 6 = 6 := rfl
    rw [h19, h6, e19, e6]
    cases d
    subst hk
    rfl
  rw [Option.bind_some, hset, hmake]

theorem convertToAlterF_rep {prec : Nat} (hp : 53 ≤ prec) (a : Int) (c : ℚ) : Rep prec (convertToAlterF a c) := by
  unfold convertToAlterF
  split
  · exact (fl_rep 53 (by norm_num) _).mono hp
  · exact Rep.zero _

/-- The text that is written. -/
theorem alterTextF {prec : Nat} (hp : 53 ≤ prec) {a : Int} {C c : ℚ} (ha : |a| ≤ 100000) (hf : CentsFit a C) (hc : |c - C| ≤ 1 / 10 ^ 8) (h0 : C = 0 → c = 0) :
    semitonesTextF prec (convertToAlterF a c) = semitonesText ((a : ℚ) + C / 100) := by
  obtain ⟨hX, n, hn⟩ := alter_bound ha hf
  refine semitonesTextF_eq hp (convertToAlterF_rep hp a c) hX hn (convertToAlterF_near ha hf.1 hc) ?_
  intro hX0
  have h2 := same_way hf.2.1
  rw [hX0, abs_zero] at h2
  have h3 := abs_nonneg (a : ℚ)
  have h4 := abs_nonneg C
  have h5 : |(a : ℚ)| = 0 := by linarith
  have h6 : |C| = 0 := by linarith
  have ha0 : a = 0 := by exact_mod_cast abs_eq_zero.mp h5
  unfold convertToAlterF
  rw [if_neg]
  push Not
  exact ⟨ha0, h0 (abs_eq_zero.mp h6)⟩

/-! ### Reading -/

theorem setValueF_decimals {prec : Nat} {p p' : PreciseDecimal} {v : ℚ} (h6 : p.maxDecimalDigits = 6) (h : p.setValueF prec v = some p') : p'.maxDecimalDigits = 6 ∧ p'.decimal < 10 ^ 6 := by
  have hf : PreciseDecimal.findMax 6 = 999999 := by decide
  unfold PreciseDecimal.setValueF at h
  simp only at h
  generalize (if v < 0 then fl prec (v * -1) else v) = w at h
  rw [h6, hf] at h
  split at h
  · cases h
  · split at h
    · rw [Option.some.injEq] at h; subst h; exact ⟨rfl, by show 999999 < _; norm_num⟩
    · split at h
      · rw [Option.some.injEq] at h; subst h; exact ⟨rfl, by show 0 < _; norm_num⟩
      · rename_i hle
        rw [Option.some.injEq] at h; subst h
        exact ⟨rfl, lt_of_le_of_lt (not_lt.mp hle) (by norm_num)⟩

theorem parseF_decimals {prec : Nat} {d d' : DecimalRange} {s : Str} (h6 : d.value.maxDecimalDigits = 6) (h : d.parseF prec s = some (true, d')) : d'.value.maxDecimalDigits = 6 ∧ d'.value.decimal < 10 ^ 6 := by
  unfold DecimalRange.parseF at h
  simp only at h
  split at h
  · cases h
  · split at h
    · obtain ⟨x, hx, hx2⟩ := Option.map_eq_some_iff.mp h
      have : x = d' := by injection hx2
      subst this
      unfold DecimalRange.setValueF at hx
      obtain ⟨q, hq, rfl⟩ := Option.map_eq_some_iff.mp hx
      exact setValueF_decimals h6 hq
    · cases h

/-- The value that is got of a number of millionths. -/
theorem getValueF_micro {prec : Nat} {p : PreciseDecimal} (h6 : p.maxDecimalDigits = 6) (hd : p.decimal < 10 ^ 6) {n : Int} (hn : p.getValue * 10 ^ 6 = n) : p.getValueF prec = microF prec n := by
  have hv : p.getValue * 10 ^ 6 = (if p.isNegative then -1 else 1) * ((p.integer * 10 ^ 6 + p.decimal : Nat) : ℚ) := by
    unfold PreciseDecimal.getValue PreciseDecimal.express
    simp only
    rw [h6]
    push_cast
    split <;> field_simp <;> norm_num
  rw [hv] at hn
  have hz : (if p.isNegative then -1 else 1) * ((p.integer * 10 ^ 6 + p.decimal : Nat) : Int) = n := by
    revert hn
    cases p.isNegative <;> intro hn <;> simp only [Bool.false_eq_true, if_false, if_true, one_mul, neg_one_mul] at hn ⊢ <;> exact_mod_cast hn
  unfold PreciseDecimal.getValueF microF
  rw [h6]
  have habs : n.natAbs = p.integer * 10 ^ 6 + p.decimal := by
    cases hneg : p.isNegative <;> rw [hneg] at hz <;> simp only [Bool.false_eq_true, if_false, if_true] at hz <;> omega
  have e1 : n.natAbs / 10 ^ 6 = p.integer := by omega
  have e2 : n.natAbs % 10 ^ 6 = p.decimal := by omega
  rw [e1, e2]
  by_cases h0 : n = 0
  · subst h0
    have i0 : p.integer = 0 := by omega
    have d0 : p.decimal = 0 := by omega
    rw [i0, d0]
    have z : fl prec (0 : ℚ) = 0 := by unfold fl; simp
    unfold PreciseDecimal.expressF
    simp only [Nat.cast_zero, z, zero_div, add_zero, zero_mul]
    simp
  · have : decide (n < 0) = p.isNegative := by
      cases hneg : p.isNegative <;> rw [hneg] at hz <;> simp only [Bool.false_eq_true, if_false, if_true] at hz
      · exact decide_eq_false (by omega)
      · exact decide_eq_true (by omega)
    rw [this]

/-- The text of a number of semitones with six decimals, read in floating point arithmetic. -/
theorem parseSemitonesF_text {prec : Nat} (hp : 53 ≤ prec) {X : ℚ} {n : Int} (hX : |X| ≤ 100001) (hn : X * 10 ^ 6 = n) : ∃ s, semitonesText X = some s ∧ parseSemitonesF prec s = some (microF prec n) := by
  obtain ⟨d0, hd0, -, -, h06⟩ := make_zero
  obtain ⟨p, g1, g2, g3, g4, g5, g6, g7, g8⟩ := PreciseDecimal.setValue_near
    { isNegative := decide (X < 0), integer := 0, decimal := 0, maxIntegerDigits := 19, maxDecimalDigits := 6 } X (le_refl 19) (lt_of_le_of_lt hX (by norm_num))
  have hm : DecimalRange.make .Semitones X = some ⟨.Semitones, p⟩ := by
    unfold DecimalRange.make PreciseDecimal.make
    have e1 : DecimalKind.Semitones.minClamp (DecimalKind.Semitones.maxClamp X) = X := rfl
    rw [e1, show (PreciseDecimal.clampDigits 19) = 19 from rfl, show (PreciseDecimal.clampDigits 6) = 6 from rfl, g1]
    rfl
  have hval : p.getValue = X := g8 n hn
  have hint : p.integer < 2 ^ 18 := by
    have h1 : p.getValue = (if p.isNegative then -1 else 1) * ((p.integer : ℚ) + (p.decimal : ℚ) / 10 ^ p.maxDecimalDigits) := by
      unfold PreciseDecimal.getValue PreciseDecimal.express
      simp only
      split <;> ring
    have h2 : |p.getValue| = (p.integer : ℚ) + (p.decimal : ℚ) / 10 ^ p.maxDecimalDigits := by
      rw [h1, abs_mul, abs_of_nonneg (by positivity : (0 : ℚ) ≤ (p.integer : ℚ) + (p.decimal : ℚ) / 10 ^ p.maxDecimalDigits)]
      split <;> simp
    have h3 : (0 : ℚ) ≤ (p.decimal : ℚ) / 10 ^ p.maxDecimalDigits := by positivity
    have h4 : (p.integer : ℚ) ≤ 100001 := by rw [hval] at h2; linarith
    have h5 : p.integer ≤ 100001 := by exact_mod_cast h4
    omega
  obtain ⟨d', e1, e2, -⟩ := C81_saved_loaded hp .Semitones X 0 [] ⟨.Semitones, p⟩ d0 d0 hm trivial
    (lt_of_lt_of_le hint (Nat.pow_le_pow_right (by norm_num) (by omega))) (lt_of_lt_of_le hint (by norm_num)) (le_trans hX (by norm_num)) hd0 rfl
  refine ⟨_, by unfold semitonesText; rw [hm]; rfl, ?_⟩
  unfold parseSemitonesF
  rw [hd0, Option.bind_some, e1, Option.map_some]
  obtain ⟨k1, k2⟩ := parseF_decimals h06 e1
  have k3 : d'.value.getValue = X := by
    have : d'.getValue = p.getValue := e2
    rw [hval] at this
    exact this
  show some (d'.value.getValueF prec) = _
  rw [getValueF_micro k1 k2 (n := n) (by rw [k3, hn])]

theorem threshold : 0 < fl 53 (1 / 1000000000000) ∧ fl 53 (1 / 1000000000000) ≤ 1 / 10 ^ 7 := by
  have h := abs_le.mp (fl_err (le_refl 53) (1 / 1000000000000))
  rw [abs_of_pos (by norm_num)] at h
  unfold U at h
  constructor
  · have : (0 : ℚ) < 1 / 1000000000000 - 1 / 2 ^ 53 * (1 / 1000000000000) := by norm_num
    linarith [h.1]
  · have : (1 : ℚ) / 1000000000000 + 1 / 2 ^ 53 * (1 / 1000000000000) ≤ 1 / 10 ^ 7 := by norm_num
    linarith [h.2]

/-- Cents with four decimals, as millionths of a semitone. -/
theorem cents_parts {a : Int} {C : ℚ} (hc : CentsFit a C) : ∃ m : Int, C / 100 = (m : ℚ) / 10 ^ 6 ∧ |m| < 10 ^ 6 ∧ 0 ≤ a * m ∧ (m = 0 ↔ C = 0) := by
  obtain ⟨h1, h2, m, hm⟩ := hc
  have e : C / 100 = (m : ℚ) / 10 ^ 6 := by rw [← hm]; ring
  have e' : C = (m : ℚ) / 10 ^ 4 := by rw [← hm]; ring
  refine ⟨m, e, ?_, ?_, ?_⟩
  · rw [e', abs_div, abs_of_pos (by norm_num : (0 : ℚ) < 10 ^ 4), div_lt_iff₀ (by norm_num)] at h1
    have : ((|m| : Int) : ℚ) < ((10 ^ 6 : Int) : ℚ) := by push_cast; linarith
    exact_mod_cast this
  · rw [e', ← mul_div_assoc] at h2
    have := mul_nonneg h2 (by norm_num : (0 : ℚ) ≤ 10 ^ 4)
    rw [div_mul_cancel₀ _ (by norm_num)] at this
    exact_mod_cast this
  · rw [e']
    constructor
    · rintro rfl; norm_num
    · intro h
      have : (m : ℚ) = 0 := by
        rw [div_eq_zero_iff] at h
        rcases h with h | h
        · exact h
        · norm_num at h
      exact_mod_cast this

/-- A number of semitones that is nearly `a` and the cents `C` is split into `a` and nearly `C`. -/
theorem split_err {prec : Nat} (hp : 53 ≤ prec) {a m : Int} {y C δ : ℚ} (ha : |a| ≤ 100000) (hC : C / 100 = (m : ℚ) / 10 ^ 6) (hm : |m| < 10 ^ 6) (hs : 0 ≤ a * m) (h0 : m = 0 → y = a)
    (hy : |y - ((a : ℚ) + C / 100)| ≤ δ) (hδ : δ ≤ 1 / 10 ^ 7) :
    ∃ c, convertToSemitonesAndCentsF prec y = some (a, c) ∧ (m = 0 → c = 0) ∧ (m ≠ 0 → c = fl 53 (fl prec (fl prec (y - a) * 100))) := by
  have hint : InInt a := by
    rw [abs_le] at ha
    unfold InInt INT_MIN INT_MAX
    constructor <;> omega
  have hδ' := abs_le.mp (le_trans hy hδ)
  obtain ⟨t1, t2⟩ := threshold
  unfold convertToSemitonesAndCentsF
  by_cases hm0 : m = 0
  · rw [h0 hm0]
    have e : castInt (a : ℚ) = some a := by simpa using castInt_fraction (f := 0) hint (by simp) (by simp)
    rw [e, Option.map_some]
    refine ⟨_, rfl, ?_, fun h => absurd hm0 h⟩
    intro _
    rw [fl_small_int hp ha, sub_self, (fl_zero_iff hp 0).mpr rfl, abs_zero, if_neg (not_le.mpr t1)]
  · have e : castInt y = some a := by
      have e1 : y = (a : ℚ) + (y - a) := by ring
      rw [e1]
      have hmq : |(m : ℚ)| ≤ 10 ^ 6 - 1 := by
        have : |m| ≤ 10 ^ 6 - 1 := by omega
        have : ((|m| : Int) : ℚ) ≤ ((10 ^ 6 - 1 : Int) : ℚ) := by exact_mod_cast this
        push_cast at this
        linarith
      rw [abs_le] at hmq
      refine castInt_fraction hint ?_ ?_
      · rw [abs_lt]
        rw [hC] at hδ'
        constructor <;> linarith [hδ'.1, hδ'.2, hmq.1, hmq.2]
      · rw [hC] at hδ'
        rcases lt_or_gt_of_ne hm0 with hlt | hgt
        · have ha0 : a ≤ 0 := by
            by_contra hpos
            have := mul_neg_of_pos_of_neg (not_le.mp hpos) hlt
            omega
          have hm1 : (m : ℚ) ≤ -1 := by exact_mod_cast (by omega : m ≤ -1)
          exact mul_nonneg_of_nonpos_of_nonpos (by exact_mod_cast ha0) (by linarith [hδ'.2])
        · have ha0 : 0 ≤ a := by
            by_contra hneg
            have := mul_neg_of_neg_of_pos (not_le.mp hneg) hgt
            omega
          have hm1 : (1 : ℚ) ≤ m := by exact_mod_cast (by omega : 1 ≤ m)
          exact mul_nonneg (by exact_mod_cast ha0) (by linarith [hδ'.1])
    rw [e, Option.map_some]
    refine ⟨_, rfl, fun h => absurd h hm0, ?_⟩
    intro _
    rw [fl_small_int hp ha, if_pos]
    -- at least a millionth of a semitone is left
    have hm1 : (1 : ℚ) ≤ |(m : ℚ)| := by
      have : 1 ≤ |m| := Int.one_le_abs hm0
      exact_mod_cast this
    have k1 : 1 / 10 ^ 6 - 1 / 10 ^ 7 ≤ |y - a| := by
      have e2 : (m : ℚ) / 10 ^ 6 = (y - a) - (y - ((a : ℚ) + C / 100)) := by rw [hC]; ring
      have e3 : |(m : ℚ) / 10 ^ 6| ≤ |y - a| + |y - ((a : ℚ) + C / 100)| := by
        rw [e2]; exact abs_sub _ _
      rw [abs_div, abs_of_pos (by norm_num : (0 : ℚ) < 10 ^ 6)] at e3
      have : (1 : ℚ) / 10 ^ 6 ≤ |(m : ℚ)| / 10 ^ 6 := div_le_div_of_nonneg_right hm1 (by norm_num)
      linarith
    have k2 := fl_err hp (y - a)
    have k3 : |y - a| ≤ |fl prec (y - a)| + |fl prec (y - a) - (y - a)| := by
      have : y - a = fl prec (y - a) - (fl prec (y - a) - (y - a)) := by ring
      calc |y - a| = |fl prec (y - a) - (fl prec (y - a) - (y - a))| := by rw [← this]
        _ ≤ _ := abs_sub _ _
    have k4 : U * |y - a| ≤ 1 / 2 * |y - a| := mul_le_mul_of_nonneg_right (by unfold U; norm_num) (abs_nonneg _)
    have k5 : |y - a| ≤ 2 * |fl prec (y - a)| := by linarith
    show fl 53 (1 / 1000000000000) ≤ |fl prec (y - a)|
    have : (1 : ℚ) / 10 ^ 7 ≤ (1 / 10 ^ 6 - 1 / 10 ^ 7) / 2 := by norm_num
    linarith

/-- Reading the text of an alteration. -/
theorem read_cents {prec : Nat} (hp : 53 ≤ prec) {a : Int} {C : ℚ} (ha : |a| ≤ 100000) (hc : CentsFit a C) :
    ∃ s x c, semitonesText ((a : ℚ) + C / 100) = some s ∧ parseSemitonesF prec s = some x ∧ (x = 0 → a = 0 ∧ C = 0) ∧ convertToSemitonesAndCentsF prec x = some (a, c) ∧ |c - C| ≤ 1 / (2 * 10 ^ 8) ∧ (C = 0 → c = 0) := by
  obtain ⟨hX, -⟩ := alter_bound ha hc
  obtain ⟨m, hC, hm, hs, hm0⟩ := cents_parts hc
  have hn : ((a : ℚ) + C / 100) * 10 ^ 6 = ((a * 10 ^ 6 + m : Int) : ℚ) := by rw [hC]; push_cast; ring
  obtain ⟨s, hs1, hs2⟩ := parseSemitonesF_text hp hX hn
  have herr := microF_err hp (a * 10 ^ 6 + m)
  have eX : ((a * 10 ^ 6 + m : Int) : ℚ) / 10 ^ 6 = (a : ℚ) + C / 100 := by rw [← hn]; field_simp
  rw [eX] at herr
  have hint : m = 0 → microF prec (a * 10 ^ 6 + m) = a := by
    rintro rfl
    have := microF_int hp (k := a) (le_trans ha (by norm_num))
    rw [add_zero]
    exact this
  generalize microF prec (a * 10 ^ 6 + m) = y at *
  have hδ : (3 * U) * |(a : ℚ) + C / 100| ≤ (3 * U) * 100001 := mul_le_mul_of_nonneg_left hX (by unfold U; norm_num)
  have herr' := le_trans herr hδ
  obtain ⟨c, hc1, hc2, hc3⟩ := split_err hp ha hC hm hs hint herr' (by unfold U; norm_num)
  refine ⟨s, y, c, hs1, hs2, ?_, hc1, ?_, fun h => hc2 (hm0.mpr h)⟩
  · intro h0
    rw [h0, zero_sub, abs_neg] at herr
    have hX0 : (a : ℚ) + C / 100 = 0 := by
      by_contra hne
      have h1 : 0 < |(a : ℚ) + C / 100| := abs_pos.mpr hne
      have : (3 * U) * |(a : ℚ) + C / 100| < 1 * |(a : ℚ) + C / 100| := mul_lt_mul_of_pos_right (by unfold U; norm_num) h1
      linarith
    have h2 := same_way hc.2.1
    rw [hX0, abs_zero] at h2
    have h3 := abs_nonneg (a : ℚ)
    have h4 := abs_nonneg C
    have h5 : |(a : ℚ)| = 0 := by linarith
    have h6 : |C| = 0 := by linarith
    exact ⟨by exact_mod_cast abs_eq_zero.mp h5, abs_eq_zero.mp h6⟩
  · by_cases h : m = 0
    · rw [hc2 h, hm0.mp h]; norm_num
    · rw [hc3 h]
      have g1 : |fl prec (y - a) - (y - a)| ≤ U * |y - a| := fl_err hp _
      have g2 : |fl prec (y - a) * 100 - (y - a) * 100| ≤ U * |(y - a) * 100| := by
        rw [← sub_mul, abs_mul, abs_mul (y - a), ← mul_assoc]
        exact mul_le_mul_of_nonneg_right g1 (abs_nonneg _)
      have g3 := err_mono (β := 6 * U) (err_fl (le_refl 53) (err_fl hp g2)) (by unfold U; norm_num)
      have hCb : |C| ≤ 100 := hc.1.le
      have e : (y - a) * 100 - C = (y - ((a : ℚ) + C / 100)) * 100 := by ring
      have g4 : |(y - a) * 100 - C| ≤ (3 * U) * 100001 * 100 := by
        rw [e, abs_mul, abs_of_pos (by norm_num : (0 : ℚ) < 100)]
        exact mul_le_mul_of_nonneg_right herr' (by norm_num)
      have g5 : |(y - a) * 100| ≤ 101 := by
        have : (y - a) * 100 = C + ((y - a) * 100 - C) := by ring
        rw [this]
        refine le_trans (abs_add_le _ _) ?_
        have : (3 * U) * 100001 * 100 ≤ 1 := by unfold U; norm_num
        linarith
      have g6 : (6 * U) * |(y - a) * 100| ≤ (6 * U) * 101 := mul_le_mul_of_nonneg_left g5 (by unfold U; norm_num)
      generalize fl 53 (fl prec (fl prec (y - a) * 100)) = c' at *
      have e7 : c' - C = (c' - (y - a) * 100) + ((y - a) * 100 - C) := by ring
      rw [e7]
      refine le_trans (abs_add_le _ _) ?_
      have : (6 * U) * 101 + (3 * U) * 100001 * 100 ≤ 1 / (2 * 10 ^ 8) := by unfold U; norm_num
      linarith

/-! ### Whole cents with 64 binary digits -/

/-- A number that is close enough to a number of the type is rounded to it. -/
theorem fl_close {p : Nat} {T : ℚ} {C : Int} (hT : T ≠ 0) (hp : Int.log 2 |T| + 1 ≤ (p : Int)) (h : |T - C| ≤ |T| / 2 ^ (p + 1)) : fl p T = C := by
  have hu := ulp_pos p T
  have hlt : |T| / 2 ^ (p + 1) < ulp p T / 2 := by
    have h1 := lt_log T
    have e : ulp p T = (2 : ℚ) ^ (Int.log 2 |T| + 1) / 2 ^ p := by
      unfold ulp
      rw [show Int.log 2 |T| - (p : Int) + 1 = (Int.log 2 |T| + 1) - (p : Int) by ring, zpow_sub₀ (by norm_num), zpow_natCast]
    rw [e, pow_succ, div_div, div_lt_div_iff_of_pos_right (by positivity)]
    exact h1
  -- the number is a multiple of the unit
  obtain ⟨k, hk⟩ : ∃ k : Nat, (p : Int) - (Int.log 2 |T| + 1) = k := ⟨_, (Int.toNat_of_nonneg (by omega)).symm⟩
  have hmul : (C : ℚ) / ulp p T = ((C * 2 ^ k : Int) : ℚ) := by
    have e : ulp p T = (2 : ℚ) ^ (-(k : Int)) := by unfold ulp; congr 1; omega
    rw [e, zpow_neg, zpow_natCast, div_inv_eq_mul]
    push_cast
    rfl
  unfold fl
  rw [if_neg hT]
  have hr : rne (T / ulp p T) = C * 2 ^ k := by
    have h2 := rne_near (T / ulp p T)
    have h3 : |T / ulp p T - ((C * 2 ^ k : Int) : ℚ)| < 1 / 2 := by
      rw [← hmul, ← sub_div, abs_div, abs_of_pos hu, div_lt_iff₀ hu]
      linarith
    have h4 : |((rne (T / ulp p T) - C * 2 ^ k : Int) : ℚ)| < 1 := by
      have e : ((rne (T / ulp p T) - C * 2 ^ k : Int) : ℚ) = ((rne (T / ulp p T) : ℚ) - T / ulp p T) + (T / ulp p T - ((C * 2 ^ k : Int) : ℚ)) := by push_cast; ring
      rw [e]
      exact lt_of_le_of_lt (abs_add_le _ _) (by linarith)
    have h5 : |rne (T / ulp p T) - C * 2 ^ k| < 1 := by
      have : ((|rne (T / ulp p T) - C * 2 ^ k| : Int) : ℚ) < (1 : Int) := by push_cast at h4 ⊢; exact h4
      exact_mod_cast this
    have := Int.abs_lt_one_iff.mp h5
    omega
  rw [hr, ← hmul, div_mul_cancel₀ _ hu.ne']

/-- The unit of the error of one operation with 64 binary digits. -/
def V : ℚ := 1 / 2 ^ 64

theorem fl_err64 {p : Nat} (hp : 64 ≤ p) (x : ℚ) : |fl p x - x| ≤ V * |x| := by
  refine le_trans (fl_near p x) ?_
  unfold V
  rw [div_mul_eq_mul_div, one_mul]
  exact div_le_div_of_nonneg_left (abs_nonneg _) (by positivity) (pow_le_pow_right₀ (by norm_num) hp)

theorem microF_err64 {p : Nat} (hp : 64 ≤ p) {a m : Int} (ha : |a| ≤ 100000) (hm : |m| < 10 ^ 6) (hs : 0 ≤ a * m) :
    |microF p (a * 10 ^ 6 + m) - ((a : ℚ) + (m : ℚ) / 10 ^ 6)| ≤ V * (|(a : ℚ)| + 201 / 100 * |(m : ℚ) / 10 ^ 6|) := by
  have hpos : 0 < p := by omega
  have hp53 : 53 ≤ p := by omega
  have habs : (a * 10 ^ 6 + m).natAbs = a.natAbs * 10 ^ 6 + m.natAbs := by
    rcases mul_nonneg_iff.mp hs with h | h <;> omega
  have hmn : m.natAbs < 10 ^ 6 := by rw [abs_lt] at hm; omega
  have han : a.natAbs ≤ 100000 := by rw [abs_le] at ha; omega
  have e1 : (a * 10 ^ 6 + m).natAbs / 10 ^ 6 = a.natAbs := by omega
  have e2 : (a * 10 ^ 6 + m).natAbs % 10 ^ 6 = m.natAbs := by omega
  have big : (2 : Nat) ^ 53 ≤ 2 ^ p := Nat.pow_le_pow_right (by norm_num) hp53
  have f1 : fl p ((m.natAbs : Nat) : ℚ) = m.natAbs := fl_nat hpos (by omega)
  have f2 : fl p ((a.natAbs : Nat) : ℚ) = a.natAbs := fl_nat hpos (by omega)
  have q1 : ((a.natAbs : Nat) : ℚ) = |(a : ℚ)| := by rw [Nat.cast_natAbs]; push_cast; rfl
  have q2 : ((m.natAbs : Nat) : ℚ) / 10 ^ 6 = |(m : ℚ) / 10 ^ 6| := by
    rw [abs_div, abs_of_pos (by norm_num : (0 : ℚ) < 10 ^ 6), Nat.cast_natAbs]; push_cast; rfl
  have key : |fl p (|(a : ℚ)| + fl p |(m : ℚ) / 10 ^ 6|) - (|(a : ℚ)| + |(m : ℚ) / 10 ^ 6|)| ≤ V * (|(a : ℚ)| + 201 / 100 * |(m : ℚ) / 10 ^ 6|) := by
    have g1 := fl_err64 hp |(m : ℚ) / 10 ^ 6|
    have hx := abs_nonneg ((m : ℚ) / 10 ^ 6)
    have hy := abs_nonneg (a : ℚ)
    rw [abs_abs] at g1
    generalize |(m : ℚ) / 10 ^ 6| = x at *
    generalize |(a : ℚ)| = b at *
    generalize fl p x = z at *
    have g2 := fl_err64 hp (b + z)
    generalize fl p (b + z) = r at *
    have hV : 0 < V := by unfold V; norm_num
    have hV1 : V ≤ 1 / 100 := by unfold V; norm_num
    have g3 := abs_le.mp g1
    have hVx : V * x ≤ 1 / 100 * x := mul_le_mul_of_nonneg_right hV1 hx
    have hz0 : 0 ≤ b + z := by linarith [g3.1]
    rw [abs_of_nonneg hz0] at g2
    have hz1 : V * (b + z) ≤ V * (b + 101 / 100 * x) := mul_le_mul_of_nonneg_left (by linarith [g3.2]) hV.le
    have g4 := abs_le.mp g2
    rw [abs_le]
    have e : V * (b + 201 / 100 * x) = V * (b + 101 / 100 * x) + V * x := by ring
    rw [e]
    constructor <;> linarith [g3.1, g3.2, g4.1, g4.2]
  unfold microF PreciseDecimal.expressF
  simp only
  rw [e1, e2, f1, f2, PreciseDecimal.fl_ten6 hp53, q1, q2]
  by_cases hd : a * 10 ^ 6 + m < 0
  · have ha0 : a ≤ 0 ∧ m ≤ 0 := by rcases mul_nonneg_iff.mp hs with h | h <;> omega
    have r1 : (a : ℚ) ≤ 0 := by exact_mod_cast ha0.1
    have r2 : (m : ℚ) / 10 ^ 6 ≤ 0 := div_nonpos_of_nonpos_of_nonneg (by exact_mod_cast ha0.2) (by norm_num)
    rw [decide_eq_true hd, if_pos rfl, mul_neg_one, fl_exact hpos (fl_rep p hpos _).neg]
    have e : ∀ r : ℚ, |(-r) - ((a : ℚ) + (m : ℚ) / 10 ^ 6)| = |r - (|(a : ℚ)| + |(m : ℚ) / 10 ^ 6|)| := by
      intro r
      rw [abs_of_nonpos r1, abs_of_nonpos r2, ← abs_neg]; congr 1; ring
    rw [e]
    exact key
  · have ha0 : 0 ≤ a ∧ 0 ≤ m := by rcases mul_nonneg_iff.mp hs with h | h <;> omega
    have r1 : 0 ≤ (a : ℚ) := by exact_mod_cast ha0.1
    have r2 : 0 ≤ (m : ℚ) / 10 ^ 6 := div_nonneg (by exact_mod_cast ha0.2) (by norm_num)
    rw [decide_eq_false hd, if_neg (by simp)]
    rw [abs_of_nonneg r1, abs_of_nonneg r2] at key ⊢
    exact key

/-- Whole cents come back exactly. -/
theorem read_whole_cents {prec : Nat} (hp : 64 ≤ prec) {a C : Int} (ha : |a| ≤ 10) (hC : |C| < 100) (hs : 0 ≤ a * C) :
    ∃ s x, semitonesText ((a : ℚ) + (C : ℚ) / 100) = some s ∧ parseSemitonesF prec s = some x ∧ (x = 0 → a = 0 ∧ C = 0) ∧ convertToSemitonesAndCentsF prec x = some (a, (C : ℚ)) := by
  have hp53 : 53 ≤ prec := by omega
  have ha' : |a| ≤ 100000 := by omega
  have hfit : CentsFit a (C : ℚ) := ⟨by exact_mod_cast hC, by exact_mod_cast hs, C * 10 ^ 4, by push_cast; ring⟩
  obtain ⟨s, x, c, h1, h2, h3, h4, -, h6⟩ := read_cents hp53 ha' hfit
  refine ⟨s, x, h1, h2, by simpa using h3, ?_⟩
  rw [h4]
  congr 2
  by_cases h0 : C = 0
  · rw [h6 (by rw [h0]; norm_num), h0]; norm_num
  -- the number that is read
  have hX := (alter_bound ha' hfit).1
  have hm : |C * 10 ^ 4| < 10 ^ 6 := by rw [abs_mul]; norm_num; omega
  have hsm : 0 ≤ a * (C * 10 ^ 4) := by rw [← mul_assoc]; exact mul_nonneg hs (by norm_num)
  have hCm : (C : ℚ) / 100 = ((C * 10 ^ 4 : Int) : ℚ) / 10 ^ 6 := by push_cast; ring
  obtain ⟨s', q1, q2⟩ := parseSemitonesF_text hp53 hX (n := a * 10 ^ 6 + C * 10 ^ 4) (by push_cast; ring)
  rw [h1, Option.some.injEq] at q1
  subst q1
  rw [h2, Option.some.injEq] at q2
  have herr := microF_err64 hp ha' hm hsm
  rw [← q2, ← hCm] at herr
  have hCq : (1 : ℚ) ≤ |(C : ℚ)| := by exact_mod_cast Int.one_le_abs h0
  have hCq' : |(C : ℚ)| ≤ 99 := by exact_mod_cast (by omega : |C| ≤ 99)
  have haq : |(a : ℚ)| ≤ 10 := by exact_mod_cast ha
  rw [abs_div, abs_of_pos (by norm_num : (0 : ℚ) < 100)] at herr
  have hV : 0 < V := by unfold V; norm_num
  have herr2 : |x - ((a : ℚ) + (C : ℚ) / 100)| ≤ V * (10 + 201 / 100 * (|(C : ℚ)| / 100)) := le_trans herr (mul_le_mul_of_nonneg_left (by linarith) hV.le)
  have hb : V * (10 + 201 / 100 * (|(C : ℚ)| / 100)) ≤ V * 13 := mul_le_mul_of_nonneg_left (by linarith) hV.le
  obtain ⟨c', k1, k2, k3⟩ := split_err hp53 ha' hCm hm hsm (fun h => absurd h (by omega)) (le_trans herr2 hb) (by unfold V; norm_num)
  rw [h4, Option.some.injEq, Prod.mk.injEq] at k1
  rw [k1.2, k3 (by omega)]
  -- the cents before the last rounding
  have w1 := fl_err64 hp (x - a)
  have w2 := fl_err64 hp (fl prec (x - a) * 100)
  have ew : x - ((a : ℚ) + (C : ℚ) / 100) = (x - a) - (C : ℚ) / 100 := by ring
  rw [ew] at herr2
  generalize x - (a : ℚ) = w at *
  generalize fl prec w = u at *
  generalize fl prec (u * 100) = T at *
  generalize hK : |(C : ℚ)| = K at *
  have hV9 : V ≤ 1 / 10 ^ 9 := by unfold V; norm_num
  have aw : |w| ≤ K / 100 + 1 / 10 ^ 7 := by
    have e : w = (C : ℚ) / 100 + (w - (C : ℚ) / 100) := by ring
    rw [e]
    refine le_trans (abs_add_le _ _) ?_
    rw [abs_div, abs_of_pos (by norm_num : (0 : ℚ) < 100), hK]
    have : V * 13 ≤ 1 / 10 ^ 7 := by unfold V; norm_num
    linarith
  have w1' : |u - w| ≤ V * (K / 100 + 1 / 10 ^ 7) := le_trans w1 (mul_le_mul_of_nonneg_left aw hV.le)
  have au : |u * 100| ≤ K + 1 / 10 ^ 4 := by
    rw [abs_mul, abs_of_pos (by norm_num : (0 : ℚ) < 100)]
    have e : u = w + (u - w) := by ring
    have : |u| ≤ |w| + |u - w| := by calc |u| = |w + (u - w)| := by rw [← e]
                                        _ ≤ _ := abs_add_le _ _
    have b1 : V * (K / 100 + 1 / 10 ^ 7) ≤ 1 / 10 ^ 9 * 1 := mul_le_mul hV9 (by linarith) (by linarith) (by norm_num)
    linarith
  have w2' : |T - u * 100| ≤ V * (K + 1 / 10 ^ 4) := le_trans w2 (mul_le_mul_of_nonneg_left au hV.le)
  have hTC : |T - C| ≤ V * (1001 + 5 * K) := by
    have e : T - C = (T - u * 100) + ((u - w) * 100 + (w - (C : ℚ) / 100) * 100) := by ring
    rw [e]
    refine le_trans (abs_add_le _ _) ?_
    have b := abs_add_le ((u - w) * 100) ((w - (C : ℚ) / 100) * 100)
    rw [abs_mul, abs_mul (w - (C : ℚ) / 100), abs_of_pos (by norm_num : (0 : ℚ) < 100)] at b
    have b2 : V * (1001 + 5 * K) = V * (K + 1 / 10 ^ 4) + V * (K / 100 + 1 / 10 ^ 7) * 100 + V * (10 + 201 / 100 * (K / 100)) * 100 + V * (99 / 100 * K + 1 - 1 / 10 ^ 4 - 1 / 10 ^ 5) := by ring
    have b3 : 0 ≤ V * (99 / 100 * K + 1 - 1 / 10 ^ 4 - 1 / 10 ^ 5) := mul_nonneg hV.le (by linarith)
    linarith
  have hsmall : |T - C| ≤ 1 / 10 ^ 6 := by
    have b1 : V * (1001 + 5 * K) ≤ V * 2000 := mul_le_mul_of_nonneg_left (by linarith) hV.le
    have b2 : V * 2000 ≤ 1 / 10 ^ 6 := by unfold V; norm_num
    linarith
  have hTK : K - 1 / 10 ^ 6 ≤ |T| ∧ |T| ≤ K + 1 / 10 ^ 6 := by
    have := abs_le.mp (le_trans (abs_abs_sub_abs_le T C) hsmall)
    rw [hK] at this
    constructor <;> linarith [this.1, this.2]
  have hT0 : T ≠ 0 := by
    intro h
    rw [h, abs_zero] at hTK
    linarith [hTK.1]
  refine fl_close hT0 ?_ ?_
  · have l1 := log_le hT0
    have l2 : (2 : ℚ) ^ (Int.log 2 |T|) < 2 ^ (7 : Int) := lt_of_le_of_lt l1 (by norm_num; linarith [hTK.2])
    have := (zpow_lt_zpow_iff_right₀ (by norm_num : (1 : ℚ) < 2)).mp l2
    show _ ≤ ((53 : Nat) : Int)
    omega
  · refine le_trans hTC ?_
    have e : |T| / 2 ^ (53 + 1) = V * (1024 * |T|) := by unfold V; ring
    rw [e]
    exact mul_le_mul_of_nonneg_left (by linarith [hTK.1]) hV.le

end Mx
