import Verif.Proofs.Decimals
import Verif.Spec.DecimalRanges

/-!
# Properties C18, C19, C51: decimals
Specification: `Verif/Spec/Decimal.lean` (numerals), `Verif/Spec/DecimalRanges.lean` (documented ranges).
-/
namespace Mx.Props
open Spec PreciseDecimal

/-! ## C18 -/

theorem minInc_ge {m v : ℚ} (h : m ≤ v) : minInclusive m v = v := if_neg (not_lt.mpr h)
theorem minInc_lt {m v : ℚ} (h : v < m) : minInclusive m v = m := if_pos h
theorem minExc_gt {m v : ℚ} (h : m < v) : minExclusive m v = v := if_neg (not_le.mpr h)
theorem minExc_le {m v : ℚ} (h : v ≤ m) : minExclusive m v = m + nonZeroAmount := if_pos h
theorem maxInc_le {m v : ℚ} (h : v ≤ m) : maxInclusive m v = v := if_neg (not_lt.mpr h)
theorem maxInc_gt {m v : ℚ} (h : m < v) : maxInclusive m v = m := if_pos h

theorem clamp_two {lo hi v : ℚ} (hl : lo ≤ hi) :
    (lo ≤ v ∧ v ≤ hi → minInclusive lo (maxInclusive hi v) = v) ∧
    (¬ (lo ≤ v ∧ v ≤ hi) → minInclusive lo (maxInclusive hi v) = if v < lo then lo else hi) := by
  refine ⟨fun h => by rw [maxInc_le h.2, minInc_ge h.1], fun h => ?_⟩
  by_cases h1 : v < lo
  · rw [if_pos h1, maxInc_le (by linarith), minInc_lt h1]
  · have h2 : hi < v := by by_contra hc; exact h ⟨not_lt.mp h1, not_lt.mp hc⟩
    rw [if_neg h1, maxInc_gt h2, minInc_ge hl]

theorem clamp_exc (v : ℚ) : (0 < v → minExclusive 0 v = v) ∧ (¬ 0 < v → minExclusive 0 v = 0.000001) :=
  ⟨minExc_gt, fun h => by rw [minExc_le (not_lt.mp h)]; norm_num [nonZeroAmount]⟩

/-- The clamps of a class leave numbers in its range alone and move others to the bound. -/
theorem clamp_eq (k : DecimalKind) (v : ℚ) :
    (InRange k v → k.minClamp (k.maxClamp v) = v) ∧ (¬ InRange k v → k.minClamp (k.maxClamp v) = nearestBound k v) := by
  cases k
  case NonNegativeDecimal => exact ⟨fun h => minInc_ge h, fun h => minInc_lt (not_le.mp h)⟩
  case TrillBeats => exact ⟨fun h => minInc_ge h, fun h => minInc_lt (not_le.mp h)⟩
  case Percent => exact clamp_two (by norm_num)
  case RotationDegrees => exact clamp_two (by norm_num)
  case PositiveDecimal => exact clamp_exc v
  case PositiveDivisions => exact clamp_exc v
  case PositiveDivisionsValue => exact clamp_exc v
  all_goals exact ⟨fun _ => rfl, fun h => absurd trivial h⟩

theorem nearestBound_inRange (k : DecimalKind) (v : ℚ) : InRange k (nearestBound k v) := by
  cases k <;> simp only [InRange, nearestBound] <;> try norm_num
  all_goals split <;> norm_num

theorem clamped_inRange (k : DecimalKind) (v : ℚ) : InRange k (k.minClamp (k.maxClamp v)) := by
  by_cases h : InRange k v
  · rw [(clamp_eq k v).1 h]; exact h
  · rw [(clamp_eq k v).2 h]; exact nearestBound_inRange k v

/-- A number of the library's format that is in range, except that a class which excludes 0 may hold it. -/
def Sound (k : DecimalKind) (d : DecimalRange) : Prop :=
  d.kind = k ∧ d.value.maxIntegerDigits = 19 ∧ d.value.maxDecimalDigits = 6 ∧ d.value.decimal < 10 ^ 6 ∧
    (InRange k d.getValue ∨ (ExcludesZero k ∧ d.getValue = 0))

theorem sound_setValue {p p' : PreciseDecimal} {k : DecimalKind} {q : ℚ} (h1 : p.maxIntegerDigits = 19) (h2 : p.maxDecimalDigits = 6)
    (hq : InRange k q) (h : p.setValue q = some p') : Sound k ⟨k, p'⟩ := by
  obtain ⟨g1, g2, g3, g4, g5, g6, -⟩ := setValue_bounds p p' q h1 h
  refine ⟨rfl, g1, by rw [g2, h2], by rw [← h2]; exact g3, ?_⟩
  have hv : DecimalRange.getValue ⟨k, p'⟩ = if decide (q < 0) then -p'.magnitude else p'.magnitude := by
    unfold DecimalRange.getValue; rw [getValue_eq, g4]
  have hmn := p'.magnitude_nonneg
  rw [hv]
  by_cases hneg : q < 0
  · simp only [hneg, decide_true, if_true]
    cases k <;> simp only [InRange] at hq ⊢ <;> try exact Or.inl trivial
    all_goals try (exfalso; linarith)
    · left
      have := g6 180 (by rw [abs_of_neg hneg]; push_cast; linarith [hq.1]) (by norm_num)
      push_cast at this
      constructor <;> linarith
  · simp only [hneg, decide_false, Bool.false_eq_true, if_false]
    have hq0 := not_lt.mp hneg
    cases k <;> simp only [InRange] at hq ⊢ <;> try exact Or.inl trivial
    · exact Or.inl hmn
    · left
      have := g6 100 (by rw [abs_of_nonneg hq0]; push_cast; linarith [hq.2]) (by norm_num)
      push_cast at this
      exact ⟨hmn, this⟩
    · rcases hmn.lt_or_eq with h | h
      · exact Or.inl h
      · exact Or.inr ⟨Or.inl rfl, h.symm⟩
    · rcases hmn.lt_or_eq with h | h
      · exact Or.inl h
      · exact Or.inr ⟨Or.inr (Or.inl rfl), h.symm⟩
    · rcases hmn.lt_or_eq with h | h
      · exact Or.inl h
      · exact Or.inr ⟨Or.inr (Or.inr rfl), h.symm⟩
    · left
      have := g6 180 (by rw [abs_of_nonneg hq0]; push_cast; linarith [hq.2]) (by norm_num)
      push_cast at this
      constructor <;> linarith
    · left
      have := g5 2 (by norm_num) (by rw [abs_of_nonneg hq0]; push_cast; linarith)
      push_cast at this
      exact this

theorem sound_make {k : DecimalKind} {v : ℚ} {d : DecimalRange} (h : DecimalRange.make k v = some d) : Sound k d := by
  unfold DecimalRange.make PreciseDecimal.make at h
  obtain ⟨p, h1, rfl⟩ := Option.map_eq_some_iff.mp h
  exact sound_setValue (by rfl) (by rfl) (clamped_inRange k v) h1

theorem sound_set {k : DecimalKind} {v : ℚ} {d d' : DecimalRange} (hs : Sound k d) (h : d.setValue v = some d') : Sound k d' := by
  unfold DecimalRange.setValue at h
  obtain ⟨p, h1, rfl⟩ := Option.map_eq_some_iff.mp h
  obtain ⟨a, b, c, _⟩ := hs
  have := sound_setValue (k := k) b c (by rw [a] at *; exact clamped_inRange k v) h1
  obtain ⟨_, x⟩ := this
  exact ⟨a, x⟩

theorem sound_run {k : DecimalKind} : ∀ (ops : List DecimalRange.Op) {d d' : DecimalRange}, Sound k d → d.run ops = some d' → Sound k d' := by
  intro ops
  induction ops with
  | nil => intro d d' hs h; injection h with h; subst h; exact hs
  | cons o os ih =>
    intro d d' hs h
    unfold DecimalRange.run at h
    cases h1 : d.step o with
    | none => rw [h1] at h; cases h
    | some d1 =>
      rw [h1] at h
      refine ih ?_ h
      cases o with
      | setValue v => exact sound_set hs h1
      | parse s =>
        simp only [DecimalRange.step] at h1
        obtain ⟨⟨b, d2⟩, h2, rfl⟩ := Option.map_eq_some_iff.mp h1
        unfold DecimalRange.parse at h2
        simp only at h2
        split at h2
        · injection h2 with h2; injection h2 with _ h2; subst h2; exact hs
        · split at h2
          · obtain ⟨d3, h3, h4⟩ := Option.map_eq_some_iff.mp h2
            injection h4 with _ h4; subst h4; exact sound_set hs h3
          · injection h2 with h2; injection h2 with _ h2; subst h2; exact hs

/-- **C18** Every class with inclusive bounds: whatever is assigned or parsed, the value stays in the documented range. -/
theorem C18_range_invariant_partial (k : DecimalKind) (hk : ¬ ExcludesZero k) (v : ℚ) (ops : List DecimalRange.Op) (d d' : DecimalRange)
    (h : DecimalRange.make k v = some d) (hr : d.run ops = some d') : InRange k d'.getValue :=
  ((sound_run ops (sound_make h) hr).2.2.2.2).resolve_right (fun h => hk h.1)

/-- **C18** The classes that exclude 0: the value is never negative, whatever is assigned or parsed.  (It can be 0, see below.) -/
theorem C18_never_negative_partial (k : DecimalKind) (hk : ExcludesZero k) (v : ℚ) (ops : List DecimalRange.Op) (d d' : DecimalRange)
    (h : DecimalRange.make k v = some d) (hr : d.run ops = some d') : 0 ≤ d'.getValue := by
  rcases (sound_run ops (sound_make h) hr).2.2.2.2 with h | h
  · rcases hk with rfl | rfl | rfl <;> exact le_of_lt h
  · exact h.2.ge

/-- **C18** Assigning to any object of any class, whatever it has held before: a number of the range with at most six decimals is kept. -/
theorem C18_kept (k : DecimalKind) (v0 v : ℚ) (ops : List DecimalRange.Op) (d d1 : DecimalRange) (h : DecimalRange.make k v0 = some d)
    (hr : d.run ops = some d1) (hv : InRange k v) (hlt : |v| < 10 ^ 19) (c : Int) (hc : v * 10 ^ 6 = c) :
    ∃ d', d1.setValue v = some d' ∧ d'.getValue = v := by
  obtain ⟨h1, h2, h3, _⟩ := sound_run ops (sound_make h) hr
  unfold DecimalRange.setValue
  rw [h1, (clamp_eq k v).1 hv]
  obtain ⟨p', g1, _, _, _, _, _, _, g8⟩ := setValue_near d1.value v (by omega) (by rw [h2]; exact hlt)
  rw [g1]
  exact ⟨_, rfl, g8 c (by rw [h3]; exact hc)⟩

/-- **C18** A number outside the range becomes the bound (exclusive bounds: 0.000001 away). -/
theorem C18_outside_becomes_bound (k : DecimalKind) (v0 v : ℚ) (ops : List DecimalRange.Op) (d d1 : DecimalRange) (h : DecimalRange.make k v0 = some d)
    (hr : d.run ops = some d1) (hv : ¬ InRange k v) : ∃ d', d1.setValue v = some d' ∧ d'.getValue = nearestBound k v := by
  have hb : ∃ c : Int, nearestBound k v * 10 ^ 6 = c ∧ |nearestBound k v| < 10 ^ 19 := by
    cases k <;> simp only [nearestBound]
    case Percent => split <;> [exact ⟨0, by norm_num⟩; exact ⟨100000000, by norm_num⟩]
    case RotationDegrees => split <;> [exact ⟨-180000000, by norm_num⟩; exact ⟨180000000, by norm_num⟩]
    case PositiveDecimal => exact ⟨1, by norm_num, by norm_num [abs_of_pos]⟩
    case PositiveDivisions => exact ⟨1, by norm_num, by norm_num [abs_of_pos]⟩
    case PositiveDivisionsValue => exact ⟨1, by norm_num, by norm_num [abs_of_pos]⟩
    case TrillBeats => exact ⟨2000000, by norm_num⟩
    all_goals exact ⟨0, by norm_num⟩
  obtain ⟨c, hc, hlt⟩ := hb
  obtain ⟨h1, h2, h3, _⟩ := sound_run ops (sound_make h) hr
  unfold DecimalRange.setValue
  rw [h1, (clamp_eq k v).2 hv]
  obtain ⟨p', g1, _, _, _, _, _, _, g8⟩ := setValue_near d1.value (nearestBound k v) (by omega) (by rw [h2]; exact hlt)
  rw [g1]
  exact ⟨_, rfl, g8 c (by rw [h3]; exact hc)⟩

/-- **C18** The classes that exclude 0: after assigning a number that is not a tiny positive one (0 < v ≤ 0.0000005000001) the value is positive. -/
theorem C18_positive_partial (k : DecimalKind) (hk : ExcludesZero k) (v0 v : ℚ) (ops : List DecimalRange.Op) (d d1 d' : DecimalRange)
    (h : DecimalRange.make k v0 = some d) (hr : d.run ops = some d1) (hv : v ≤ 0 ∨ 0.0000005000001 < v) (hs : d1.setValue v = some d') :
    0 < d'.getValue := by
  have hin : InRange k v ↔ 0 < v := by rcases hk with rfl | rfl | rfl <;> rfl
  by_cases h0 : 0 < v
  · have hv' : 0.0000005000001 < v := hv.resolve_left (not_le.mpr h0)
    obtain ⟨h1, h2, h3, _⟩ := sound_run ops (sound_make h) hr
    unfold DecimalRange.setValue at hs
    rw [h1, (clamp_eq k v).1 (hin.mpr h0)] at hs
    obtain ⟨p, g1, rfl⟩ := Option.map_eq_some_iff.mp hs
    by_cases hlt : v < 1
    · obtain ⟨p', f1, _, _, _, _, _, f7, _⟩ := setValue_near d1.value v (by omega)
        (by rw [h2, abs_of_pos h0]; exact lt_of_lt_of_le hlt (by norm_num))
      rw [g1] at f1
      injection f1 with f1
      subst f1
      rw [h3] at f7
      have := (abs_le.mp f7).1
      show 0 < p.getValue
      norm_num at this hv'
      linarith
    · obtain ⟨_, _, _, f4, f5, _⟩ := setValue_bounds _ _ _ h2 g1
      have := f5 1 (by norm_num) (by rw [abs_of_pos h0]; push_cast; exact not_lt.mp hlt)
      show 0 < p.getValue
      rw [getValue_eq, f4]
      simp only [not_lt.mpr h0.le, decide_false, Bool.false_eq_true, if_false]
      push_cast at this
      linarith
  · obtain ⟨d2, g1, g2⟩ := C18_outside_becomes_bound k v0 v ops d d1 h hr (fun c => h0 (hin.mp c))
    rw [hs] at g1
    injection g1 with g1
    rw [g1, g2]
    rcases hk with rfl | rfl | rfl <;> norm_num [nearestBound]

/-- **C18** Assignment is undefined only for numbers of 2^64 or more (after clamping). -/
theorem C18_defined (d : DecimalRange) (v : ℚ) (h : |d.kind.minClamp (d.kind.maxClamp v)| < 2 ^ 64) : (d.setValue v).isSome := by
  unfold DecimalRange.setValue
  rw [Option.isSome_map]
  exact setValue_defined _ _ h

/-- **C18 is false for the classes that exclude 0**: a small positive number is accepted and then rounded to 0. -/
theorem C18_positive_decimal_can_be_zero :
    ∃ d, DecimalRange.make .PositiveDecimal (3 / 10000000) = some d ∧ d.getValue = 0 ∧ ¬ InRange .PositiveDecimal d.getValue := by
  refine ⟨⟨.PositiveDecimal, ⟨false, 0, 0, 19, 6⟩⟩, by decide +kernel, ?_⟩
  have : DecimalRange.getValue ⟨.PositiveDecimal, ⟨false, 0, 0, 19, 6⟩⟩ = 0 := by decide +kernel
  exact ⟨this, by rw [this]; simp [InRange]⟩

/-- **C18 is false for numbers too large for the stored integer**: assigning 2^64 is undefined. -/
theorem C18_huge_number_undefined : DecimalRange.make .TenthsValue (2 ^ 64) = none := by decide +kernel

/-- a history that leaves and re-enters the range -/
example : ((DecimalRange.make .Percent (-5)).bind (fun d => d.run [.setValue 250, .parse " 12.5 ".toList, .parse "x".toList])).map DecimalRange.toStr =
    some "12.5".toList := by decide +kernel

example : ¬ ExcludesZero .Percent ∧ InRange .Percent 12.5 ∧ ¬ InRange .Percent 250 ∧ nearestBound .Percent 250 = 100 := by
  refine ⟨by simp [ExcludesZero], ?_, ?_, ?_⟩ <;> norm_num [InRange, nearestBound]

/-! ## C19 -/

/-- **C19** The text of every decimal number in range is its canonical numeral (no needless zeros, no trailing point, no "-0"), and differs from the
number by at most half a unit (and one ten-millionth of a unit) of the last digit; numbers with few enough decimals are written exactly.
For every choice of the numbers of digits, in particular 19 and 6. -/
theorem C19_text_is_nearest (maxInteger maxDecimal : Int) (q : ℚ) (hq : |q| < 10 ^ clampDigits maxInteger) :
    ∃ p v, PreciseDecimal.make maxInteger maxDecimal q = some p ∧ CanonicalDecimal p.toStr v ∧ p.getValue = v ∧
      |v - q| ≤ 0.5000001 / 10 ^ clampDigits maxDecimal ∧ (∀ c : Int, q * 10 ^ clampDigits maxDecimal = c → v = q) := by
  have h19 : clampDigits maxInteger ≤ 19 := by
    unfold clampDigits; split
    · omega
    · split <;> omega
  obtain ⟨p, h1, _, h3, _, h5, _, h7, h8⟩ := setValue_near
    { isNegative := decide (q < 0), integer := 0, decimal := 0, maxIntegerDigits := clampDigits maxInteger, maxDecimalDigits := clampDigits maxDecimal }
    q h19 hq
  refine ⟨p, p.getValue, h1, toStr_canonical p (by rw [h3]; exact h5), rfl, ?_, h8⟩
  norm_num at h7 ⊢
  exact h7

theorem magnitude_pos {p : PreciseDecimal} (hz : ¬ (p.integer = 0 ∧ p.decimal = 0)) : 0 < p.magnitude := by
  unfold magnitude
  rcases Nat.eq_zero_or_pos p.integer with h0 | h0
  · have h1 : 0 < p.decimal := by omega
    have : (0 : ℚ) < (p.decimal : ℚ) / 10 ^ p.maxDecimalDigits := div_pos (by exact_mod_cast h1) (by positivity)
    rw [h0]; push_cast; linarith
  · have h1 : (0 : ℚ) < p.integer := by exact_mod_cast h0
    have : (0 : ℚ) ≤ (p.decimal : ℚ) / 10 ^ p.maxDecimalDigits := by positivity
    linarith

/-- **C19** What is written is read back: any decimal that was made from a number of at most 10^19 - 1 and lies in the range of its class is parsed back from
its text into the same value and the same text, whatever the receiving object `d0` of the class held before. -/
theorem C19_parse_back (k : DecimalKind) (v v0 : ℚ) (ops : List DecimalRange.Op) (d d0 d1 : DecimalRange) (h : DecimalRange.make k v = some d)
    (hv : |k.minClamp (k.maxClamp v)| ≤ 9999999999999999999) (hin : InRange k d.getValue)
    (h0 : DecimalRange.make k v0 = some d0) (hr : d0.run ops = some d1) :
    ∃ d', d1.parse d.toStr = some (true, d') ∧ d'.getValue = d.getValue ∧ d'.toStr = d.toStr := by
  obtain ⟨a1, a2, a3, a4, _⟩ := sound_make h
  obtain ⟨b1, b2, b3, _⟩ := sound_run ops (sound_make h0) hr
  have hcan := toStr_canonical d.value (by rw [a3]; exact a4)
  unfold DecimalRange.make PreciseDecimal.make at h
  obtain ⟨p, h1, rfl⟩ := Option.map_eq_some_iff.mp h
  simp only at a2 a3 a4
  obtain ⟨_, _, _, _, _, hle, _⟩ := setValue_bounds _ _ _ (by rfl) h1
  have hmag : p.magnitude ≤ (9999999999999999999 : Nat) := hle 9999999999999999999 (by push_cast; exact hv) (by norm_num)
  have hint : p.integer < 10 ^ 19 := by
    unfold magnitude at hmag
    have : (0 : ℚ) ≤ (p.decimal : ℚ) / 10 ^ p.maxDecimalDigits := by positivity
    have h3 : (p.integer : ℚ) ≤ ((9999999999999999999 : Nat) : ℚ) := le_trans (le_add_of_nonneg_right this) hmag
    have : p.integer ≤ 9999999999999999999 := by exact_mod_cast h3
    omega
  have habs : |p.getValue| = p.magnitude := by
    rw [getValue_eq]
    have := p.magnitude_nonneg
    cases p.isNegative <;> simp [abs_of_nonneg this]
  have hsmall : |p.getValue| < 2 ^ 16384 := by
    rw [habs]
    refine lt_of_le_of_lt hmag ?_
    have h1 : ((9999999999999999999 : Nat) : ℚ) < 2 ^ 64 := by norm_num
    have h2 : (2 : ℚ) ^ 64 ≤ 2 ^ 16384 := pow_le_pow_right₀ (by norm_num) (by norm_num)
    exact lt_of_lt_of_le h1 h2
  obtain ⟨r1, r2⟩ := (readDecimal_complete p.toStr p.getValue).mpr ⟨Mx.CanonicalDecimal.text hcan, hsmall⟩
  have hset := setValue_magnitude d1.value p p.getValue (by omega) (by rw [a3, b3]) (by rw [b3]; exact a4) (by rw [b2]; exact hint) habs
  unfold DecimalRange.getValue at hin
  refine ⟨⟨k, { d1.value with isNegative := decide (p.getValue < 0), integer := p.integer, decimal := p.decimal }⟩, ?_, ?_, ?_⟩
  · unfold DecimalRange.parse DecimalRange.toStr
    simp only [r1, r2, if_true]
    unfold DecimalRange.setValue
    rw [b1, (clamp_eq k _).1 hin, hset, Option.map_some, Option.map_some]
  · have hmag' : PreciseDecimal.magnitude { d1.value with isNegative := decide (p.getValue < 0), integer := p.integer, decimal := p.decimal } = p.magnitude := by
      unfold magnitude; simp only [a3, b3]
    unfold DecimalRange.getValue
    rw [getValue_eq, hmag']
    by_cases hn : p.getValue < 0
    · simp only [hn, decide_true, if_true]; rw [← habs, abs_of_neg hn]; ring
    · simp only [hn, decide_false, Bool.false_eq_true, if_false]; rw [← habs, abs_of_nonneg (not_lt.mp hn)]
  · unfold DecimalRange.toStr toStr
    simp only
    by_cases hz : p.integer = 0 ∧ p.decimal = 0
    · simp [hz]
    · have hneg : decide (p.getValue < 0) = p.isNegative := by
        have hpos : 0 < p.magnitude := magnitude_pos hz
        rw [getValue_eq]
        cases p.isNegative
        · simp; linarith
        · simp [hpos]
      simp only [hneg, a3, b3]

/-- **C19** Above the largest expressible number the text is that of the largest expressible number. -/
theorem C19_clamped_at_the_top : (PreciseDecimal.make 2 3 123456).map toStr = some "99.999".toList ∧
    (PreciseDecimal.make 2 3 (-123456)).map toStr = some "-99.999".toList := by decide +kernel

/-- **C19 is false at the very top**: a carry out of the decimals exceeds the largest expressible number; 9.99 with one digit before and one
after the point becomes 10. -/
theorem C19_carry_exceeds_maximum :
    ∃ p, PreciseDecimal.make 1 1 (999 / 100) = some p ∧ p.getValue = 10 ∧ p.getMaxExpressibleNumber = 99 / 10 :=
  ⟨⟨false, 10, 0, 1, 1⟩, by decide +kernel, by decide +kernel, by decide +kernel⟩

/-- The largest expressible number of a negative decimal is reported as the smallest one, and vice versa. -/
theorem C19_maximum_of_negative :
    ∃ p, PreciseDecimal.make 1 1 (-1) = some p ∧ p.getMaxExpressibleNumber < p.getMinExpressibleNumber :=
  ⟨⟨true, 1, 0, 1, 1⟩, by decide +kernel, by decide +kernel⟩

/-- rounding, carry, leading zeros of the fraction, sign -/
example : ([9999996 / 10000000, -5 / 1000, 12030 / 1000, 2 / 3, 0, -1 / 10000000, 1234567891234567] : List ℚ).map
      (fun q => (PreciseDecimal.make 19 6 q).map (fun p => String.ofList p.toStr)) =
    [some "1", some "-0.005", some "12.03", some "0.666667", some "0", some "0", some "1234567891234567"] := by decide +kernel

/-! ## C51 -/

/-- **C51** A decimal accepts exactly the decimal numerals (optional sign, digits with an optional point, optional exponent, surrounding white space)
within the range of `long double`, and everything else leaves it unchanged. -/
theorem C51_parse_accepts_numerals (d : DecimalRange) (s : Str) :
    (∀ v : ℚ, DecimalText s v → |v| < 2 ^ 16384 → d.parse s = (d.setValue v).map (fun d' => (true, d'))) ∧
    ((¬ ∃ v : ℚ, DecimalText s v ∧ |v| < 2 ^ 16384) → d.parse s = some (false, d)) := by
  constructor
  · intro v hv hlt
    obtain ⟨h1, h2⟩ := (readDecimal_complete s v).mpr ⟨hv, hlt⟩
    unfold DecimalRange.parse
    simp only [h1, h2, if_true]
  · intro h
    unfold DecimalRange.parse
    simp only
    cases hv : (readDecimal s).value with
    | none => rfl
    | some v =>
      simp only
      rw [if_neg]
      intro hr
      exact h ⟨v, (readDecimal_complete s v).mp ⟨hv, hr⟩⟩

/-- **C51** A text denotes at most one number. -/
theorem C51_unambiguous (s : Str) (v w : ℚ) (hv : DecimalText s v) (hw : DecimalText s w) (h1 : |v| < 2 ^ 16384) (h2 : |w| < 2 ^ 16384) : v = w := by
  have a := ((readDecimal_complete s v).mpr ⟨hv, h1⟩).1
  have b := ((readDecimal_complete s w).mpr ⟨hw, h2⟩).1
  rw [a] at b
  injection b

example : DecimalText " -1.50e2\n".toList (-150) := by
  refine ⟨[' '], ['-'], ['1'], ['5', '0'], ['.'], "e2".toList, ['\n'], rfl, by decide, by decide, by decide, by decide, by simp, Or.inl rfl, 2,
    Or.inr ⟨'e', [], ['2'], rfl, Or.inl rfl, by simp, by decide, Or.inr ⟨Or.inl rfl, by decide⟩⟩, Or.inl ⟨rfl, ?_⟩⟩
  have h1 : digitsVal ['1'] = 1 := by decide
  have h2 : digitsVal ['5', '0'] = 50 := by decide
  rw [decimalVal, h1, h2]; norm_num

end Mx.Props
