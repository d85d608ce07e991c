import Verif.Proofs.FloatDecimals
import Verif.Props.DecimalProps

/-!
# Property C81: decimal numbers in floating point arithmetic
Specification: `Verif/Spec/FloatRange.lean`, `Verif/Spec/Decimal.lean`. Model: `Verif/Model/FloatDecimals.lean`, where every operation rounds to a number of `prec` binary digits (53, 64 or 113).
-/
namespace Mx.Props
open Spec Fl

/-- **C81** Assigning: floating point arithmetic makes no difference for numbers of at most six decimals (below 2147483648 with 53 digits). -/
theorem C81_assign {prec : Nat} (hp : 53 ≤ prec) (d : DecimalRange) (hd : d.Format) (x : ℚ) (h : SixDecimals prec x) : d.setValueF prec (fl prec x) = d.setValue x :=
  DecimalRange.setValueF_ok hp d hd.1 hd.2 h

/-- **C81** Reading a text (2^16384 is the end of the range of a `long double` of 64 digits, beyond which reading fails). -/
theorem C81_parse {prec : Nat} (hp : 53 ≤ prec) (d : DecimalRange) (hd : d.Format) (s : Str) (h : ∀ x, DecimalText s x → |x| < 2 ^ 16384 → SixDecimals prec x) : d.parseF prec s = d.parse s :=
  DecimalRange.parseF_ok hp d hd s h

/-- The numbers of an operation have at most six decimals and are not too large. -/
def OpFits (prec : Nat) : DecimalRange.Op → Prop
  | .setValue v => SixDecimals prec v
  | .parse s => ∀ x, DecimalText s x → |x| < 2 ^ 16384 → SixDecimals prec x

/-- **C81** Histories: whatever is assigned and parsed, the object holds what exact arithmetic gives (so that C18, C19 and C51 are true of the program). -/
theorem C81_history {prec : Nat} (hp : 53 ≤ prec) : ∀ (ops : List DecimalRange.Op) (d : DecimalRange), d.Format → (∀ o ∈ ops, OpFits prec o) → d.runF prec ops = d.run ops
  | [], _, _, _ => rfl
  | o :: os, d, hd, h => by
    have ih := fun d' hd' => C81_history hp os d' hd' (fun o ho => h o (by simp [ho]))
    have h1 : d.stepF prec o = d.step o := by
      have ho := h o (by simp)
      cases o with
      | setValue v => exact C81_assign hp d hd v ho
      | parse s => simp only [DecimalRange.stepF, DecimalRange.step, C81_parse hp d hd s ho]
    simp only [DecimalRange.runF, DecimalRange.run, h1]
    cases h2 : d.step o with
    | none => rfl
    | some d' =>
      refine ih d' ?_
      cases o with
      | setValue v => exact DecimalRange.setValue_format hd h2
      | parse s =>
        simp only [DecimalRange.step] at h2
        obtain ⟨⟨b, d2⟩, h3, rfl⟩ := Option.map_eq_some_iff.mp h2
        unfold DecimalRange.parse at h3
        simp only at h3
        split at h3
        · injection h3 with h3; injection h3 with _ h3; subst h3; exact hd
        · split at h3
          · obtain ⟨d3, h4, h5⟩ := Option.map_eq_some_iff.mp h3
            injection h5 with _ h5; subst h5; exact DecimalRange.setValue_format hd h4
          · injection h3 with h3; injection h3 with _ h3; subst h3; exact hd

/-- The objects that the library makes have the format. -/
theorem made_format {k : DecimalKind} {v : ℚ} {d : DecimalRange} (h : DecimalRange.make k v = some d) : d.Format := ⟨(sound_make h).2.1, (sound_make h).2.2.1⟩

/-- **C81** Getting the value of an object and assigning it to the object changes nothing, although the value that is got is in general not the decimal number that is written. -/
theorem C81_get_set {prec : Nat} (hp : 53 ≤ prec) (p : PreciseDecimal) (h19 : p.maxIntegerDigits = 19) (h6 : p.maxDecimalDigits = 6) (hi : p.integer < 2 ^ (prec - 22)) (hl : p.integer < 10 ^ 18)
    (hd : p.decimal < 10 ^ 6) (hz : p.isNegative = true → ¬ (p.integer = 0 ∧ p.decimal = 0)) : p.setValueF prec (p.getValueF prec) = some p := by
  obtain ⟨h1, h2, h3⟩ := PreciseDecimal.getValueF_near hp h6 hi hd
  rw [PreciseDecimal.setValueF_count hp h19 h6 h1 ?_ h2]
  · have e : decide (p.getValueF prec < 0) = p.isNegative := by
      rw [Bool.eq_iff_iff, decide_eq_true_iff, h3]
      exact ⟨fun h => h.1, fun h => ⟨h, hz h⟩⟩
    rw [e]
    unfold PreciseDecimal.ofCount
    congr 1
    have e1 : (p.integer * 10 ^ 6 + p.decimal) / 10 ^ 6 = p.integer := by omega
    have e2 : (p.integer * 10 ^ 6 + p.decimal) % 10 ^ 6 = p.decimal := by omega
    rw [e1, e2]
  · have h4 := (abs_le.mp h2).2
    have h5 : p.integer * 10 ^ 6 + p.decimal ≤ 10 ^ 24 := by omega
    have h6 : ((p.integer * 10 ^ 6 + p.decimal : Nat) : ℚ) ≤ 10 ^ 24 := by exact_mod_cast h5
    norm_num at h4 h6 ⊢
    linarith

/-- **C81** What is written is read again: whatever object of the class reads the text. -/
theorem C81_saved_loaded {prec : Nat} (hp : 53 ≤ prec) (k : DecimalKind) (v v0 : ℚ) (ops : List DecimalRange.Op) (d d0 d1 : DecimalRange) (h : DecimalRange.make k v = some d)
    (hin : InRange k d.getValue) (hi : d.value.integer < 2 ^ (prec - 22)) (hl : d.value.integer < 10 ^ 18) (hv : |k.minClamp (k.maxClamp v)| ≤ 9999999999999999999)
    (h0 : DecimalRange.make k v0 = some d0) (hr : d0.run ops = some d1) :
    ∃ d', d1.parseF prec d.toStr = some (true, d') ∧ d'.getValue = d.getValue ∧ d'.toStr = d.toStr := by
  obtain ⟨a1, a2, a3, a4, -⟩ := sound_make h
  obtain ⟨b1, b2, b3, -⟩ := sound_run ops (sound_make h0) hr
  obtain ⟨d', g1, g2, g3⟩ := C19_parse_back k v v0 ops d d0 d1 h hv hin h0 hr
  refine ⟨d', ?_, g2, g3⟩
  rw [C81_parse hp d1 ⟨b2, b3⟩ d.toStr ?_, g1]
  intro x hx hx16
  have hcan := Mx.CanonicalDecimal.text (PreciseDecimal.toStr_canonical d.value (by rw [a3]; exact a4))
  have hmag : |d.value.getValue| * 10 ^ 6 = (d.value.integer * 10 ^ 6 + d.value.decimal : Nat) := by
    have e : |d.value.getValue| = d.value.magnitude := by
      rw [PreciseDecimal.getValue_eq]
      have := d.value.magnitude_nonneg
      cases d.value.isNegative <;> simp [abs_of_nonneg this]
    rw [e]
    unfold PreciseDecimal.magnitude
    rw [a3]
    push_cast
    field_simp
    norm_num
  have hsix : SixDecimals prec d.value.getValue := by
    have k1 : d.value.integer * 10 ^ 6 + d.value.decimal < (d.value.integer + 1) * 10 ^ 6 := by omega
    have k2 : |d.value.getValue| * 10 ^ 6 < ((d.value.integer + 1 : Nat) : ℚ) * 10 ^ 6 := by rw [hmag]; exact_mod_cast k1
    have k3 : |d.value.getValue| < ((d.value.integer + 1 : Nat) : ℚ) := lt_of_mul_lt_mul_right k2 (by norm_num)
    refine ⟨lt_of_lt_of_le k3 ?_, le_trans k3.le ?_, _, hmag⟩
    · have : d.value.integer + 1 ≤ 2 ^ (prec - 22) := hi
      exact_mod_cast this
    · have : d.value.integer + 1 ≤ 10 ^ 18 := hl
      exact_mod_cast this
  -- the text stands for one number only
  have small : |d.value.getValue| < 2 ^ 16384 := lt_of_le_of_lt hsix.limit (lt_of_lt_of_le (by norm_num : (10 : ℚ) ^ 18 < 2 ^ 64) (pow_le_pow_right₀ (by norm_num) (by norm_num)))
  have hx' : x = d.value.getValue := C51_unambiguous d.toStr x _ hx hcan hx16 small
  rw [hx']
  exact hsix

/-- **C81** Any number of the type below 10^18, however many decimals it has: the number that is stored (and written) is at most 0.51 millionths away. -/
theorem C81_near {prec : Nat} (hp : 53 ≤ prec) (p : PreciseDecimal) (h19 : p.maxIntegerDigits = 19) (h6 : p.maxDecimalDigits = 6) (v : ℚ) (hr : fl prec v = v) (hv : |v| ≤ 10 ^ 18) :
    ∃ p', p.setValueF prec v = some p' ∧ |p'.getValue - v| ≤ 0.51 / 10 ^ 6 :=
  PreciseDecimal.setValueF_near hp h19 h6 (by rw [← hr]; exact fl_rep prec (by omega) v) hv

/-! ### Examples -/

/-- 0.1, which is no binary number, is a number of six decimals. -/
example : SixDecimals 53 (1 / 10) ∧ fl 53 (1 / 10) ≠ 1 / 10 := by
  refine ⟨⟨by norm_num [abs_of_pos], by norm_num [abs_of_pos], 100000, by norm_num [abs_of_pos]⟩, by decide +kernel⟩

example : ((DecimalRange.make .Percent (-5)).bind (fun d => d.runF 53 [.setValue (1 / 10), .parse " 12.3 ".toList])).map (fun d => (d.toStr, decide (d.getValueF 53 = 123 / 10))) =
    some ("12.3".toList, false) := by decide +kernel

example : ((DecimalRange.make .Percent (-5)).bind (fun d => d.runF 64 [.setValue (1 / 10), .parse " 12.3 ".toList])).map DecimalRange.toStr = some "12.3".toList := by decide +kernel

/-- The value that is got of 12.3 is another number, and assigning it gives 12.3. -/
example : let p : PreciseDecimal := ⟨false, 12, 300000, 19, 6⟩
    p.getValueF 53 ≠ 123 / 10 ∧ p.setValueF 53 (p.getValueF 53) = some p := by decide +kernel

/-- A number of more than six decimals. -/
example : fl 53 (1 / 2 ^ 30) = 1 / 2 ^ 30 ∧ ((⟨false, 0, 0, 19, 6⟩ : PreciseDecimal).setValueF 53 (3 + 1 / 2 ^ 20)).map PreciseDecimal.getValue = some (3000001 / 1000000) := by decide +kernel

/-! ### Beyond the bound -/

/-- **C81** Larger numbers of six decimals are written with other decimals than were read: with 53 digits (`long double` as on ARM or with Microsoft's compiler) and with 64. -/
theorem C81_large_numbers_change :
    ((DecimalRange.make .TenthsValue 0).bind (fun d => d.runF 53 [.parse "8589934592.000001".toList])).map DecimalRange.toStr = some "8589934592.000002".toList ∧
    ((DecimalRange.make .TenthsValue 0).bind (fun d => d.runF 64 [.parse "17592186044416.000001".toList])).map DecimalRange.toStr = some "17592186044416.000002".toList := by
  decide +kernel

end Mx.Props
