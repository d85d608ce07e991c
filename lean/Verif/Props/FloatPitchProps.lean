import Verif.Proofs.FloatPitch

/-! Alterations and cents in floating point arithmetic: `double` has 53 binary digits, `long double` at least as many. -/
open Spec
namespace Mx.Props
open Fl

/-- The cents `C` are given as a `double`, or have become a `double` very close to it. -/
def CentsNear (c C : ℚ) : Prop := |c - C| < 1 / 10 ^ 8 ∧ (C = 0 → c = 0)

/-- The `double` next to the number of cents is such a number. -/
theorem centsNear_fl {a : Int} {C : ℚ} (h : CentsFit a C) : CentsNear (fl 53 C) C := by
  constructor
  · have h1 := Measure.fl_err (le_refl 53) C
    have h2 : Measure.U * |C| ≤ Measure.U * 100 := mul_le_mul_of_nonneg_left h.1.le Measure.U_pos.le
    have h3 : Measure.U * 100 < 1 / 10 ^ 8 := by unfold Measure.U; norm_num
    linarith
  · rintro rfl; exact (fl_zero_iff (le_refl _) 0).mpr rfl

/-- **C83** The text of the alteration of a note is that of exact arithmetic. -/
theorem C83_pitch_text {prec : Nat} (hp : 53 ≤ prec) (p : PitchData) (c : ℚ) (ha : |p.alter| ≤ 100000) (hf : CentsFit p.alter p.cents) (hc : CentsNear c p.cents) : writeAlterF prec p.alter c = writeAlter p := by
  have h1 := alterTextF hp ha hf hc.1.le hc.2
  unfold writeAlterF writeAlter
  by_cases h : p.alter ≠ 0 ∨ p.cents ≠ 0
  · rw [if_pos h]
    by_cases h' : p.alter ≠ 0 ∨ c ≠ 0
    · rw [if_pos h', h1, convertToAlter_eq]
    · -- cents of at least a ten thousandth are not 0
      exfalso
      push Not at h'
      have hC : p.cents ≠ 0 := by rcases h with h | h
                                  · exact absurd h'.1 h
                                  · exact h
      obtain ⟨m, hm, -, -, hm0⟩ := cents_parts hf
      have hne : m ≠ 0 := fun e => hC (hm0.mp e)
      have h1m : (1 : ℚ) ≤ |(m : ℚ)| := by exact_mod_cast Int.one_le_abs hne
      have e : p.cents = (m : ℚ) / 10 ^ 4 := by
        have : p.cents = p.cents / 100 * 100 := by ring
        rw [this, hm]; ring
      have h2 := hc.1
      rw [h'.2, zero_sub, abs_neg, e, abs_div, abs_of_pos (by norm_num : (0 : ℚ) < 10 ^ 4), div_lt_iff₀ (by norm_num)] at h2
      norm_num at h2
      linarith
  · push Not at h
    rw [if_neg (by push Not; exact ⟨h.1, hc.2 h.2⟩), if_neg (by push Not; exact h)]

/-- **C83** The text of the alteration in a non-traditional key is that of exact arithmetic. -/
theorem C83_key_text {prec : Nat} (hp : 53 ≤ prec) (a : Int) (C c : ℚ) (ha : |a| ≤ 100000) (hf : CentsFit a C) (hc : CentsNear c C) : writeKeyAlterF prec a c = semitonesText (convertToAlter a C) := by
  unfold writeKeyAlterF
  rw [alterTextF hp ha hf hc.1.le hc.2, convertToAlter_eq]

/-- **C83** The alteration of a note that is written and read again is the same number of semitones; the cents are equal as far as the comparison of two notes can tell (it ignores differences below 10^-8), and
writing them once more gives the same text. -/
theorem C83_pitch {prec : Nat} (hp : 53 ≤ prec) (a : Int) (C c : ℚ) (ha : |a| ≤ 100000) (hf : CentsFit a C) (hc : CentsNear c C) :
    ∃ x c', writeAlterF prec a c = some x ∧ readAlterF prec x = some (a, c') ∧ CentsNear c' C ∧ writeAlterF prec a c' = some x := by
  obtain ⟨s, x, c', h1, h2, -, h4, h5, h6⟩ := read_cents hp ha hf
  have hc' : CentsNear c' C := ⟨lt_of_le_of_lt h5 (by norm_num), h6⟩
  have t1 := C83_pitch_text hp { alter := a, cents := C } c ha hf hc
  have t2 := C83_pitch_text hp { alter := a, cents := C } c' ha hf hc'
  by_cases h : a ≠ 0 ∨ C ≠ 0
  · have e : writeAlter { alter := a, cents := C } = some (some s) := by
      unfold writeAlter
      rw [if_pos h, convertToAlter_eq, h1]
      rfl
    exact ⟨some s, c', by rw [← e]; exact t1, by rw [readAlterF, h2]; exact h4, hc', by rw [← e]; exact t2⟩
  · have e : writeAlter { alter := a, cents := C } = some none := by unfold writeAlter; rw [if_neg h]
    push Not at h
    have z : CentsNear 0 C := ⟨by rw [h.2]; norm_num, fun _ => rfl⟩
    exact ⟨none, 0, by rw [← e]; exact t1, by rw [readAlterF, h.1], z, by rw [← e]; exact C83_pitch_text hp { alter := a, cents := C } 0 ha hf z⟩

/-- **C83** The same for the parts of a non-traditional key. -/
theorem C83_key {prec : Nat} (hp : 53 ≤ prec) (a : Int) (C c : ℚ) (ha : |a| ≤ 100000) (hf : CentsFit a C) (hc : CentsNear c C) :
    ∃ x c', writeKeyAlterF prec a c = some x ∧ readKeyAlterF prec x = some (a, c') ∧ CentsNear c' C ∧ writeKeyAlterF prec a c' = some x := by
  obtain ⟨s, x, c', h1, h2, h3, h4, h5, h6⟩ := read_cents hp ha hf
  have hc' : CentsNear c' C := ⟨lt_of_le_of_lt h5 (by norm_num), h6⟩
  have e : semitonesText (convertToAlter a C) = some s := by rw [convertToAlter_eq, h1]
  refine ⟨s, c', by rw [C83_key_text hp a C c ha hf hc, e], ?_, hc', by rw [C83_key_text hp a C c' ha hf hc', e]⟩
  unfold readKeyAlterF
  rw [h2, Option.bind_some]
  by_cases hx : x = 0
  · obtain ⟨r1, r2⟩ := h3 hx
    rw [if_neg (by simpa using hx), r1, h6 r2]
  · rw [if_pos hx, h4]

/-- **C83** With 64 binary digits, whole cents beside an alteration of at most ten semitones come back exactly. -/
theorem C83_whole_cents {prec : Nat} (hp : 64 ≤ prec) (a C : Int) (ha : |a| ≤ 10) (hC : |C| < 100) (hs : 0 ≤ a * C) :
    (∃ x, writeAlterF prec a C = some x ∧ readAlterF prec x = some (a, (C : ℚ))) ∧ (∃ x, writeKeyAlterF prec a C = some x ∧ readKeyAlterF prec x = some (a, (C : ℚ))) := by
  have hf : CentsFit a (C : ℚ) := ⟨by exact_mod_cast hC, by exact_mod_cast hs, C * 10 ^ 4, by push_cast; ring⟩
  have hn : CentsNear (C : ℚ) C := ⟨by rw [sub_self, abs_zero]; norm_num, id⟩
  have ha' : |a| ≤ 100000 := by omega
  obtain ⟨s, x, h1, h2, h3, h4⟩ := read_whole_cents hp ha hC hs
  constructor
  · have t := C83_pitch_text (by omega : 53 ≤ prec) { alter := a, cents := C } C ha' hf hn
    by_cases h : a ≠ 0 ∨ (C : ℚ) ≠ 0
    · have e : writeAlter { alter := a, cents := C } = some (some s) := by
        unfold writeAlter
        rw [if_pos h, convertToAlter_eq, h1]
        rfl
      exact ⟨some s, by rw [← e]; exact t, by rw [readAlterF, h2]; exact h4⟩
    · have e : writeAlter { alter := a, cents := C } = some none := by unfold writeAlter; rw [if_neg h]
      push Not at h
      exact ⟨none, by rw [← e]; exact t, by rw [readAlterF, h.1, h.2]⟩
  · refine ⟨s, by rw [C83_key_text (by omega) a C C ha' hf hn, convertToAlter_eq, h1], ?_⟩
    unfold readKeyAlterF
    rw [h2, Option.bind_some]
    by_cases hx : x = 0
    · obtain ⟨r1, r2⟩ := h3 hx
      rw [if_neg (by simpa using hx), r1, r2]; norm_num
    · rw [if_pos hx, h4]

/-! ### Examples -/

/-- A flat lowered by a third of a cent and a half (four decimals). -/
example : CentsFit (-1) (-505 / 10 ^ 1 - 3333 / 10 ^ 4) := ⟨by norm_num [abs_lt], by norm_num, -508333, by norm_num⟩

example : writeAlterF 64 (-1) (fl 53 (-508333 / 10 ^ 4)) = some (some "-1.508333".toList) := by decide +kernel

example : ((writeAlterF 64 2 33).bind (readAlterF 64)) = some (2, 33) ∧ ((writeKeyAlterF 64 0 (-1)).bind (readKeyAlterF 64)) = some (0, -1) := by decide +kernel

/-- **C83** Where `long double` has 53 binary digits, one cent above one semitone comes back as another number (the part of a key, whose cents are compared exactly, is then not equal to the one that was written). -/
theorem C83_cents_depend_on_platform :
    (writeKeyAlterF 53 1 1).bind (readKeyAlterF 53) = some (1, 4503599627370500 / 2 ^ 52) ∧ (4503599627370500 / 2 ^ 52 : ℚ) ≠ 1 ∧ (writeKeyAlterF 64 1 1).bind (readKeyAlterF 64) = some (1, 1) := by
  decide +kernel

end Mx.Props
