import Verif.Spec.ApiQueries
import Verif.Proofs.Floating
import Verif.Proofs.Properties
import Verif.Proofs.Layout

namespace Mx
open Fl Spec Queries

variable {P : Type}

theorem foldl_larger {l : List Int} : ∀ {m : Int}, (∀ x ∈ l, x ≤ l.foldl larger m) ∧ m ≤ l.foldl larger m ∧ (l.foldl larger m = m ∨ l.foldl larger m ∈ l) := by
  induction l with
  | nil => intro m; simp
  | cons a l ih =>
    intro m
    have h := @ih (larger m a)
    have hl : m ≤ larger m a ∧ a ≤ larger m a ∧ (larger m a = m ∨ larger m a = a) := by unfold larger; split <;> omega
    simp only [List.foldl_cons, List.mem_cons]
    refine ⟨?_, by omega, ?_⟩
    · rintro x (rfl | hx)
      · omega
      · exact h.1 x hx
    · rcases h.2.2 with h' | h'
      · rcases hl.2.2 with h'' | h''
        · left; omega
        · right; left; omega
      · exact Or.inr (Or.inr h')

theorem largestOrZero_foldl (l : List Int) : LargestOrZero l (l.foldl larger 0) := ⟨foldl_larger.1, foldl_larger.2.1, foldl_larger.2.2⟩

theorem getNumStaves_eq (ms : List (Measure.MeasureData P)) : getNumStaves ms = (ms.map (fun m => (m.staves.length : Int))).foldl larger 0 := by
  rw [getNumStaves, List.foldl_map]

theorem getMaxVoice_eq (ms : List (Measure.MeasureData P)) : getMaxVoice ms = (voiceNumbers ms).foldl larger 0 := by
  simp only [getMaxVoice, voiceNumbers, List.foldl_flatMap, List.foldl_map]

/-- Two roundings and a rounded factor. -/
theorem perInch_near {prec : Nat} (hp : 53 ≤ prec) (x : ℚ) : |fl prec (fl prec x * fl 53 (254 / 10)) - x * (254 / 10)| ≤ |x * (254 / 10)| * (4 / 2 ^ 53) := by
  have hpow : (1 : ℚ) / 2 ^ prec ≤ 1 / 2 ^ 53 := by gcongr; norm_num
  have rel : ∀ y : ℚ, |fl prec y - y| ≤ |y| * (1 / 2 ^ 53) := fun y => by
    have := fl_near prec y
    rw [div_eq_mul_one_div] at this
    exact le_trans this (by gcongr)
  have h25 : |fl 53 (254 / 10) - 254 / 10| ≤ 254 / 10 * (1 / 2 ^ 53) := by
    have := fl_near 53 (254 / 10)
    rw [abs_of_pos (by norm_num : (0 : ℚ) < 254 / 10)] at this
    calc _ ≤ _ := this
      _ = _ := by ring
  have h1 := rel x
  have h2 := rel (fl prec x * fl 53 (254 / 10))
  generalize fl 53 (254 / 10) = c at *
  generalize fl prec x = y at *
  generalize fl prec (y * c) = z at *
  have ha : |y| ≤ |x| * (1 + 1 / 2 ^ 53) := by
    have := abs_sub_abs_le_abs_sub y x; linarith
  have hc : |c| ≤ 254 / 10 * (1 + 1 / 2 ^ 53) := by
    have := abs_sub_abs_le_abs_sub c (254 / 10); rw [abs_of_pos (by norm_num : (0 : ℚ) < 254 / 10)] at this; linarith
  have hyc : |y * c| ≤ |x| * (254 / 10) * (1 + 1 / 2 ^ 53) ^ 2 := by
    rw [abs_mul]
    calc |y| * |c| ≤ (|x| * (1 + 1 / 2 ^ 53)) * (254 / 10 * (1 + 1 / 2 ^ 53)) := by gcongr
      _ = _ := by ring
  have hd : |y * c - x * (254 / 10)| ≤ |x| * (254 / 10) * ((1 / 2 ^ 53) * (2 + 1 / 2 ^ 53)) := by
    have e : y * c - x * (254 / 10) = (y - x) * c + x * (c - 254 / 10) := by ring
    rw [e]
    calc |(y - x) * c + x * (c - 254 / 10)| ≤ |y - x| * |c| + |x| * |c - 254 / 10| := by rw [← abs_mul, ← abs_mul]; exact abs_add_le _ _
      _ ≤ (|x| * (1 / 2 ^ 53)) * (254 / 10 * (1 + 1 / 2 ^ 53)) + |x| * (254 / 10 * (1 / 2 ^ 53)) := by gcongr
      _ = _ := by ring
  have ht : |z - x * (254 / 10)| ≤ |z - y * c| + |y * c - x * (254 / 10)| := abs_sub_le _ _ _
  rw [abs_mul, abs_of_pos (by norm_num : (0 : ℚ) < 254 / 10)]
  have hx := abs_nonneg x
  nlinarith [ht, hd, h2, hyc, hx]

/-- A byte is 255 exactly if both of its hexadecimal digits are `F`. -/
theorem hexFF : ∀ v : Fin 256, v = 255 ↔ (Color.hexDigit ((Color.byte (v.val : Int)).toNat / 16) = 'F' ∧ Color.hexDigit ((Color.byte (v.val : Int)).toNat % 16) = 'F') := by decide +kernel

theorem showInt_injective {a b : Int} (ha : InInt a) (hb : InInt b) (h : showInt a = showInt b) : a = b := by
  have h1 := stringToInt_showInt (old := 0) ha
  have h2 := stringToInt_showInt (old := 0) hb
  rw [h, h2] at h1
  simpa using h1.symm

end Mx
