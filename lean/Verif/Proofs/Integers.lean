import Verif.Model.Integers
import Verif.Spec.Text
import Verif.Proofs.Text

namespace Mx
open Spec

theorem isWs_iff {c : Char} : isWs c = true ↔ White c := by
  simp [isWs, White, or_assoc]

theorem isDigit_iff {c : Char} : c.isDigit = true ↔ Digit c := by
  simp only [Char.isDigit, Digit, Bool.and_eq_true, decide_eq_true_eq, ge_iff_le]
  exact Iff.rfl

theorem digitsVal_eq (ds : Str) : digitsVal ds = Nat.ofDigitChars 10 ds 0 := by
  induction ds with
  | nil => rfl
  | cons c t ih =>
    rw [digitsVal, Nat.ofDigitChars_cons, Nat.ofDigitChars_eq_ofDigitChars_zero, ih]
    simp [Nat.mul_comm]

theorem skipWs_eq_nil {s : Str} : skipWs s = [] ↔ ∀ c ∈ s, isWs c := by
  unfold skipWs
  induction s with
  | nil => simp
  | cons c t ih =>
    rw [List.dropWhile_cons]
    split
    · rename_i h; simp [ih, h]
    · rename_i h; simp [h]

theorem skipWs_split (s : Str) : ∃ w, s = w ++ skipWs s ∧ ∀ c ∈ w, isWs c := by
  refine ⟨s.takeWhile isWs, (List.takeWhile_append_dropWhile).symm, ?_⟩
  intro c hc
  exact List.all_eq_true.mp (List.all_takeWhile (l := s) (p := isWs)) c hc

theorem not_isDigit_of_isWs {c : Char} (h : isWs c) : c.isDigit = false := by
  cases hd : c.isDigit
  · rfl
  · rw [isWs_of_isDigit hd] at h; exact absurd h (by simp)

/-- Complete characterisation of a successful "read an int, then only white space". -/
theorem readInt_complete (s : Str) (v : Int) (old : Int) :
    ((readInt old s).fail = false ∧ skipWs (readInt old s).rest = [] ∧ (readInt old s).value = v) ↔
      (IntegerText s v ∧ InInt v) := by
  constructor
  · rintro ⟨hf, hr, hv⟩
    obtain ⟨w, hs, hw⟩ := skipWs_split s
    unfold readInt at hf hr hv
    revert hf hr hv
    split
    · simp
    · rename_i c t hct
      rw [hct] at hs
      simp only
      -- split the sign off
      have hsign : ∃ sign, (c :: t) = sign ++ (readSign (c :: t)).2 ∧
          ((sign = ['-'] ∧ (readSign (c :: t)).1 = true) ∨ ((sign = [] ∨ sign = ['+']) ∧ (readSign (c :: t)).1 = false)) := by
        unfold readSign
        split
        · rename_i u he; exact ⟨['-'], by simp_all⟩
        · rename_i u he; exact ⟨['+'], by simp_all⟩
        · exact ⟨[], by simp⟩
      obtain ⟨sign, hsg, hsg2⟩ := hsign
      generalize readSign (c :: t) = p at *
      obtain ⟨neg, u⟩ := p
      simp only at hsg hsg2 ⊢
      by_cases hds : u.takeWhile Char.isDigit = []
      · simp [hds]
      · simp only [hds, if_false]
        have hdig : ∀ x ∈ u.takeWhile Char.isDigit, x.isDigit := fun x hx =>
          List.all_eq_true.mp (List.all_takeWhile (l := u) (p := Char.isDigit)) x hx
        generalize hval : (if neg = true then -(Nat.ofDigitChars 10 (u.takeWhile Char.isDigit) 0 : Int)
          else (Nat.ofDigitChars 10 (u.takeWhile Char.isDigit) 0 : Int)) = n
        by_cases hlo : n < INT_MIN
        · simp [hlo]
        · by_cases hhi : INT_MAX < n
          · simp [hlo, hhi]
          · simp only [hlo, hhi, if_false]
            intro _ hr hv
            rw [← hval] at hv
            refine ⟨⟨w, sign, u.takeWhile Char.isDigit, u.dropWhile Char.isDigit, ?_, ?_, ?_, hds, ?_, ?_⟩, ?_⟩
            · rw [hs, hsg]
              rw [List.append_assoc, List.append_assoc, List.takeWhile_append_dropWhile]
            · exact fun x hx => isWs_iff.mp (hw x hx)
            · exact fun x hx => isWs_iff.mp (skipWs_eq_nil.mp hr x hx)
            · exact fun x hx => isDigit_iff.mp (hdig x hx)
            · rw [digitsVal_eq]
              rcases hsg2 with ⟨a, b⟩ | ⟨a, b⟩
              · left; exact ⟨a, by rw [← hv, b]; simp⟩
              · right; exact ⟨a, by rw [← hv, b]; simp⟩
            · unfold InInt
              rw [← hv, hval]; omega
  · rintro ⟨⟨w₁, sign, ds, w₂, rfl, hw1, hw2, hne, hd, hsv⟩, hin⟩
    have hw1' : ∀ c ∈ w₁, isWs c := fun c hc => isWs_iff.mpr (hw1 c hc)
    have hw2' : ∀ c ∈ w₂, isWs c := fun c hc => isWs_iff.mpr (hw2 c hc)
    have hd' : ∀ c ∈ ds, c.isDigit := fun c hc => isDigit_iff.mpr (hd c hc)
    have hrest : ∀ c, w₂.head? = some c → c.isDigit = false := by
      intro c hc
      exact not_isDigit_of_isWs (hw2' c (List.mem_of_head? hc))
    have htk := takeWhile_append_of_all (p := Char.isDigit) hd' hrest
    have hdr := dropWhile_append_of_all (p := Char.isDigit) hd' hrest
    have hsk : skipWs (w₁ ++ sign ++ ds ++ w₂) = sign ++ ds ++ w₂ := by
      rw [List.append_assoc, List.append_assoc, skipWs_append_ws hw1']
      obtain ⟨d0, dt, rfl⟩ := List.exists_cons_of_ne_nil hne
      have hdw := isWs_of_isDigit (hd' d0 (by simp))
      rcases hsv with ⟨rfl, _⟩ | ⟨rfl | rfl, _⟩
      · exact skipWs_of_head (by decide)
      · exact skipWs_of_head hdw
      · exact skipWs_of_head (by decide)
    have hrs : readSign (sign ++ ds ++ w₂) = (decide (sign = ['-']), ds ++ w₂) := by
      obtain ⟨d0, dt, rfl⟩ := List.exists_cons_of_ne_nil hne
      have hds := ne_sign_of_isDigit (hd' d0 (by simp))
      rcases hsv with ⟨rfl, _⟩ | ⟨rfl | rfl, _⟩
      · rfl
      · exact readSign_of_ne hds
      · rfl
    have hcons : ∃ c t, sign ++ ds ++ w₂ = c :: t := by
      obtain ⟨d0, dt, rfl⟩ := List.exists_cons_of_ne_nil hne
      rcases hsv with ⟨rfl, _⟩ | ⟨rfl | rfl, _⟩ <;> exact ⟨_, _, rfl⟩
    obtain ⟨c, t, hct⟩ := hcons
    have hval : v = if sign = ['-'] then -(Nat.ofDigitChars 10 ds 0 : Int) else (Nat.ofDigitChars 10 ds 0 : Int) := by
      rw [digitsVal_eq] at hsv
      rcases hsv with ⟨rfl, h⟩ | ⟨rfl | rfl, h⟩ <;> simp [h]
    unfold InInt at hin
    have hread : readInt old (w₁ ++ sign ++ ds ++ w₂) = { value := v, fail := false, rest := w₂ } := by
      unfold readInt
      rw [hsk, hct]
      simp only
      rw [← hct, hrs]
      simp only [htk, hdr, hne, if_false, decide_eq_true_eq]
      rw [← hval]
      rw [if_neg (by omega), if_neg (by omega)]
    rw [hread]
    exact ⟨rfl, skipWs_eq_nil.mpr hw2', rfl⟩

theorem showInt_text (x : Int) : IntegerText (showInt x) x := by
  unfold showInt
  split
  · refine ⟨[], ['-'], Nat.toDigits 10 x.natAbs, [], by simp, by simp, by simp, Nat.toDigits_ne_nil, ?_, ?_⟩
    · exact fun c hc => isDigit_iff.mp (toDigits_isDigit c hc)
    · left; refine ⟨rfl, ?_⟩; rw [digitsVal_eq]; simp; omega
  · refine ⟨[], [], Nat.toDigits 10 x.natAbs, [], by simp, by simp, by simp, Nat.toDigits_ne_nil, ?_, ?_⟩
    · exact fun c hc => isDigit_iff.mp (toDigits_isDigit c hc)
    · right; refine ⟨.inl rfl, ?_⟩; rw [digitsVal_eq]; simp; omega

theorem IntegerText.unique {s : Str} {v w : Int} (hv : IntegerText s v) (hw : IntegerText s w)
    (iv : InInt v) (iw : InInt w) : v = w := by
  have h1 := (readInt_complete s v 0).mpr ⟨hv, iv⟩
  have h2 := (readInt_complete s w 0).mpr ⟨hw, iw⟩
  rw [← h1.2.2, ← h2.2.2]

end Mx
