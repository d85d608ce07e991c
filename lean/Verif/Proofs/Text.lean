import Verif.Model.Basic

/-! Lemmas about numerals and `readInt`. -/
namespace Mx

theorem isWs_of_isDigit {c : Char} (h : c.isDigit) : isWs c = false := by
  unfold isWs
  simp only [Bool.or_eq_false_iff, beq_eq_false_iff_ne, ne_eq]
  refine ⟨⟨⟨⟨⟨?_, ?_⟩, ?_⟩, ?_⟩, ?_⟩, ?_⟩ <;> rintro rfl <;> revert h <;> decide

theorem ne_sign_of_isDigit {c : Char} (h : c.isDigit) : c ≠ '-' ∧ c ≠ '+' := by
  constructor <;> rintro rfl <;> revert h <;> decide

theorem readSign_of_ne {c : Char} {t : Str} (h : c ≠ '-' ∧ c ≠ '+') :
    readSign (c :: t) = (false, c :: t) := by
  unfold readSign
  split
  · simp_all
  · simp_all
  · rfl

theorem takeWhile_append_of_all {p : Char → Bool} {a r : Str} (ha : ∀ c ∈ a, p c)
    (hr : ∀ c, r.head? = some c → p c = false) : (a ++ r).takeWhile p = a := by
  induction a with
  | nil => cases r with
    | nil => rfl
    | cons x xs => simp [List.takeWhile_cons, hr x rfl]
  | cons x xs ih =>
    simp only [List.cons_append, List.takeWhile_cons, ha x (by simp)]
    simp [ih (fun c hc => ha c (by simp [hc]))]

theorem dropWhile_append_of_all {p : Char → Bool} {a r : Str} (ha : ∀ c ∈ a, p c)
    (hr : ∀ c, r.head? = some c → p c = false) : (a ++ r).dropWhile p = r := by
  induction a with
  | nil => cases r with
    | nil => rfl
    | cons x xs => simp [List.dropWhile_cons, hr x rfl]
  | cons x xs ih =>
    simp only [List.cons_append, List.dropWhile_cons, ha x (by simp)]
    simp [ih (fun c hc => ha c (by simp [hc]))]

theorem skipWs_of_head {c : Char} {t : Str} (h : isWs c = false) : skipWs (c :: t) = c :: t := by
  simp [skipWs, List.dropWhile_cons, h]

theorem skipWs_append_ws {w s : Str} (hw : ∀ c ∈ w, isWs c) : skipWs (w ++ s) = skipWs s := by
  induction w with
  | nil => rfl
  | cons x xs ih =>
    simp only [skipWs, List.cons_append, List.dropWhile_cons, hw x (by simp), if_true]
    exact ih (fun c hc => hw c (by simp [hc]))

/-- Reading an unsigned numeral. -/
theorem readInt_digits {old : Int} {ds r : Str} (hne : ds ≠ []) (hd : ∀ c ∈ ds, c.isDigit)
    (hr : ∀ c, r.head? = some c → c.isDigit = false) (hb : (Nat.ofDigitChars 10 ds 0 : Int) ≤ INT_MAX) :
    readInt old (ds ++ r) = { value := Nat.ofDigitChars 10 ds 0, fail := false, rest := r } := by
  obtain ⟨c, t, rfl⟩ := List.exists_cons_of_ne_nil hne
  have hc : c.isDigit := hd c (by simp)
  have h1 : skipWs ((c :: t) ++ r) = c :: (t ++ r) := skipWs_of_head (isWs_of_isDigit hc)
  unfold readInt
  simp only [h1]
  rw [readSign_of_ne (ne_sign_of_isDigit hc)]
  have h2 := takeWhile_append_of_all (p := Char.isDigit) (a := c :: t) hd hr
  have h3 := dropWhile_append_of_all (p := Char.isDigit) (a := c :: t) hd hr
  simp only [List.cons_append] at h2 h3
  simp only [h2, h3]
  have : ¬ ((Nat.ofDigitChars 10 (c :: t) 0 : Int) < INT_MIN) := by unfold INT_MIN; omega
  have : ¬ (INT_MAX < (Nat.ofDigitChars 10 (c :: t) 0 : Int)) := by omega
  simp [*]

theorem toDigits_isDigit {n : Nat} : ∀ c ∈ Nat.toDigits 10 n, c.isDigit := fun _ h =>
  Nat.isDigit_of_mem_toDigits (by decide) (by decide) h

/-- Text of an `int` is read back, whatever non-digit follows. -/
theorem readInt_showInt {old x : Int} {r : Str} (hx : InInt x)
    (hr : ∀ c, r.head? = some c → c.isDigit = false) :
    readInt old (showInt x ++ r) = { value := x, fail := false, rest := r } := by
  unfold showInt
  unfold InInt at hx
  by_cases hneg : x < 0
  · simp only [hneg, if_true]
    have h1 : skipWs (('-' :: Nat.toDigits 10 x.natAbs) ++ r) = '-' :: (Nat.toDigits 10 x.natAbs ++ r) :=
      skipWs_of_head (by decide)
    unfold readInt
    simp only [h1, readSign]
    have h2 := takeWhile_append_of_all (p := Char.isDigit) (a := Nat.toDigits 10 x.natAbs) toDigits_isDigit hr
    have h3 := dropWhile_append_of_all (p := Char.isDigit) (a := Nat.toDigits 10 x.natAbs) toDigits_isDigit hr
    simp only [h2, h3, Nat.toDigits_ne_nil, if_false, Nat.ofDigitChars_ten_toDigits, if_true]
    have : -(x.natAbs : Int) = x := by omega
    rw [this]
    have : ¬ (x < INT_MIN) := by omega
    have : ¬ (INT_MAX < x) := by omega
    simp [*]
  · simp only [hneg, if_false]
    rw [readInt_digits Nat.toDigits_ne_nil toDigits_isDigit hr]
    · simp; omega
    · simp; unfold INT_MAX at *; omega

/-- A digit is the digit character of its value. -/
theorem digitChar_of_isDigit {c : Char} (h : c.isDigit) : (c.toNat - 48).digitChar = c ∧ c.toNat - 48 < 10 := by
  have h' : 48 ≤ c.toNat ∧ c.toNat ≤ 57 := by
    simp only [Char.isDigit, Bool.and_eq_true, decide_eq_true_eq] at h
    obtain ⟨a, b⟩ := h
    simp only [ge_iff_le, UInt32.le_iff_toNat_le] at a b
    exact ⟨a, b⟩
  refine ⟨?_, by omega⟩
  obtain ⟨h1, h2⟩ := h'
  have key : ∀ n, 48 ≤ n → n ≤ 57 → ∀ c : Char, c.toNat = n → (n - 48).digitChar = c := by
    intro n a b c hc
    have hn : n = 48 ∨ n = 49 ∨ n = 50 ∨ n = 51 ∨ n = 52 ∨ n = 53 ∨ n = 54 ∨ n = 55 ∨ n = 56 ∨ n = 57 := by omega
    have : c = Char.ofNat n := by rw [← hc]; simp
    rw [this]
    rcases hn with rfl | rfl | rfl | rfl | rfl | rfl | rfl | rfl | rfl | rfl <;> rfl
  exact key _ h1 h2 c rfl

theorem ofDigitChars_lt {ds : Str} (hd : ∀ c ∈ ds, c.isDigit) : Nat.ofDigitChars 10 ds 0 < 10 ^ ds.length := by
  have key : ∀ (l : Str) (i : Nat), (∀ c ∈ l, c.isDigit) → Nat.ofDigitChars 10 l i < 10 ^ l.length * (i + 1) := by
    intro l
    induction l with
    | nil => intro i _; simp
    | cons c t ih =>
      intro i h
      rw [Nat.ofDigitChars_cons]
      have h1 := ih (10 * i + (c.toNat - '0'.toNat)) (fun x hx => h x (by simp [hx]))
      have h2 : c.toNat - '0'.toNat < 10 := (digitChar_of_isDigit (h c (by simp))).2
      refine Nat.lt_of_lt_of_le h1 ?_
      rw [List.length_cons, Nat.pow_succ, Nat.mul_assoc]
      exact Nat.mul_le_mul_left _ (by omega)
  simpa using key ds 0 hd

/-- Fixed width numerals: left padding the shortest numeral with zeros gives back every digit string. -/
theorem pad_ofDigitChars {ds : Str} (hne : ds ≠ []) (hd : ∀ c ∈ ds, c.isDigit) :
    List.replicate (ds.length - (Nat.toDigits 10 (Nat.ofDigitChars 10 ds 0)).length) '0'
      ++ Nat.toDigits 10 (Nat.ofDigitChars 10 ds 0) = ds := by
  induction ds with
  | nil => exact absurd rfl hne
  | cons c t ih =>
    by_cases ht : t = []
    · subst ht
      obtain ⟨h1, h2⟩ := digitChar_of_isDigit (hd c (by simp))
      simp only [Nat.ofDigitChars_cons, Nat.mul_zero, Nat.zero_add, Nat.ofDigitChars_nil]
      have h2' : c.toNat - '0'.toNat < 10 := h2
      rw [Nat.toDigits_of_lt_base h2']
      simp [h1]
    · have hdt : ∀ x ∈ t, x.isDigit := fun x hx => hd x (by simp [hx])
      have ih := ih ht hdt
      obtain ⟨h1, h2⟩ := digitChar_of_isDigit (hd c (by simp))
      rw [Nat.ofDigitChars_cons, Nat.ofDigitChars_eq_ofDigitChars_zero]
      have hcv : c.toNat - '0'.toNat = c.toNat - 48 := rfl
      rw [hcv]
      generalize hk : c.toNat - 48 = k at *
      generalize hv : Nat.ofDigitChars 10 t 0 = v at *
      simp only [Nat.mul_zero, Nat.zero_add]
      have hlt : v < 10 ^ t.length := by rw [← hv]; exact ofDigitChars_lt hdt
      have htl : 0 < t.length := List.length_pos_iff.mpr ht
      have lenv : (Nat.toDigits 10 v).length ≤ t.length :=
        (Nat.length_toDigits_le_iff (by decide) htl).mpr hlt
      by_cases hk0 : k = 0
      · subst hk0
        simp only [Nat.mul_zero, Nat.zero_add, List.length_cons]
        have : t.length + 1 - (Nat.toDigits 10 v).length = (t.length - (Nat.toDigits 10 v).length) + 1 := by omega
        rw [this, List.replicate_succ, List.cons_append, ih]
        rw [← h1]; rfl
      · -- the numeral has full width
        have full : ∀ (m w : Nat), w < 10 ^ m → 0 < m →
            Nat.toDigits 10 (10 ^ m * k + w) =
              k.digitChar :: (List.replicate (m - (Nat.toDigits 10 w).length) '0' ++ Nat.toDigits 10 w) := by
          intro m
          induction m with
          | zero => intro w _ h; omega
          | succ m ihm =>
            intro w hw _
            by_cases hm : m = 0
            · subst hm
              simp only [Nat.zero_add, Nat.pow_one] at hw ⊢
              rw [← Nat.toDigits_append_toDigits (by decide) (by omega : 0 < k) hw,
                Nat.toDigits_of_lt_base h2, Nat.toDigits_of_lt_base hw]
              simp
            · have hw' : w / 10 < 10 ^ m := by
                rw [Nat.pow_succ] at hw; omega
              have e : 10 ^ (m+1) * k + w = 10 * (10 ^ m * k + w / 10) + w % 10 := by
                rw [Nat.pow_succ]
                have : 10 * (10 ^ m * k) = 10 ^ m * 10 * k := by
                  rw [Nat.mul_comm (10^m) 10, Nat.mul_assoc]
                rw [Nat.mul_add, this]; omega
              have hpos : 0 < 10 ^ m * k + w / 10 := by
                have : 0 < 10 ^ m * k := Nat.mul_pos (Nat.pow_pos (by decide)) (by omega)
                omega
              rw [e, ← Nat.toDigits_append_toDigits (by decide) hpos (Nat.mod_lt _ (by decide)),
                ihm _ hw' (by omega)]
              by_cases hw10 : w < 10
              · have : w / 10 = 0 := by omega
                rw [this, Nat.toDigits_zero, Nat.toDigits_of_lt_base hw10]
                have : w % 10 = w := by omega
                rw [this, Nat.toDigits_of_lt_base hw10]
                simp only [List.length_singleton, Nat.add_sub_cancel, List.cons_append, List.append_assoc,
                  List.cons.injEq, true_and]
                obtain ⟨m', rfl⟩ : ∃ m', m = m' + 1 := ⟨m - 1, by omega⟩
                rw [List.replicate_succ', Nat.add_sub_cancel]
                simp
              · have hp : 0 < w / 10 := by omega
                have hw2 : Nat.toDigits 10 w = Nat.toDigits 10 (w/10) ++ Nat.toDigits 10 (w % 10) := by
                  rw [Nat.toDigits_append_toDigits (by decide) hp (Nat.mod_lt _ (by decide))]
                  congr 1; omega
                rw [hw2]
                rw [Nat.toDigits_of_lt_base (Nat.mod_lt w (by decide : 0 < 10))]
                simp only [List.length_append, List.length_singleton, List.cons_append, List.append_assoc,
                  List.cons.injEq, true_and]
                congr 2; omega
        rw [full _ _ hlt htl, ih, h1]
        simp only [List.length_cons, Nat.sub_self, List.replicate_zero, List.nil_append]

end Mx
