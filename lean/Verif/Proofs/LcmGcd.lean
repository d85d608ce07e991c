import Verif.Model.LcmGcd
import Mathlib.Algebra.GCDMonoid.Nat
import Mathlib.Data.Int.GCD
import Mathlib.Tactic.Ring

namespace Mx.LcmGcd

/-- a representable number with a representable absolute value -/
def Fine (a : Int) : Prop := -INT_MAX ≤ a ∧ a ≤ INT_MAX

instance (a : Int) : Decidable (Fine a) := inferInstanceAs (Decidable (_ ∧ _))

theorem absInt_fine {a : Int} (h : Fine a) : absInt a = .ok a.natAbs := by
  unfold absInt chkR
  rw [if_pos]
  unfold Fine INT_MAX at h
  unfold InInt INT_MIN INT_MAX
  omega

theorem gcdLoop_eq : ∀ a b : Nat, gcdLoop a b = Nat.gcd a b := by
  intro a
  induction a using Nat.strong_induction_on with
  | _ a ih =>
    intro b
    unfold gcdLoop
    split
    · rename_i h; rw [h]; simp
    · rename_i ha
      split
      · rename_i hb
        rw [Nat.gcd_rec a b, hb, Nat.gcd_zero_left]
      · rename_i hb
        have h1 := Nat.mod_lt a (Nat.pos_of_ne_zero hb)
        have h2 := Nat.mod_lt b (Nat.pos_of_ne_zero ha)
        rw [ih _ (by omega), Nat.gcd_rec a b, Nat.gcd_rec (b % a) a]

theorem gcd2_eq {a b : Int} (ha : Fine a) (hb : Fine b) : gcd2 a b = .ok (Int.gcd a b : Int) := by
  unfold gcd2
  rw [absInt_fine ha, absInt_fine hb]
  simp only [bind, Except.bind]
  rw [gcdLoop_eq]
  simp [Int.gcd_def]

theorem fine_gcd {a b : Int} (ha : Fine a) (hb : Fine b) : Fine (Int.gcd a b : Int) := by
  unfold Fine at *
  refine ⟨by unfold INT_MAX; omega, ?_⟩
  by_cases h : a = 0
  · subst h; simp; omega
  · have := Int.gcd_le_natAbs_left b h
    omega

/-- gcd of all numbers -/
def gcdAll : List Int → Nat
  | [] => 0
  | x :: xs => Nat.gcd x.natAbs (gcdAll xs)

/-- zeros among the numbers, one more if there was one before -/
def zeros (z : Bool) (xs : List Int) : Nat := xs.count 0 + (if z then 1 else 0)

theorem zeros_cons {z : Bool} {x : Int} {xs : List Int} (h : ¬(x = 0 ∧ z = true)) : zeros (z || x == 0) xs = zeros z (x :: xs) := by
  unfold zeros
  by_cases hx0 : x = 0
  · subst hx0
    have : z = false := by cases z <;> simp_all
    simp [this]
  · have hxb : (x == 0) = false := by simpa using hx0
    rw [hxb, List.count_cons_of_ne hx0]; simp

theorem gcdRest_ok : ∀ (xs : List Int) (z : Bool) (g : Int), Fine g → (∀ x ∈ xs, Fine x) → zeros z xs ≤ 1 → xs ≠ [] →
    gcdRest z g xs = .ok (Nat.gcd g.natAbs (gcdAll xs) : Nat) := by
  intro xs
  induction xs with
  | nil => intro z g _ _ _ h; exact absurd rfl h
  | cons x xs ih =>
    intro z g hg hx hz _
    have hfx := hx x (by simp)
    have h : ¬(x = 0 ∧ z = true) := by
      rintro ⟨h1, h2⟩
      subst h1 h2
      simp [zeros] at hz
    simp only [gcdRest]
    rw [if_neg h, gcd2_eq hg hfx]
    simp only [bind, Except.bind]
    by_cases he : xs = []
    · subst he
      simp [gcdRest, gcdAll, Int.gcd_def]
    · rw [ih _ _ (fine_gcd hg hfx) (fun y hy => hx y (by simp [hy])) (by rw [zeros_cons h]; exact hz) he]
      simp only [gcdAll, Int.natAbs_natCast]
      rw [← Nat.gcd_assoc]; rfl

theorem gcdRest_throws : ∀ (xs : List Int) (z : Bool) (g : Int), Fine g → (∀ x ∈ xs, Fine x) → 2 ≤ zeros z xs →
    gcdRest z g xs = .error .throws := by
  intro xs
  induction xs with
  | nil => intro z g _ _ h; cases z <;> simp [zeros] at h
  | cons x xs ih =>
    intro z g hg hx hz
    have hfx := hx x (by simp)
    simp only [gcdRest]
    by_cases h : x = 0 ∧ z = true
    · rw [if_pos h]
    · rw [if_neg h, gcd2_eq hg hfx]
      simp only [bind, Except.bind]
      exact ih _ _ (fine_gcd hg hfx) (fun y hy => hx y (by simp [hy])) (by rw [zeros_cons h]; exact hz)

theorem chkR_pos {x : Int} (h1 : INT_MIN ≤ x) (h2 : x ≤ INT_MAX) : chkR x = .ok x := if_pos ⟨h1, h2⟩

theorem chkR_neg {x : Int} (h : ¬(INT_MIN ≤ x ∧ x ≤ INT_MAX)) : chkR x = .error .undefined := if_neg h

theorem lcm2_eq {a b : Int} (ha : Fine a) (hb : Fine b) :
    lcm2 a b = if (Int.lcm a b : Int) ≤ INT_MAX then .ok (Int.lcm a b : Int) else .error .undefined := by
  unfold lcm2
  rw [gcd2_eq ha hb]
  simp only [bind, Except.bind]
  by_cases hg : (Int.gcd a b : Int) ≠ 0
  · rw [if_pos hg]
    have hdvd : (Int.gcd a b : Int) ∣ a := Int.gcd_dvd_left ..
    have hnat : (a.tdiv (Int.gcd a b : Int) * b).natAbs = Int.lcm a b := by
      rw [Int.natAbs_mul, Int.natAbs_tdiv, Int.lcm_def, Nat.lcm]
      simp only [Int.natAbs_natCast]
      rw [Int.gcd_def]
      exact (Nat.div_mul_right_comm (Nat.gcd_dvd_left ..) _)
    generalize a.tdiv (Int.gcd a b : Int) * b = x at hnat
    rw [← hnat]
    by_cases h1 : INT_MIN ≤ x ∧ x ≤ INT_MAX
    · rw [chkR_pos h1.1 h1.2]
      simp only
      unfold INT_MIN INT_MAX at *
      by_cases h2 : x < 0
      · rw [if_pos h2]
        by_cases h3 : (x.natAbs : Int) ≤ 2147483647
        · rw [if_pos h3, chkR_pos (by unfold INT_MIN; omega) (by unfold INT_MAX; omega)]; congr 1; omega
        · rw [if_neg h3, chkR_neg (by unfold INT_MIN INT_MAX; omega)]
      · rw [if_neg h2, if_pos (by omega)]; congr 1; omega
    · rw [chkR_neg h1]
      simp only
      rw [if_neg]
      unfold INT_MIN INT_MAX at *
      omega
  · rw [if_neg hg]
    have hg0 : Int.gcd a b = 0 := by omega
    have h0 : a = 0 ∧ b = 0 := Int.gcd_eq_zero_iff.mp hg0
    rw [h0.1, h0.2]
    rfl

/-- lcm of all numbers -/
def lcmAll : List Int → Nat
  | [] => 1
  | x :: xs => Nat.lcm x.natAbs (lcmAll xs)

theorem lcmAll_dvd_iff (xs : List Int) (n : Nat) : lcmAll xs ∣ n ↔ ∀ x ∈ xs, x.natAbs ∣ n := by
  induction xs with
  | nil => simp [lcmAll]
  | cons x xs ih => simp [lcmAll, Nat.lcm_dvd_iff, ih]

theorem lcmAll_pos {xs : List Int} (h : ∀ x ∈ xs, x ≠ 0) : 0 < lcmAll xs := by
  induction xs with
  | nil => simp [lcmAll]
  | cons x xs ih =>
    have := h x (by simp)
    exact Nat.lcm_pos (by omega) (ih (fun y hy => h y (by simp [hy])))

theorem lcmRest_eq : ∀ (xs : List Int) (a : Int), Fine a → a ≠ 0 → (∀ x ∈ xs, Fine x ∧ x ≠ 0) →
    lcmRest a xs = if xs = [] then .ok a else
      if (Nat.lcm a.natAbs (lcmAll xs) : Int) ≤ INT_MAX then .ok (Nat.lcm a.natAbs (lcmAll xs) : Nat) else .error .undefined := by
  intro xs
  induction xs with
  | nil => intro a _ _ _; simp [lcmRest]
  | cons x xs ih =>
    intro a ha ha0 hx
    obtain ⟨hfx, hx0⟩ := hx x (by simp)
    have hxs : ∀ y ∈ xs, Fine y ∧ y ≠ 0 := fun y hy => hx y (by simp [hy])
    simp only [lcmRest]
    rw [if_neg hx0, lcm2_eq ha hfx]
    have hassoc : Nat.lcm a.natAbs (lcmAll (x :: xs)) = Nat.lcm (Int.lcm a x) (lcmAll xs) := by
      simp only [lcmAll]
      rw [← Nat.lcm_assoc]; rfl
    rw [if_neg (List.cons_ne_nil x xs), hassoc]
    by_cases hle : (Int.lcm a x : Int) ≤ INT_MAX
    · rw [if_pos hle]
      simp only [bind, Except.bind]
      have hpos : 0 < Int.lcm a x := Int.lcm_pos ha0 hx0
      rw [ih _ ⟨by unfold INT_MAX; omega, hle⟩ (by omega) hxs]
      split
      · rename_i he; subst he
        simp only [lcmAll, Nat.lcm_one_right, Int.natAbs_natCast]
        rw [if_pos hle]
      · simp
    · rw [if_neg hle]
      simp only [bind, Except.bind]
      rw [if_neg]
      have hdvd : Int.lcm a x ∣ Nat.lcm (Int.lcm a x) (lcmAll xs) := Nat.dvd_lcm_left ..
      have hpos : 0 < Nat.lcm (Int.lcm a x) (lcmAll xs) :=
        Nat.lcm_pos (Int.lcm_pos ha0 hx0) (lcmAll_pos (fun y hy => (hxs y hy).2))
      have := Nat.le_of_dvd hpos hdvd
      omega

theorem lcmSet_eq {xs : List Int} (hx : ∀ x ∈ xs, Fine x ∧ x ≠ 0) (hne : xs ≠ []) :
    lcmSet xs = if (lcmAll xs : Int) ≤ INT_MAX then .ok (lcmAll xs : Nat) else .error .undefined := by
  match xs, hne with
  | [a], _ =>
    obtain ⟨h1, h2⟩ := hx a (by simp)
    simp only [lcmSet, lcmAll, Nat.lcm_one_right]
    rw [if_neg h2, absInt_fine h1, if_pos]
    unfold Fine INT_MAX at *; omega
  | a :: b :: rest, _ =>
    obtain ⟨h1, h2⟩ := hx a (by simp)
    obtain ⟨h3, h4⟩ := hx b (by simp)
    simp only [lcmSet]
    rw [if_neg (by simp [h2, h4]), lcm2_eq h1 h3]
    have hall : lcmAll (a :: b :: rest) = Nat.lcm (Int.lcm a b) (lcmAll rest) := by
      simp only [lcmAll]; rw [← Nat.lcm_assoc]; rfl
    have habs : Nat.lcm (Int.lcm a b) (lcmAll (b :: rest)) = Nat.lcm (Int.lcm a b) (lcmAll rest) := by
      simp only [lcmAll]
      rw [← Nat.lcm_assoc]
      congr 1
      have : b.natAbs ∣ Int.lcm a b := Nat.dvd_lcm_right ..
      rw [Nat.lcm_comm]; exact Nat.lcm_eq_right this
    by_cases hle : (Int.lcm a b : Int) ≤ INT_MAX
    · rw [if_pos hle]
      simp only [bind, Except.bind]
      have hpos : 0 < Int.lcm a b := Int.lcm_pos h2 h4
      rw [lcmRest_eq _ _ ⟨by unfold INT_MAX; omega, hle⟩ (by omega) (fun y hy => hx y (List.mem_cons_of_mem _ hy)), if_neg (by simp)]
      simp only [Int.natAbs_natCast]
      rw [habs, hall]
    · rw [if_neg hle]
      simp only [bind, Except.bind]
      rw [if_neg]
      rw [hall]
      have hdvd : Int.lcm a b ∣ Nat.lcm (Int.lcm a b) (lcmAll rest) := Nat.dvd_lcm_left ..
      have hpos : 0 < Nat.lcm (Int.lcm a b) (lcmAll rest) :=
        Nat.lcm_pos (Int.lcm_pos h2 h4) (lcmAll_pos (fun y hy => (hx y (by simp [hy])).2))
      have := Nat.le_of_dvd hpos hdvd
      omega

theorem lcmRest_zero : ∀ (xs : List Int) (a : Int), 0 ∈ xs → ∀ v, lcmRest a xs ≠ .ok v := by
  intro xs
  induction xs with
  | nil => intro a h; simp at h
  | cons x xs ih =>
    intro a h v
    simp only [lcmRest]
    split
    · intro h; cases h
    · rename_i hx
      have h' : 0 ∈ xs := by
        rcases List.mem_cons.mp h with h | h
        · exact absurd h.symm hx
        · exact h
      cases hl : lcm2 a x with
      | error e => simp [bind, Except.bind]
      | ok w => simpa [bind, Except.bind] using ih w h' v

theorem lcmSet_zero {xs : List Int} (h : 0 ∈ xs) (v : Int) : lcmSet xs ≠ .ok v := by
  match xs with
  | [] => simp at h
  | [a] =>
    simp at h
    simp [lcmSet, ← h]
  | a :: b :: rest =>
    simp only [lcmSet]
    split
    · intro h; cases h
    · rename_i hab
      have h' : 0 ∈ b :: rest := by
        rcases List.mem_cons.mp h with h | h
        · exact absurd (Or.inl h.symm) hab
        · exact h
      cases hl : lcm2 a b with
      | error e => simp [bind, Except.bind]
      | ok w => simpa [bind, Except.bind] using lcmRest_zero _ w h' v

end Mx.LcmGcd

namespace Mx.LcmGcd

theorem absInt_ok {a v : Int} (h : absInt a = .ok v) : Fine a := by
  unfold absInt at h
  by_cases hc : INT_MIN ≤ (a.natAbs : Int) ∧ (a.natAbs : Int) ≤ INT_MAX
  · unfold Fine; unfold INT_MAX at *; omega
  · rw [chkR_neg hc] at h; cases h

theorem gcd2_ok {a b v : Int} (h : gcd2 a b = .ok v) : Fine a ∧ Fine b := by
  unfold gcd2 at h
  cases h1 : absInt a with
  | error e => rw [h1] at h; simp [bind, Except.bind] at h
  | ok x =>
    cases h2 : absInt b with
    | error e => rw [h1, h2] at h; simp [bind, Except.bind] at h
    | ok y => exact ⟨absInt_ok h1, absInt_ok h2⟩

theorem lcm2_ok {a b v : Int} (h : lcm2 a b = .ok v) : Fine a ∧ Fine b := by
  unfold lcm2 at h
  cases h1 : gcd2 a b with
  | error e => rw [h1] at h; simp [bind, Except.bind] at h
  | ok x => exact gcd2_ok h1

theorem lcmRest_ok : ∀ (xs : List Int) (a v : Int), lcmRest a xs = .ok v → ∀ x ∈ xs, Fine x := by
  intro xs
  induction xs with
  | nil => intro a v _ x hx; simp at hx
  | cons y xs ih =>
    intro a v h x hx
    simp only [lcmRest] at h
    split at h
    · cases h
    · cases h1 : lcm2 a y with
      | error e => rw [h1] at h; simp [bind, Except.bind] at h
      | ok w =>
        rw [h1] at h
        rcases List.mem_cons.mp hx with rfl | hx
        · exact (lcm2_ok h1).2
        · exact ih w v h x hx

theorem lcmSet_ok {xs : List Int} {v : Int} (h : lcmSet xs = .ok v) : ∀ x ∈ xs, Fine x ∧ x ≠ 0 := by
  intro x hx
  have h0 : x ≠ 0 := by
    intro h0
    subst h0
    exact lcmSet_zero hx v h
  refine ⟨?_, h0⟩
  match xs with
  | [] => simp at hx
  | [a] =>
    simp only [lcmSet] at h
    split at h
    · cases h
    · simp at hx; subst hx; exact absInt_ok h
  | a :: b :: rest =>
    simp only [lcmSet] at h
    split at h
    · cases h
    · cases h1 : lcm2 a b with
      | error e => rw [h1] at h; simp [bind, Except.bind] at h
      | ok w =>
        rw [h1] at h
        rcases List.mem_cons.mp hx with rfl | hx
        · exact (lcm2_ok h1).1
        · exact lcmRest_ok _ w v h x hx

/-- What the set version returns. -/
theorem lcmSet_value {xs : List Int} {v : Int} (h : lcmSet xs = .ok v) (hne : xs ≠ []) : v = lcmAll xs := by
  have hf := lcmSet_ok h
  rw [lcmSet_eq hf hne] at h
  split at h
  · cases h; rfl
  · cases h

end Mx.LcmGcd
