import Verif.Model.Date
import Verif.Spec.Calendar
import Verif.Proofs.Text

/-! Helper lemmas for the properties of `Date`. -/
namespace Mx.Date
open Spec

/-- The date is a real calendar date. -/
def Valid (d : Date) : Prop := ValidDate d.year d.month d.day

instance (d : Date) : Decidable d.Valid := inferInstanceAs (Decidable (ValidDate ..))

theorem month_cases {m : Int} (h1 : 1 ≤ m) (h2 : m ≤ 12) :
    m = 1 ∨ m = 2 ∨ m = 3 ∨ m = 4 ∨ m = 5 ∨ m = 6 ∨ m = 7 ∨ m = 8 ∨ m = 9 ∨ m = 10 ∨ m = 11 ∨ m = 12 := by omega

theorem isLeapYear_iff {y : Int} (h1 : 1 ≤ y) (h2 : y ≤ 9999) : isLeapYear y = true ↔ Leap y := by
  unfold isLeapYear Leap
  simp only [Int.tmod_eq_emod_of_nonneg (by omega : 0 ≤ y)]
  rw [if_neg (by omega)]
  split
  · simp; omega
  · split
    · simp; omega
    · split
      · simp; omega
      · simp; omega

theorem daysInMonth_eq {y m : Int} (h1 : 1 ≤ y) (h2 : y ≤ 9999) (h3 : 1 ≤ m) (h4 : m ≤ 12) :
    daysInMonth m y = monthLength y m := by
  have hl := isLeapYear_iff h1 h2
  unfold daysInMonth constrainToRange monthLength MONTHDAYS
  by_cases h : Leap y
  · simp only [hl.mpr h, h, if_true]
    rcases month_cases h3 h4 with rfl | rfl | rfl | rfl | rfl | rfl | rfl | rfl | rfl | rfl | rfl | rfl <;> rfl
  · have : isLeapYear y = false := by
      cases hb : isLeapYear y
      · rfl
      · exact absurd (hl.mp hb) h
    simp only [this, h, if_false]
    rcases month_cases h3 h4 with rfl | rfl | rfl | rfl | rfl | rfl | rfl | rfl | rfl | rfl | rfl | rfl <;> rfl

theorem monthLength_bounds (y m : Int) : 28 ≤ monthLength y m ∧ monthLength y m ≤ 31 := by
  unfold monthLength; split
  · omega
  · split
    · split <;> omega
    · omega

theorem constrain_bounds {v lo hi : Int} (h : lo ≤ hi) :
    lo ≤ constrainToRange v lo hi ∧ constrainToRange v lo hi ≤ hi := by
  unfold constrainToRange; split
  · omega
  · split <;> omega

theorem constrain_id {v lo hi : Int} (h1 : lo ≤ v) (h2 : v ≤ hi) : constrainToRange v lo hi = v := by
  unfold constrainToRange; split
  · omega
  · split <;> omega

/-- year and month are in range. -/
def YM (d : Date) : Prop := 1 ≤ d.year ∧ d.year ≤ 9999 ∧ 1 ≤ d.month ∧ d.month ≤ 12

theorem Valid.ym {d : Date} (h : d.Valid) : YM d := by
  obtain ⟨a, b, c, e, _, _⟩ := h; exact ⟨a, b, c, e⟩

theorem setDay_valid {d : Date} (h : YM d) (v : Int) : (d.setDay v).Valid := by
  obtain ⟨a, b, c, e⟩ := h
  have hm := daysInMonth_eq a b c e
  have hb := monthLength_bounds d.year d.month
  have := constrain_bounds (v := v) (lo := 1) (hi := daysInMonth d.month d.year) (by omega)
  unfold setDay Valid ValidDate
  simp only
  omega

theorem setYear_valid {d : Date} (h : YM d) (v : Int) : (d.setYear v).Valid := by
  obtain ⟨a, b, c, e⟩ := h
  have := constrain_bounds (v := v) (lo := 1) (hi := 9999) (by omega)
  exact setDay_valid (d := { d with year := constrainToRange v 1 9999 }) ⟨this.1, this.2, c, e⟩ _

theorem setMonth_valid {d : Date} (h : YM d) (v : Int) : (d.setMonth v).Valid := by
  obtain ⟨a, b, c, e⟩ := h
  have := constrain_bounds (v := v) (lo := 1) (hi := 12) (by omega)
  exact setDay_valid (d := { d with month := constrainToRange v 1 12 }) ⟨a, b, this.1, this.2⟩ _

theorem init_valid : init.Valid := by decide

theorem make_valid (y m d : Int) : (make y m d).Valid :=
  setDay_valid (setMonth_valid (setYear_valid init_valid.ym _).ym _).ym _

/-- Setting a valid year, month, day in this order gives exactly that date. -/
theorem set3_eq {x : Date} {y m d : Int} (h : ValidDate y m d) :
    ((x.setYear y).setMonth m).setDay d = ⟨y, m, d⟩ := by
  obtain ⟨a, b, c, e, f, g⟩ := h
  have hm := daysInMonth_eq a b c e
  simp only [setYear, setMonth, setDay, constrain_id a b, constrain_id c e]
  rw [constrain_id f (by omega)]

theorem make_of_valid {y m d : Int} (h : ValidDate y m d) : make y m d = ⟨y, m, d⟩ := set3_eq h

theorem isDateValid_iff (y m d : Int) : isDateValid y m d = true ↔ ValidDate y m d := by
  unfold isDateValid ValidDate
  by_cases h : 1 ≤ y ∧ y ≤ 9999 ∧ 1 ≤ m ∧ m ≤ 12
  · obtain ⟨a, b, c, e⟩ := h
    rw [daysInMonth_eq a b c e]
    rw [if_neg (by omega), if_neg (by omega), if_neg (by omega), if_neg (by omega)]
    split
    · simp; omega
    · split
      · simp; omega
      · simp; omega
  · constructor
    · intro hh
      repeat (first | (split at hh; · simp at hh))
      exact absurd ⟨by omega, by omega, by omega, by omega⟩ h
    · intro hh; exact absurd ⟨hh.1, hh.2.1, hh.2.2.1, hh.2.2.2.1⟩ h

theorem setValue_valid {x : Date} (hx : x.Valid) (y m d : Int) : (x.setValue y m d).2.Valid := by
  unfold setValue
  split
  · exact setDay_valid (setMonth_valid (setYear_valid hx.ym _).ym _).ym _
  · exact hx

theorem parse_valid {x : Date} (hx : x.Valid) (s : Str) : (x.parse s).2.Valid := by
  unfold parse
  simp only
  split
  · split
    · split
      · exact setValue_valid hx _ _ _
      · exact hx
    · exact hx
  · exact hx

/-! ### day numbers -/

theorem daysBeforeMonth_values (y : Int) :
    daysBeforeMonth y 1 = 0 ∧ daysBeforeMonth y 2 = 31 ∧
    daysBeforeMonth y 3 = 31 + monthLength y 2 ∧ daysBeforeMonth y 4 = 62 + monthLength y 2 ∧
    daysBeforeMonth y 5 = 92 + monthLength y 2 ∧ daysBeforeMonth y 6 = 123 + monthLength y 2 ∧
    daysBeforeMonth y 7 = 153 + monthLength y 2 ∧ daysBeforeMonth y 8 = 184 + monthLength y 2 ∧
    daysBeforeMonth y 9 = 215 + monthLength y 2 ∧ daysBeforeMonth y 10 = 245 + monthLength y 2 ∧
    daysBeforeMonth y 11 = 276 + monthLength y 2 ∧ daysBeforeMonth y 12 = 306 + monthLength y 2 ∧
    daysBeforeMonth y 13 = 337 + monthLength y 2 := by
  simp [daysBeforeMonth, monthLength]
  omega

theorem feb_eq (y : Int) : monthLength y 2 = if Leap y then 29 else 28 := by simp [monthLength]

/-- dayNumber of the model value. -/
def num (d : Date) : Int := dayNumber d.year d.month d.day

theorem daysBeforeYear_succ (y : Int) : daysBeforeYear (y + 1) = daysBeforeYear y + 337 + monthLength y 2 := by
  rw [feb_eq]; unfold daysBeforeYear
  split <;> rename_i hL <;> unfold Leap at hL <;> omega

theorem daysBeforeMonth_succ {y m : Int} (h1 : 1 ≤ m) :
    daysBeforeMonth y (m + 1).toNat = daysBeforeMonth y m.toNat + monthLength y m := by
  have : (m + 1).toNat = m.toNat + 1 := by omega
  rw [this, daysBeforeMonth]
  rw [if_pos (by omega)]
  congr 1
  congr 1; omega

/-- Strict monotonicity over days, months, years; injectivity. -/
theorem daysBeforeMonth_mono {y : Int} {a b : Nat} (h : a ≤ b) : daysBeforeMonth y a ≤ daysBeforeMonth y b := by
  induction h with
  | refl => exact Int.le_refl _
  | step _ ih =>
    rename_i m _
    rw [daysBeforeMonth]
    have := monthLength_bounds y m
    split <;> omega

theorem dayNumber_lt_nextMonth {y m d : Int} (h : ValidDate y m d) {m' d' : Int} (hm : m < m')
    (hd' : 1 ≤ d') : dayNumber y m d < dayNumber y m' d' := by
  obtain ⟨a, b, c, e, f, g⟩ := h
  unfold dayNumber
  have h1 := daysBeforeMonth_succ (y := y) c
  have h2 : daysBeforeMonth y (m + 1).toNat ≤ daysBeforeMonth y m'.toNat := daysBeforeMonth_mono (by omega)
  omega

theorem dayNumber_le_endOfYear {y m d : Int} (h : ValidDate y m d) : dayNumber y m d ≤ daysBeforeYear (y + 1) := by
  obtain ⟨a, b, c, e, f, g⟩ := h
  unfold dayNumber
  have h1 := daysBeforeMonth_succ (y := y) c
  have h2 : daysBeforeMonth y (m + 1).toNat ≤ daysBeforeMonth y 13 := daysBeforeMonth_mono (by omega)
  have h3 := (daysBeforeMonth_values y).2.2.2.2.2.2.2.2.2.2.2.2
  have h4 := daysBeforeYear_succ y
  omega

theorem daysBeforeYear_mono {a b : Int} (h : a ≤ b) : daysBeforeYear a ≤ daysBeforeYear b := by
  unfold daysBeforeYear; omega

theorem daysBeforeMonth_nonneg (y : Int) (n : Nat) : 0 ≤ daysBeforeMonth y n := by
  have := daysBeforeMonth_mono (y := y) (Nat.zero_le n)
  simpa [daysBeforeMonth] using this

theorem dayNumber_lt_nextYear {y m d : Int} (h : ValidDate y m d) {y' m' d' : Int} (hy : y < y')
    (hd' : 1 ≤ d') : dayNumber y m d < dayNumber y' m' d' := by
  have h1 := dayNumber_le_endOfYear h
  have h2 : daysBeforeYear (y + 1) ≤ daysBeforeYear y' := daysBeforeYear_mono (by omega)
  have h3 := daysBeforeMonth_nonneg y' m'.toNat
  have : dayNumber y' m' d' = daysBeforeYear y' + daysBeforeMonth y' m'.toNat + d' := rfl
  omega

theorem num_bounds {d : Date} (h : d.Valid) : 1 ≤ d.num ∧ d.num ≤ lastDay := by
  constructor
  · obtain ⟨a, b, c, e, f, g⟩ := h
    unfold num dayNumber
    have h3 := daysBeforeMonth_nonneg d.year d.month.toNat
    have h2 : daysBeforeYear 1 ≤ daysBeforeYear d.year := daysBeforeYear_mono a
    have : daysBeforeYear 1 = 0 := by decide
    omega
  · have h1 := dayNumber_le_endOfYear h
    have h2 : daysBeforeYear (d.year + 1) ≤ daysBeforeYear 10000 := daysBeforeYear_mono (by have := h.ym.2.1; omega)
    have : daysBeforeYear 10000 = lastDay := by decide
    have : d.num = dayNumber d.year d.month d.day := rfl
    omega

/-- compare is trichotomous and agrees with the day number. -/
theorem compare_spec {a b : Date} (ha : a.Valid) (hb : b.Valid) :
    (compare a b = 1 ∧ b.num < a.num) ∨ (compare a b = -1 ∧ a.num < b.num) ∨ (compare a b = 0 ∧ a = b) := by
  unfold compare
  unfold num
  split
  · exact .inl ⟨rfl, dayNumber_lt_nextYear hb (by omega) ha.2.2.2.2.1⟩
  · split
    · exact .inr (.inl ⟨rfl, dayNumber_lt_nextYear ha (by omega) hb.2.2.2.2.1⟩)
    · have hy : a.year = b.year := by omega
      split
      · refine .inl ⟨rfl, ?_⟩
        rw [hy]
        exact dayNumber_lt_nextMonth hb (by omega) ha.2.2.2.2.1
      · split
        · refine .inr (.inl ⟨rfl, ?_⟩)
          rw [← hy]
          exact dayNumber_lt_nextMonth ha (by omega) hb.2.2.2.2.1
        · have hm : a.month = b.month := by omega
          split
          · refine .inl ⟨rfl, ?_⟩
            rw [hy, hm]; unfold dayNumber; omega
          · split
            · refine .inr (.inl ⟨rfl, ?_⟩)
              rw [hy, hm]; unfold dayNumber; omega
            · refine .inr (.inr ⟨rfl, ?_⟩)
              cases a; cases b; simp_all; omega

theorem num_inj {a b : Date} (ha : a.Valid) (hb : b.Valid) (h : a.num = b.num) : a = b := by
  rcases compare_spec ha hb with h1 | h1 | h1
  · omega
  · omega
  · exact h1.2

theorem equal_iff {a b : Date} (ha : a.Valid) (hb : b.Valid) : equal a b = true ↔ a = b := by
  unfold equal
  rcases compare_spec ha hb with h1 | h1 | h1
  · rw [h1.1]; simp; rintro rfl; omega
  · rw [h1.1]; simp; rintro rfl; omega
  · rw [h1.1]; simp [h1.2]

/-! ### addDays -/

theorem stepForward_spec {d : Date} (h : d.Valid) :
    (stepForward d = none ∧ d.num = lastDay) ∨
    (∃ d', stepForward d = some d' ∧ d'.Valid ∧ d'.num = d.num + 1) := by
  have hmax : make 9999 12 31 = ⟨9999, 12, 31⟩ := make_of_valid (by decide)
  have hmaxV : (⟨9999, 12, 31⟩ : Date).Valid := by decide
  unfold stepForward
  rw [hmax]
  by_cases he : d = ⟨9999, 12, 31⟩
  · subst he
    left
    exact ⟨by simp [(equal_iff hmaxV hmaxV).mpr rfl], by decide⟩
  · right
    have hne : equal d ⟨9999, 12, 31⟩ = false := by
      cases hb : equal d ⟨9999, 12, 31⟩
      · rfl
      · exact absurd ((equal_iff h hmaxV).mp hb) he
    rw [hne]
    simp only [Bool.false_eq_true, if_false]
    obtain ⟨a, b, c, e, f, g⟩ := id h
    have hdim := daysInMonth_eq a b c e
    split
    · rename_i hmd
      have hy : d.year + 1 ≤ 9999 := by
        rcases Int.lt_or_eq_of_le b with h' | h'
        · omega
        · exfalso; apply he; cases d; simp_all
      have hv : ValidDate (d.year + 1) 1 1 := ⟨by omega, hy, by omega, by omega, by omega, by
        simp [monthLength]⟩
      refine ⟨_, rfl, ?_, ?_⟩
      · rw [set3_eq hv]; exact hv
      · rw [set3_eq hv]
        unfold num dayNumber
        rw [hmd.1, hmd.2, daysBeforeYear_succ]
        have hv := daysBeforeMonth_values d.year
        have hv1 := daysBeforeMonth_values (d.year+1)
        simp only [Int.toNat_one, hv1.1]
        have : (12 : Int).toNat = 12 := rfl
        rw [this, hv.2.2.2.2.2.2.2.2.2.2.2.1]; omega
    · rename_i hmd
      split
      · rename_i hd
        have hm : d.month + 1 ≤ 12 := by
          rcases Int.lt_or_eq_of_le e with h' | h'
          · omega
          · exfalso; apply hmd; refine ⟨h', ?_⟩
            rw [hd, hdim, h']; rfl
        refine ⟨_, rfl, setDay_valid (setMonth_valid h.ym _).ym _, ?_⟩
        have hv : ValidDate d.year (d.month + 1) 1 := ⟨a, b, by omega, hm, by omega, by
          have := monthLength_bounds d.year (d.month + 1); omega⟩
        have hb1 := monthLength_bounds d.year (d.month + 1)
        have : (d.setMonth (d.month + 1)).setDay 1 = ⟨d.year, d.month + 1, 1⟩ := by
          simp only [setMonth, setDay, constrain_id (by omega : 1 ≤ d.month + 1) hm]
          rw [constrain_id (by omega)]
          rw [daysInMonth_eq a b (by omega) hm]; omega
        rw [this]
        unfold num dayNumber
        simp only
        rw [daysBeforeMonth_succ c]
        omega
      · rename_i hd
        refine ⟨_, rfl, setDay_valid h.ym _, ?_⟩
        unfold num dayNumber setDay
        simp only
        rw [constrain_id (by omega) (by omega)]
        omega

theorem stepBackward_spec {d : Date} (h : d.Valid) :
    (stepBackward d = none ∧ d.num = 1) ∨
    (∃ d', stepBackward d = some d' ∧ d'.Valid ∧ d'.num = d.num - 1) := by
  have hmin : make 1 1 1 = ⟨1, 1, 1⟩ := make_of_valid (by decide)
  have hminV : (⟨1, 1, 1⟩ : Date).Valid := by decide
  unfold stepBackward
  rw [hmin]
  by_cases he : d = ⟨1, 1, 1⟩
  · subst he
    left
    exact ⟨by simp [(equal_iff hminV hminV).mpr rfl], by decide⟩
  · right
    have hne : equal d ⟨1, 1, 1⟩ = false := by
      cases hb : equal d ⟨1, 1, 1⟩
      · rfl
      · exact absurd ((equal_iff h hminV).mp hb) he
    rw [hne]
    simp only [Bool.false_eq_true, if_false]
    obtain ⟨a, b, c, e, f, g⟩ := id h
    have hdim := daysInMonth_eq a b c e
    split
    · rename_i hmd
      have hy : 1 ≤ d.year - 1 := by
        rcases Int.lt_or_eq_of_le a with h' | h'
        · omega
        · exfalso; apply he; cases d; simp_all
      have hv : ValidDate (d.year - 1) 12 31 := ⟨by omega, by omega, by omega, by omega, by omega, by
        simp [monthLength]⟩
      refine ⟨_, rfl, ?_, ?_⟩
      · rw [set3_eq hv]; exact hv
      · rw [set3_eq hv]
        unfold num dayNumber
        have hs := daysBeforeYear_succ (d.year - 1)
        rw [Int.sub_add_cancel] at hs
        rw [hmd.1, hmd.2, hs]
        have hv := daysBeforeMonth_values d.year
        have hv1 := daysBeforeMonth_values (d.year - 1)
        simp only [Int.toNat_one, hv.1]
        have : (12 : Int).toNat = 12 := rfl
        rw [this, hv1.2.2.2.2.2.2.2.2.2.2.2.1]; omega
    · rename_i hmd
      split
      · rename_i hd
        have hm : 1 ≤ d.month - 1 := by omega
        have hb1 := monthLength_bounds d.year (d.month - 1)
        refine ⟨_, rfl, setDay_valid (setMonth_valid h.ym _).ym _, ?_⟩
        have : (d.setMonth (d.month - 1)).setDay
            (daysInMonth (d.setMonth (d.month - 1)).month (d.setMonth (d.month - 1)).year)
            = ⟨d.year, d.month - 1, monthLength d.year (d.month - 1)⟩ := by
          simp only [setMonth, setDay, constrain_id hm (by omega : d.month - 1 ≤ 12)]
          rw [daysInMonth_eq a b hm (by omega)]
          rw [constrain_id (by omega) (by omega)]
        rw [this]
        unfold num dayNumber
        simp only
        have := daysBeforeMonth_succ (y := d.year) hm
        rw [Int.sub_add_cancel] at this
        omega
      · rename_i hd
        refine ⟨_, rfl, setDay_valid h.ym _, ?_⟩
        unfold num dayNumber setDay
        simp only
        rw [constrain_id (by omega) (by omega)]
        omega

theorem loopForward_spec (n : Nat) {d : Date} (h : d.Valid) :
    (loop stepForward n d).Valid ∧ (loop stepForward n d).num = min (d.num + n) lastDay := by
  induction n generalizing d with
  | zero => have := num_bounds h; exact ⟨h, by simp [loop]; omega⟩
  | succ n ih =>
    rw [loop]
    rcases stepForward_spec h with ⟨h1, h2⟩ | ⟨d', h1, h2, h3⟩
    · rw [h1]; exact ⟨h, by simp only [h2]; omega⟩
    · rw [h1]
      obtain ⟨i1, i2⟩ := ih h2
      exact ⟨i1, by simp only [i2, h3]; omega⟩

theorem loopBackward_spec (n : Nat) {d : Date} (h : d.Valid) :
    (loop stepBackward n d).Valid ∧ (loop stepBackward n d).num = max (d.num - n) 1 := by
  induction n generalizing d with
  | zero => have := num_bounds h; exact ⟨h, by simp [loop]; omega⟩
  | succ n ih =>
    rw [loop]
    rcases stepBackward_spec h with ⟨h1, h2⟩ | ⟨d', h1, h2, h3⟩
    · rw [h1]; exact ⟨h, by simp only [h2]; omega⟩
    · rw [h1]
      obtain ⟨i1, i2⟩ := ih h2
      exact ⟨i1, by simp only [i2, h3]; omega⟩

theorem addDays_spec {d : Date} (h : d.Valid) (n : Int) :
    (d.addDays n).Valid ∧ (d.addDays n).num = max 1 (min (d.num + n) lastDay) := by
  have hb := num_bounds h
  have hl : lastDay = 3652059 := rfl
  unfold addDays
  split
  · subst_vars; exact ⟨h, by omega⟩
  · split
    · obtain ⟨a, b⟩ := loopForward_spec n.toNat h
      exact ⟨a, by rw [b]; omega⟩
    · obtain ⟨a, b⟩ := loopBackward_spec (-n).toNat h
      exact ⟨a, by rw [b]; omega⟩

/-! ### addMonths, addYears -/

/-- Specification value of addMonths, saturating at the ends of the calendar. -/
theorem setMonth_ym {d : Date} {v : Int} (h1 : 1 ≤ v) (h2 : v ≤ 12) : (d.setMonth v).year = d.year ∧ (d.setMonth v).month = v := by
  unfold setMonth setDay
  simp only [constrain_id h1 h2, and_self]

theorem setYear_ym {d : Date} {v : Int} (h1 : 1 ≤ v) (h2 : v ≤ 9999) : (d.setYear v).year = v ∧ (d.setYear v).month = d.month := by
  unfold setYear setDay
  simp only [constrain_id h1 h2, and_self]

theorem setYear_of_eq {d : Date} (h : d.Valid) {y : Int} (hy : d.year = y) : d.setYear y = d := by
  obtain ⟨a, b, c, e, f, g⟩ := h
  subst hy
  have hdim := daysInMonth_eq a b c e
  unfold setYear setDay
  simp only [constrain_id a b]
  rw [constrain_id f (by omega)]

theorem finish_eq {d : Date} (h : d.Valid) {ny nm : Int} (h1 : 1 ≤ nm) (h2 : nm ≤ 12) :
    (d.setMonth nm).addMonthsFinish ny d.day =
      if ny < 1 then ⟨1, 1, 1⟩ else if ny > 9999 then ⟨9999, 12, 31⟩
      else ⟨ny, nm, min d.day (monthLength ny nm)⟩ := by
  unfold addMonthsFinish
  simp only
  split
  · exact set3_eq (by decide)
  · split
    · exact set3_eq (by decide)
    · have hy1 : 1 ≤ ny := by omega
      have hy2 : ny ≤ 9999 := by omega
      obtain ⟨a, b, c, e, f, g⟩ := id h
      have hm := setMonth_ym (d := d) h1 h2
      have hy := setYear_ym (d := d.setMonth nm) hy1 hy2
      have hb := monthLength_bounds ny nm
      rw [hm.2, daysInMonth_eq hy1 hy2 h1 h2]
      rw [hy.1, hy.2, hm.2]
      have hv : YM ((d.setMonth nm).setYear ny) := ⟨by rw [hy.1]; exact hy1, by rw [hy.1]; exact hy2,
        by rw [hy.2, hm.2]; exact h1, by rw [hy.2, hm.2]; exact h2⟩
      split
      · rw [daysInMonth_eq hy1 hy2 h1 h2]
        rw [setYear_of_eq (setDay_valid hv _) (by show ((d.setMonth nm).setYear ny).year = ny; exact hy.1)]
        unfold setDay
        rw [hy.1, hy.2, hm.2, daysInMonth_eq hy1 hy2 h1 h2, constrain_id (by omega) (by omega)]
        congr 1; omega
      · rw [setYear_of_eq (setDay_valid hv _) (by show ((d.setMonth nm).setYear ny).year = ny; exact hy.1)]
        unfold setDay
        rw [hy.1, hy.2, hm.2, daysInMonth_eq hy1 hy2 h1 h2, constrain_id (by omega) (by omega)]
        congr 1; omega

theorem split_eq {d : Date} (h : d.Valid) {n dir m : Int} (hm0 : 0 ≤ m) (hdir : (dir = 1 ∧ n = m) ∨ (dir = -1 ∧ n = -m)) :
    d.addMonthsSplit dir m =
      ((d.year * 12 + (d.month - 1) + n) / 12, d.setMonth ((d.year * 12 + (d.month - 1) + n) % 12 + 1)) := by
  obtain ⟨a, b, c, e, f, g⟩ := id h
  unfold addMonthsSplit
  simp only [Int.tdiv_eq_ediv_of_nonneg hm0, Int.tmod_eq_emod_of_nonneg hm0]
  rcases hdir with ⟨rfl, rfl⟩ | ⟨rfl, rfl⟩
  · rw [if_neg (by omega), if_neg (by omega)]
    split
    · rw [Int.tmod_eq_emod_of_nonneg (by omega)]
      congr 1
      · omega
      · congr 1; omega
    · congr 1
      · omega
      · congr 1; omega
  · split
    · congr 1
      · omega
      · congr 1; omega
    · split
      · congr 1
        · omega
        · congr 1; omega
      · rw [if_neg (by omega)]
        congr 1
        · omega
        · congr 1; omega

theorem addMonths_eq {d : Date} (h : d.Valid) {n : Int} (hn : INT_MIN < n) (hn2 : n ≤ INT_MAX) :
    d.addMonths n = some (
      let t := d.year * 12 + (d.month - 1) + n
      if t / 12 < 1 then ⟨1, 1, 1⟩ else if t / 12 > 9999 then ⟨9999, 12, 31⟩
      else ⟨t / 12, t % 12 + 1, min d.day (monthLength (t / 12) (t % 12 + 1))⟩) := by
  have hmin : INT_MIN = -2147483648 := rfl
  have hmax : INT_MAX = 2147483647 := rfl
  unfold addMonths
  split
  · have hchk : chk (n * -1) = some (-n) := by
      unfold chk
      rw [if_pos (by unfold InInt; omega)]
      congr 1; omega
    rw [hchk]
    simp only
    rw [split_eq h (n := n) (by omega) (.inr ⟨rfl, by omega⟩)]
    simp only
    rw [finish_eq h (by omega) (by omega)]
  · simp only
    rw [split_eq h (n := n) (by omega) (.inl ⟨rfl, by omega⟩)]
    simp only
    rw [finish_eq h (by omega) (by omega)]

theorem split_valid {d : Date} (h : d.Valid) (dir m : Int) : (d.addMonthsSplit dir m).2.Valid := by
  unfold addMonthsSplit
  simp only
  split
  · exact setMonth_valid h.ym _
  · split
    · exact setMonth_valid h.ym _
    · split
      · exact setMonth_valid h.ym _
      · exact setMonth_valid h.ym _

theorem finish_valid {d : Date} (h : d.Valid) (ny w : Int) : (d.addMonthsFinish ny w).Valid := by
  have hv : ∀ v w, ((d.setYear v).setDay w).Valid := fun v w => setDay_valid (setYear_valid h.ym _).ym _
  unfold addMonthsFinish
  simp only
  generalize he : (if w - daysInMonth d.month ny > 0 then _ else _ : Date) = e
  have he' : e.Valid := by
    rw [← he]; split
    · exact hv _ _
    · exact hv _ _
  split
  · exact setDay_valid (setMonth_valid (setYear_valid he'.ym _).ym _).ym _
  · split
    · exact setDay_valid (setMonth_valid (setYear_valid he'.ym _).ym _).ym _
    · exact setYear_valid he'.ym _

theorem addMonths_valid {d d' : Date} (h : d.Valid) {n : Int} (he : d.addMonths n = some d') : d'.Valid := by
  unfold addMonths at he
  split at he
  · split at he
    · exact absurd he (by simp)
    · simp only [Option.some.injEq] at he
      subst he; exact finish_valid (split_valid h _ _) _ _
  · simp only [Option.some.injEq] at he
    subst he; exact finish_valid (split_valid h _ _) _ _

theorem addYears_valid {d d' : Date} (h : d.Valid) {n : Int} (he : d.addYears n = some d') : d'.Valid := by
  unfold addYears at he
  simp only at he
  split at he
  · exact absurd he (by simp)
  · simp only [Option.some.injEq] at he
    subst he
    split
    · exact setYear_valid (setMonth_valid (setDay_valid h.ym _).ym _).ym _
    · exact setYear_valid h.ym _

theorem step_valid {d d' : Date} (h : d.Valid) {o : Op} (he : d.step o = some d') : d'.Valid := by
  cases o <;> simp only [step, Option.some.injEq] at he
  case setYear v => subst he; exact setYear_valid h.ym _
  case setMonth v => subst he; exact setMonth_valid h.ym _
  case setDay v => subst he; exact setDay_valid h.ym _
  case setValue y m e => subst he; exact setValue_valid h _ _ _
  case parse s => subst he; exact parse_valid h _
  case addDays n => subst he; exact (addDays_spec h n).1
  case addMonths n => exact addMonths_valid h he
  case addYears n => exact addYears_valid h he
  case copy => subst he; exact make_valid _ _ _

/-! ### weekday -/

/-- The tail of Zeller's congruence, as a statement about shifted year `Y` and month `M`. -/
theorem zeller_sum {Y M D : Int} (hY : 0 ≤ Y) (hM1 : 3 ≤ M) (hD : 1 ≤ D) :
    (let k := Y.tmod 100
     let j := Y.tdiv 100
     let h := D + (13 * (M + 1)).tdiv 5 + k + k.tdiv 4 + j.tdiv 4 + 5 * j
     let h := h.tmod 7
     if h = 0 then (7 : Int) else h)
    = (D + 13 * (M + 1) / 5 + 365 * Y + Y / 4 - Y / 100 + Y / 400 - 1) % 7 + 1 := by
  have e1 : Y.tmod 100 = Y - 100 * (Y / 100) := by rw [Int.tmod_eq_emod_of_nonneg hY]; omega
  have e2 : Y.tdiv 100 = Y / 100 := Int.tdiv_eq_ediv_of_nonneg hY
  have e3 : (Y - 100 * (Y / 100)).tdiv 4 = Y / 4 - 25 * (Y / 100) := by
    rw [Int.tdiv_eq_ediv_of_nonneg (by omega)]; omega
  have e4 : (Y / 100).tdiv 4 = Y / 400 := by
    rw [Int.tdiv_eq_ediv_of_nonneg (by omega)]; omega
  have e5 : (13 * (M + 1)).tdiv 5 = 13 * (M + 1) / 5 := Int.tdiv_eq_ediv_of_nonneg (by omega)
  simp only [e1, e2, e3, e4, e5]
  have hq : 0 ≤ Y / 4 - 25 * (Y / 100) := by omega
  have hr : 0 ≤ Y - 100 * (Y / 100) := by omega
  have hs : 0 ≤ Y / 400 := by omega
  have ht : 0 ≤ Y / 100 := by omega
  have hu : 0 ≤ 13 * (M + 1) / 5 := by omega
  generalize Y / 4 = a at *
  generalize Y / 100 = b at *
  generalize Y / 400 = c at *
  generalize 13 * (M + 1) / 5 = e at *
  rw [Int.tmod_eq_emod_of_nonneg (by omega)]
  split <;> omega

theorem getWeekday_eq {d : Date} (h : d.Valid) : d.getWeekday = d.num % 7 + 1 := by
  obtain ⟨a, b, c, e, f, g⟩ := id h
  have hv := daysBeforeMonth_values d.year
  have hs := daysBeforeYear_succ d.year
  have hb : daysBeforeYear d.year = 365 * (d.year - 1) + (d.year - 1) / 4 - (d.year - 1) / 100 + (d.year - 1) / 400 := rfl
  have hb1 : daysBeforeYear (d.year + 1) = 365 * d.year + d.year / 4 - d.year / 100 + d.year / 400 := by
    unfold daysBeforeYear; simp
  have fin : ∀ (M c0 : Int) (n : Nat), 3 ≤ M → d.month = M → d.month.toNat = n →
      daysBeforeMonth d.year n = c0 + monthLength d.year 2 → 13 * (M + 1) / 5 + 336 - c0 = 7 * ((13 * (M + 1) / 5 + 336 - c0) / 7) →
      d.getWeekday = d.num % 7 + 1 := by
    intro M c0 n hM hm hn hc hmod
    unfold getWeekday num dayNumber
    rw [hn, hc]
    simp only [hm, show ¬ (M = 1) from by omega, show ¬ (M = 2) from by omega, if_false]
    rw [zeller_sum (by omega) hM f]
    have e : d.day + 13 * (M + 1) / 5 + 365 * d.year + d.year / 4 - d.year / 100 + d.year / 400 - 1
        = daysBeforeYear d.year + (c0 + monthLength d.year 2) + d.day + 7 * ((13 * (M + 1) / 5 + 336 - c0) / 7) := by
      clear hv hb hn hc
      rw [← hmod]
      generalize 13 * (M + 1) / 5 = z
      rw [hb1] at hs
      omega
    rw [e, Int.add_mul_emod_self_left]
  rcases month_cases c e with hm | hm | hm | hm | hm | hm | hm | hm | hm | hm | hm | hm
  · unfold getWeekday num dayNumber
    simp only [hm, if_true, show ¬ ((13:Int) = 2) from by decide, if_false]
    rw [zeller_sum (by omega) (by omega) f]
    rw [show (1 : Int).toNat = 1 from rfl, hv.1, hb]
    omega
  · unfold getWeekday num dayNumber
    simp only [hm, show ¬ ((2:Int) = 1) from by decide, if_false, if_true]
    rw [zeller_sum (by omega) (by omega) f]
    rw [show (2 : Int).toNat = 2 from rfl, hv.2.1, hb]
    omega
  · exact fin 3 31 3 (by decide) hm (by rw [hm]; rfl) hv.2.2.1 (by decide)
  · exact fin 4 62 4 (by decide) hm (by rw [hm]; rfl) hv.2.2.2.1 (by decide)
  · exact fin 5 92 5 (by decide) hm (by rw [hm]; rfl) hv.2.2.2.2.1 (by decide)
  · exact fin 6 123 6 (by decide) hm (by rw [hm]; rfl) hv.2.2.2.2.2.1 (by decide)
  · exact fin 7 153 7 (by decide) hm (by rw [hm]; rfl) hv.2.2.2.2.2.2.1 (by decide)
  · exact fin 8 184 8 (by decide) hm (by rw [hm]; rfl) hv.2.2.2.2.2.2.2.1 (by decide)
  · exact fin 9 215 9 (by decide) hm (by rw [hm]; rfl) hv.2.2.2.2.2.2.2.2.1 (by decide)
  · exact fin 10 245 10 (by decide) hm (by rw [hm]; rfl) hv.2.2.2.2.2.2.2.2.2.1 (by decide)
  · exact fin 11 276 11 (by decide) hm (by rw [hm]; rfl) hv.2.2.2.2.2.2.2.2.2.2.1 (by decide)
  · exact fin 12 306 12 (by decide) hm (by rw [hm]; rfl) hv.2.2.2.2.2.2.2.2.2.2.2.1 (by decide)

/-! ### text -/

theorem showInt_nonneg {x : Int} (h : 0 ≤ x) : showInt x = Nat.toDigits 10 x.toNat := by
  unfold showInt
  rw [if_neg (by omega)]
  congr 1; omega

theorem zeroPad_eq {x : Int} (h : 0 ≤ x) (w : Nat) :
    zeroPad x w = List.replicate (w - (Nat.toDigits 10 x.toNat).length) '0' ++ Nat.toDigits 10 x.toNat := by
  unfold zeroPad; rw [showInt_nonneg h]

theorem zeroPad_props {x : Int} {w : Nat} (hw : 0 < w) (h0 : 0 ≤ x) (h1 : x < 10 ^ w) :
    (zeroPad x w).length = w ∧ (∀ c ∈ zeroPad x w, c.isDigit) ∧ (Nat.ofDigitChars 10 (zeroPad x w) 0 : Int) = x := by
  rw [zeroPad_eq h0]
  have hl : (Nat.toDigits 10 x.toNat).length ≤ w :=
    (Nat.length_toDigits_le_iff (by decide) hw).mpr (by
      have : ((x.toNat : Nat) : Int) < ((10 ^ w : Nat) : Int) := by
        rw [Int.toNat_of_nonneg h0]; push_cast; exact h1
      exact Int.ofNat_lt.mp this)
  refine ⟨by simp; omega, ?_, ?_⟩
  · intro c hc
    rcases List.mem_append.mp hc with hc | hc
    · rw [(List.mem_replicate.mp hc).2]; decide
    · exact toDigits_isDigit c hc
  · rw [Nat.ofDigitChars_append]; simp; omega

theorem readInt_zeroPad {x : Int} {w : Nat} (hw : 0 < w) (h0 : 0 ≤ x) (h1 : x < 10 ^ w) (h2 : x ≤ INT_MAX) (o : Int) :
    (readInt o (zeroPad x w)).value = x := by
  obtain ⟨a, b, c⟩ := zeroPad_props hw h0 h1
  have hne : zeroPad x w ≠ [] := by intro h; rw [h] at a; simp at a; omega
  have := readInt_digits (old := o) (ds := zeroPad x w) (r := []) hne b (by simp) (by rw [c]; exact h2)
  rw [List.append_nil] at this
  rw [this]; exact c

/-- A string passes the format test iff it has the shape `dddd-dd-dd`. -/
theorem isStringFormatValid_iff (s : Str) : isStringFormatValid s = true ↔
    ∃ Y M D : Str, s = Y ++ ['-'] ++ M ++ ['-'] ++ D ∧ Y.length = 4 ∧ M.length = 2 ∧ D.length = 2 ∧
      (∀ c ∈ Y, c.isDigit) ∧ (∀ c ∈ M, c.isDigit) ∧ (∀ c ∈ D, c.isDigit) := by
  constructor
  · intro h
    unfold isStringFormatValid at h
    split at h
    · simp at h
    · rename_i hl
      simp only [ne_eq, Decidable.not_not] at hl
      match s, hl, h with
      | [c0, c1, c2, c3, c4, c5, c6, c7, c8, c9], _, h =>
        simp [formatCharOk, List.zipIdx] at h
        obtain ⟨h0, h1, h2, h3, h4, h5, h6, h7, h8, h9⟩ := h
        refine ⟨[c0, c1, c2, c3], [c5, c6], [c8, c9], ?_, rfl, rfl, rfl, ?_, ?_, ?_⟩
        · simp [h4, h7]
        · intro c hc; simp at hc; rcases hc with rfl | rfl | rfl | rfl <;> assumption
        · intro c hc; simp at hc; rcases hc with rfl | rfl <;> assumption
        · intro c hc; simp at hc; rcases hc with rfl | rfl <;> assumption
  · rintro ⟨Y, M, D, rfl, hY, hM, hD, dY, dM, dD⟩
    match Y, hY, M, hM, D, hD with
    | [c0, c1, c2, c3], _, [c5, c6], _, [c8, c9], _ =>
      simp at dY dM dD
      simp [isStringFormatValid, formatCharOk, List.zipIdx, dY, dM, dD]

theorem zeroPad_ofDigits {ds : Str} (hne : ds ≠ []) (hd : ∀ c ∈ ds, c.isDigit) :
    zeroPad (Nat.ofDigitChars 10 ds 0 : Int) ds.length = ds := by
  rw [zeroPad_eq (by omega)]
  simp only [Int.toNat_natCast]
  exact pad_ofDigitChars hne hd

theorem toStr_format {d : Date} (h : d.Valid) : isStringFormatValid d.toStr = true := by
  obtain ⟨a, b, c, e, f, g⟩ := id h
  have hb := monthLength_bounds d.year d.month
  obtain ⟨y1, y2, y3⟩ := zeroPad_props (x := d.year) (w := 4) (by decide) (by omega) (by omega)
  obtain ⟨m1, m2, m3⟩ := zeroPad_props (x := d.month) (w := 2) (by decide) (by omega) (by omega)
  obtain ⟨d1, d2, d3⟩ := zeroPad_props (x := d.day) (w := 2) (by decide) (by omega) (by omega)
  exact (isStringFormatValid_iff _).mpr ⟨_, _, _, rfl, y1, m1, d1, y2, m2, d2⟩

theorem parse_shape {x : Date} {Y M D : Str} (hY : Y.length = 4) (hM : M.length = 2) (hD : D.length = 2)
    (dY : ∀ c ∈ Y, c.isDigit) (dM : ∀ c ∈ M, c.isDigit) (dD : ∀ c ∈ D, c.isDigit) :
    x.parse (Y ++ ['-'] ++ M ++ ['-'] ++ D) =
      (let y : Int := Nat.ofDigitChars 10 Y 0
       let m : Int := Nat.ofDigitChars 10 M 0
       let d : Int := Nat.ofDigitChars 10 D 0
       if ValidDate y m d then (true, ⟨y, m, d⟩) else (false, x)) := by
  have hf : isStringFormatValid (Y ++ ['-'] ++ M ++ ['-'] ++ D) = true :=
    (isStringFormatValid_iff _).mpr ⟨Y, M, D, rfl, hY, hM, hD, dY, dM, dD⟩
  have t1 : (Y ++ ['-'] ++ M ++ ['-'] ++ D).take 4 = Y := by
    rw [← hY]; simp
  have t2 : ((Y ++ ['-'] ++ M ++ ['-'] ++ D).drop 5).take 2 = M := by
    have : (Y ++ ['-'] ++ M ++ ['-'] ++ D) = (Y ++ ['-']) ++ (M ++ (['-'] ++ D)) := by simp
    rw [this, List.drop_append_of_le_length (by simp [hY]), List.drop_of_length_le (by simp [hY])]
    rw [← hM]; simp
  have t3 : ((Y ++ ['-'] ++ M ++ ['-'] ++ D).drop 8).take 2 = D := by
    have : (Y ++ ['-'] ++ M ++ ['-'] ++ D) = (Y ++ ['-'] ++ M ++ ['-']) ++ D := by simp
    rw [this, List.drop_append_of_le_length (by simp [hY, hM]), List.drop_of_length_le (by simp [hY, hM])]
    rw [← hD]; simp
  have rd : ∀ ds : Str, ds.length ≤ 4 → ds ≠ [] → (∀ c ∈ ds, c.isDigit) → (readInt (-1) ds).value = Nat.ofDigitChars 10 ds 0 := by
    intro ds hl hne hd
    have hlt := ofDigitChars_lt hd
    have : 10 ^ ds.length ≤ 10 ^ 4 := Nat.pow_le_pow_right (by decide) hl
    have := readInt_digits (old := -1) (ds := ds) (r := []) hne hd (by simp) (by unfold INT_MAX; omega)
    rw [List.append_nil] at this
    rw [this]
  have ne : ∀ (ds : Str) n, ds.length = n + 1 → ds ≠ [] := by
    rintro ds n h rfl; simp at h
  unfold parse
  simp only [hf, if_true, parseStringYear, parseStringMonth, parseStringDay, t1, t2, t3]
  rw [rd Y (by omega) (ne _ _ hY) dY, rd M (by omega) (ne _ _ hM) dM, rd D (by omega) (ne _ _ hD) dD]
  generalize (Nat.ofDigitChars 10 Y 0 : Int) = y
  generalize (Nat.ofDigitChars 10 M 0 : Int) = m
  generalize (Nat.ofDigitChars 10 D 0 : Int) = d
  simp only [Bool.and_eq_true, decide_eq_true_eq]
  by_cases hv : ValidDate y m d
  · obtain ⟨a, b, c, e, f, g⟩ := id hv
    have hdim := daysInMonth_eq a b c e
    have hb := monthLength_bounds y m
    rw [if_pos (by omega), if_pos (by omega), if_pos hv]
    unfold setValue
    rw [if_pos ((isDateValid_iff _ _ _).mpr hv), set3_eq hv]
  · rw [if_neg hv]
    split
    · rename_i hr
      obtain ⟨⟨⟨a, b⟩, c, e⟩, f, g⟩ := hr
      rw [if_neg]
      rw [daysInMonth_eq a b c e]
      intro hle
      exact hv ⟨a, b, c, e, f, hle⟩
    · rfl

theorem parse_toStr {x d : Date} (h : d.Valid) : x.parse d.toStr = (true, d) := by
  obtain ⟨a, b, c, e, f, g⟩ := id h
  have hb := monthLength_bounds d.year d.month
  obtain ⟨y1, y2, y3⟩ := zeroPad_props (x := d.year) (w := 4) (by decide) (by omega) (by omega)
  obtain ⟨m1, m2, m3⟩ := zeroPad_props (x := d.month) (w := 2) (by decide) (by omega) (by omega)
  obtain ⟨d1, d2, d3⟩ := zeroPad_props (x := d.day) (w := 2) (by decide) (by omega) (by omega)
  unfold toStr
  rw [parse_shape y1 m1 d1 y2 m2 d2]
  simp only [y3, m3, d3]
  exact if_pos h

theorem parse_of_not_format {x : Date} {s : Str} (h : ¬ ∃ d : Date, d.Valid ∧ s = d.toStr) :
    x.parse s = (false, x) := by
  by_cases hf : isStringFormatValid s = true
  · obtain ⟨Y, M, D, rfl, hY, hM, hD, dY, dM, dD⟩ := (isStringFormatValid_iff _).mp hf
    rw [parse_shape hY hM hD dY dM dD]
    simp only
    split
    · rename_i hv
      exfalso
      apply h
      refine ⟨⟨_, _, _⟩, hv, ?_⟩
      unfold toStr
      simp only
      have ne : ∀ (ds : Str) n, ds.length = n + 1 → ds ≠ [] := by
        rintro ds n h rfl; simp at h
      have z1 := zeroPad_ofDigits (ne _ _ hY) dY
      have z2 := zeroPad_ofDigits (ne _ _ hM) dM
      have z3 := zeroPad_ofDigits (ne _ _ hD) dD
      rw [hY] at z1; rw [hM] at z2; rw [hD] at z3
      rw [z1, z2, z3]
    · rfl
  · unfold parse
    rw [if_neg hf]

end Mx.Date
