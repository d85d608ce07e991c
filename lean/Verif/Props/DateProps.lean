import Verif.Proofs.Date

/-!
# Properties C11 – C14: dates

Specification: `Verif/Spec/Calendar.lean` (Gregorian calendar, day numbers).
-/
namespace Mx.Props
open Spec Mx

/-- **C11** A `Date` is a real calendar date after any construction and any history of operations
with arbitrary arguments; the only exception is a history that runs into signed overflow, in which
case there is no result (`run` is `none`). -/
theorem C11_date_always_valid (c : Date.Ctor) (ops : List Date.Op) (d : Date)
    (h : (Date.construct c).run ops = some d) : ValidDate d.year d.month d.day := by
  have hc : (Date.construct c).Valid := by
    cases c with
    | default => exact Date.init_valid
    | ymd y m e => exact Date.make_valid y m e
    | str s => exact Date.parse_valid Date.init_valid s
  generalize Date.construct c = x at h hc
  induction ops generalizing x with
  | nil => simp only [Date.run, Option.some.injEq] at h; subst h; exact hc
  | cons o os ih =>
    simp only [Date.run] at h
    split at h
    · exact absurd h (by simp)
    · rename_i x' hx
      exact ih x' h (Date.step_valid hc hx)

/-- a non-trivial history: start on Feb 30 (clamped), go back a day, add 13 months, add -3 years -/
example : (Date.construct (.ymd 2024 2 30)).run [.addDays (-1), .addMonths 13, .addYears (-3), .parse "x".toList]
    = some ⟨2022, 3, 28⟩ := by decide

/-- **C11** Undefined behaviour can occur only in `addYears` beyond the `int` range and in `addMonths(INT_MIN)`:
every other operation on a valid date with `int` arguments has a result. -/
theorem C11_date_overflow_only (d : Date) (o : Date.Op) (hd : ValidDate d.year d.month d.day)
    (hint : match o with
      | .addMonths n => InInt n ∧ n ≠ INT_MIN
      | .addYears n => n ≤ INT_MAX - 9999 ∧ INT_MIN ≤ n
      | _ => True) : (d.step o).isSome := by
  cases o <;> simp only [Date.step] at *
  case setYear => rfl
  case setMonth => rfl
  case setDay => rfl
  case setValue => rfl
  case parse => rfl
  case addDays => rfl
  case copy => rfl
  case addMonths n =>
    rw [Date.addMonths_eq hd (by unfold InInt at hint; omega) hint.1.2]; rfl
  case addYears n =>
    unfold Date.addYears chk
    obtain ⟨a, b, _⟩ := hd
    have h1 : INT_MIN = -2147483648 := rfl
    have h2 : INT_MAX = 2147483647 := rfl
    rw [if_pos (by unfold InInt; omega)]
    rfl

example : ((⟨2000, 2, 29⟩ : Date).step (.addYears 2147473648)).isSome ∧ ((⟨2000, 2, 29⟩ : Date).step (.addYears INT_MAX)) = none := by
  decide

/-- **C11** Setters keep in-range values and otherwise use the nearest legal value; the day is reduced to the
last day of the month when necessary. -/
theorem C11_constructor_exact (y m d : Int) (h : ValidDate y m d) :
    let x := Date.make y m d
    x.year = y ∧ x.month = m ∧ x.day = d := by
  simp [Date.make_of_valid h]

example : ValidDate 2000 2 29 ∧ ¬ ValidDate 1900 2 29 := by decide

/-- **C12** `addDays n` goes to the date whose day number is `n` larger, saturating at
0001-01-01 (day 1) and 9999-12-31 (day 3652059). -/
theorem C12_addDays (d : Date) (h : ValidDate d.year d.month d.day) (n : Int) :
    let e := d.addDays n
    ValidDate e.year e.month e.day ∧
      dayNumber e.year e.month e.day = max 1 (min (dayNumber d.year d.month d.day + n) lastDay) :=
  Date.addDays_spec h n

/-- **C12** The day number determines the date, so `C12_addDays` leaves no freedom. -/
theorem C12_dayNumber_injective (y m d y' m' d' : Int) (h : ValidDate y m d) (h' : ValidDate y' m' d')
    (e : dayNumber y m d = dayNumber y' m' d') : y = y' ∧ m = m' ∧ d = d' := by
  have := Date.num_inj (a := ⟨y, m, d⟩) (b := ⟨y', m', d'⟩) h h' e
  simpa using this

example : ((⟨1999, 12, 31⟩ : Date).addDays 60) = ⟨2000, 2, 29⟩ ∧ dayNumber 2000 2 29 = dayNumber 1999 12 31 + 60 := by
  decide

/-- **C12** Going `n` days and back returns to the same date, as long as the calendar is not left. -/
theorem C12_addDays_inverse (d : Date) (h : ValidDate d.year d.month d.day) (n : Int)
    (lo : 1 ≤ dayNumber d.year d.month d.day + n) (hi : dayNumber d.year d.month d.day + n ≤ lastDay) :
    (d.addDays n).addDays (-n) = d := by
  obtain ⟨v1, n1⟩ := Date.addDays_spec h n
  obtain ⟨v2, n2⟩ := Date.addDays_spec v1 (-n)
  apply Date.num_inj v2 h
  have hb := Date.num_bounds h
  have hn : d.num = dayNumber d.year d.month d.day := rfl
  rw [n2, n1]
  omega

example : let d : Date := ⟨2000, 2, 28⟩
    1 ≤ dayNumber d.year d.month d.day + 400 ∧ dayNumber d.year d.month d.day + 400 ≤ lastDay := by decide

/-- **C12** Adding days is additive within the calendar: `addDays a` then `addDays b` is `addDays (a+b)`. -/
theorem C12_addDays_add (d : Date) (h : ValidDate d.year d.month d.day) (a b : Int)
    (lo : 1 ≤ dayNumber d.year d.month d.day + a) (hi : dayNumber d.year d.month d.day + a ≤ lastDay) :
    (d.addDays a).addDays b = d.addDays (a + b) := by
  obtain ⟨v1, n1⟩ := Date.addDays_spec h a
  obtain ⟨v2, n2⟩ := Date.addDays_spec v1 b
  obtain ⟨v3, n3⟩ := Date.addDays_spec h (a + b)
  apply Date.num_inj v2 v3
  have hn : d.num = dayNumber d.year d.month d.day := rfl
  rw [n2, n1, n3]
  omega

/-- **C12** The weekday (1 = Sunday ... 7 = Saturday) is the day number modulo 7; 0001-01-01 was a Monday. -/
theorem C12_weekday (d : Date) (h : ValidDate d.year d.month d.day) :
    d.getWeekday = dayNumber d.year d.month d.day % 7 + 1 :=
  Date.getWeekday_eq h

/-- 2000-02-29 was a Tuesday -/
example : (⟨2000, 2, 29⟩ : Date).getWeekday = 3 ∧ (⟨1, 1, 1⟩ : Date).getWeekday = 2 := by decide

/-- **C12** `addMonths n`: count months from year 0; the day is cut to the length of the target month;
outside the calendar the result saturates. -/
theorem C12_addMonths (d : Date) (h : ValidDate d.year d.month d.day) (n : Int) (hn : InInt n) (hn' : n ≠ INT_MIN) :
    let t := d.year * 12 + (d.month - 1) + n
    let y := t / 12
    let m := t % 12 + 1
    d.addMonths n = some (if y < 1 then ⟨1, 1, 1⟩ else if y > 9999 then ⟨9999, 12, 31⟩
      else ⟨y, m, min d.day (monthLength y m)⟩) :=
  Date.addMonths_eq h (by unfold InInt at hn; omega) hn.2

example : (⟨2023, 12, 31⟩ : Date).addMonths (-22) = some ⟨2022, 2, 28⟩ := by decide

/-- **C12** `addYears n`: February 29 becomes March 1 when the target year is not a leap year; the year saturates. -/
theorem C12_addYears (d : Date) (h : ValidDate d.year d.month d.day) (n : Int) (hn : InInt (d.year + n)) :
    d.addYears n = some (
      let y := d.year + n
      let y' := max 1 (min y 9999)
      if d.month = 2 ∧ d.day = 29 ∧ ¬ (1 ≤ y ∧ y ≤ 9999 ∧ Leap y) then ⟨y', 3, 1⟩ else ⟨y', d.month, d.day⟩) := by
  obtain ⟨a, b, c, e, f, g⟩ := id h
  have hcy : ∀ v : Int, Date.constrainToRange v 1 9999 = max 1 (min v 9999) := by
    intro v; unfold Date.constrainToRange; split
    · omega
    · split <;> omega
  have hlb := Date.monthLength_bounds
  have hleap : Date.isLeapYear (d.year + n) = true ↔ (1 ≤ d.year + n ∧ d.year + n ≤ 9999 ∧ Leap (d.year + n)) := by
    by_cases hr : 1 ≤ d.year + n ∧ d.year + n ≤ 9999
    · rw [Date.isLeapYear_iff hr.1 hr.2]; simp [hr.1, hr.2]
    · constructor
      · intro hh; unfold Date.isLeapYear at hh; rw [if_pos (by omega)] at hh; simp at hh
      · intro hh; exact absurd ⟨hh.1, hh.2.1⟩ hr
  unfold Date.addYears chk
  rw [if_pos hn]
  simp only [hleap]
  congr 1
  split
  · rename_i hc
    simp only [Date.setDay, Date.setMonth, Date.setYear, hcy]
    have e1 : Date.constrainToRange 3 1 12 = 3 := rfl
    have e2 : ∀ y : Int, 1 ≤ y → y ≤ 9999 → ∀ m : Int, 1 ≤ m → m ≤ 12 → Date.constrainToRange 1 1 (Date.daysInMonth m y) = 1 := by
      intro y h1 h2 m h3 h4
      rw [Date.daysInMonth_eq h1 h2 h3 h4]
      have := hlb y m
      exact Date.constrain_id (by omega) (by omega)
    rw [e1, e2 d.year a b d.month c e, e2 d.year a b 3 (by omega) (by omega), e2 _ (by omega) (by omega) 3 (by omega) (by omega)]
  · rename_i hc
    simp only [Date.setDay, Date.setYear, hcy]
    rw [Date.daysInMonth_eq (by omega) (by omega) c e, Date.constrain_id f]
    -- the day still fits
    have key : ∀ y' : Int, (d.month = 2 ∧ d.day = 29 → Leap y') → d.day ≤ monthLength y' d.month := by
      intro y' hL
      unfold monthLength at g ⊢
      by_cases h30 : d.month = 4 ∨ d.month = 6 ∨ d.month = 9 ∨ d.month = 11
      · simp only [h30, if_true] at g ⊢; exact g
      · simp only [h30, if_false] at g ⊢
        by_cases h2 : d.month = 2
        · simp only [h2, if_true] at g ⊢
          by_cases h29 : d.day = 29
          · rw [if_pos (hL ⟨h2, h29⟩)]; omega
          · split at g <;> split <;> omega
        · simp only [h2, if_false] at g ⊢; exact g
    apply key
    rintro ⟨h2, h29⟩
    by_cases hq : 1 ≤ d.year + n ∧ d.year + n ≤ 9999 ∧ Leap (d.year + n)
    · have : max 1 (min (d.year + n) 9999) = d.year + n := by omega
      rw [this]; exact hq.2.2
    · exact absurd ⟨h2, h29, hq⟩ hc

example : (⟨2000, 2, 29⟩ : Date).addYears (-100) = some ⟨1900, 3, 1⟩ ∧ InInt (2000 + -100) := by decide

/-- **C13** The text of every valid date is read back, whatever value the target held before. -/
theorem C13_parse_toString (d old : Date) (h : ValidDate d.year d.month d.day) :
    old.parse d.toStr = (true, d) :=
  Date.parse_toStr h

/-- **C13** Parsing accepts exactly the texts of valid dates; anything else is refused and leaves the value unchanged. -/
theorem C13_parse_iff (s : Str) (old : Date) :
    (∃ d : Date, ValidDate d.year d.month d.day ∧ s = d.toStr ∧ old.parse s = (true, d)) ∨
    ((¬ ∃ d : Date, ValidDate d.year d.month d.day ∧ s = d.toStr) ∧ old.parse s = (false, old)) := by
  by_cases h : ∃ d : Date, d.Valid ∧ s = d.toStr
  · obtain ⟨d, hd, rfl⟩ := h
    exact .inl ⟨d, hd, rfl, Date.parse_toStr hd⟩
  · exact .inr ⟨h, Date.parse_of_not_format h⟩

/-- **C13** The text is four digits, dash, two digits, dash, two digits, and the digit groups are the decimal numerals of the fields. -/
theorem C13_toString_shape (d : Date) (h : ValidDate d.year d.month d.day) :
    ∃ Y M D : Str, d.toStr = Y ++ ['-'] ++ M ++ ['-'] ++ D ∧ Y.length = 4 ∧ M.length = 2 ∧ D.length = 2 ∧
      (∀ c ∈ Y ++ M ++ D, c.isDigit) ∧
      (Nat.ofDigitChars 10 Y 0 : Int) = d.year ∧ (Nat.ofDigitChars 10 M 0 : Int) = d.month ∧
      (Nat.ofDigitChars 10 D 0 : Int) = d.day := by
  obtain ⟨a, b, c, e, f, g⟩ := id h
  have hb := Date.monthLength_bounds d.year d.month
  obtain ⟨y1, y2, y3⟩ := Date.zeroPad_props (x := d.year) (w := 4) (by decide) (by omega) (by omega)
  obtain ⟨m1, m2, m3⟩ := Date.zeroPad_props (x := d.month) (w := 2) (by decide) (by omega) (by omega)
  obtain ⟨d1, d2, d3⟩ := Date.zeroPad_props (x := d.day) (w := 2) (by decide) (by omega) (by omega)
  refine ⟨_, _, _, rfl, y1, m1, d1, ?_, y3, m3, d3⟩
  intro x hx
  rcases List.mem_append.mp hx with hx | hx
  · rcases List.mem_append.mp hx with hx | hx
    · exact y2 x hx
    · exact m2 x hx
  · exact d2 x hx

example : (⟨987, 6, 5⟩ : Date).toStr = "0987-06-05".toList ∧ Date.init.parse "0987-06-05".toList = (true, ⟨987, 6, 5⟩)
    ∧ Date.init.parse "1900-02-29".toList = (false, Date.init) := by decide

/-- **C14** The six comparison operators agree with the order of day numbers. -/
theorem C14_comparisons (a b : Date) (ha : ValidDate a.year a.month a.day) (hb : ValidDate b.year b.month b.day) :
    let na := dayNumber a.year a.month a.day
    let nb := dayNumber b.year b.month b.day
    (a.lessThan b = true ↔ na < nb) ∧ (a.lessThanOrEqual b = true ↔ na ≤ nb) ∧
    (a.greaterThan b = true ↔ nb < na) ∧ (a.greaterThanOrEqual b = true ↔ nb ≤ na) ∧
    (a.equal b = true ↔ a = b) ∧ (a.notEqual b = true ↔ a ≠ b) := by
  have he := Date.equal_iff (a := a) (b := b) ha hb
  have hne : a.notEqual b = !(a.equal b) := by simp [Date.notEqual, Date.equal]
  have key := Date.compare_spec (a := a) (b := b) ha hb
  unfold Date.num at key
  have hq : a = b → dayNumber a.year a.month a.day = dayNumber b.year b.month b.day := by rintro rfl; rfl
  simp only [Date.lessThan, Date.lessThanOrEqual, Date.greaterThan, Date.greaterThanOrEqual, decide_eq_true_eq]
  refine ⟨?_, ?_, ?_, ?_, he, ?_⟩
  · rcases key with k | k | ⟨k, k'⟩ <;> first | (rw [k.1]; omega) | (have := hq k'; omega)
  · rcases key with k | k | ⟨k, k'⟩ <;> first | (rw [k.1]; omega) | (have := hq k'; omega)
  · rcases key with k | k | ⟨k, k'⟩ <;> first | (rw [k.1]; omega) | (have := hq k'; omega)
  · rcases key with k | k | ⟨k, k'⟩ <;> first | (rw [k.1]; omega) | (have := hq k'; omega)
  · rw [hne]; simp only [Bool.not_eq_true', ne_eq]
    rw [← he]; simp

/-- **C14** Hence `<` is a strict total order: irreflexive, transitive, trichotomous. -/
theorem C14_total_order (a b c : Date) (ha : ValidDate a.year a.month a.day) (hb : ValidDate b.year b.month b.day)
    (hc : ValidDate c.year c.month c.day) :
    a.lessThan a = false ∧ (a.lessThan b = true → b.lessThan c = true → a.lessThan c = true) ∧
    (a.lessThan b = true ∨ a = b ∨ b.lessThan a = true) := by
  obtain ⟨ab, -, -, -, -, -⟩ := C14_comparisons a b ha hb
  obtain ⟨bc, -, -, -, -, -⟩ := C14_comparisons b c hb hc
  obtain ⟨ac, -, -, -, -, -⟩ := C14_comparisons a c ha hc
  obtain ⟨aa, -, -, -, -, -⟩ := C14_comparisons a a ha ha
  obtain ⟨ba, -, -, -, -, -⟩ := C14_comparisons b a hb ha
  refine ⟨?_, ?_, ?_⟩
  · cases h : a.lessThan a
    · rfl
    · have := aa.mp h; omega
  · intro h1 h2; rw [ac]; have := ab.mp h1; have := bc.mp h2; omega
  · rw [ab, ba]
    by_cases h : a = b
    · exact .inr (.inl h)
    · rcases Int.lt_trichotomy (dayNumber a.year a.month a.day) (dayNumber b.year b.month b.day) with h' | h' | h'
      · exact .inl h'
      · exact absurd (Date.num_inj ha hb h') h
      · exact .inr (.inr h')

example : (⟨1999, 12, 31⟩ : Date).lessThan ⟨2000, 1, 1⟩ = true ∧ ValidDate 1999 12 31 ∧ ValidDate 2000 1 1 := by decide

#print axioms C11_date_always_valid
#print axioms C11_date_overflow_only
#print axioms C11_constructor_exact
#print axioms C12_addDays
#print axioms C12_dayNumber_injective
#print axioms C12_addDays_inverse
#print axioms C12_addDays_add
#print axioms C12_weekday
#print axioms C12_addMonths
#print axioms C12_addYears
#print axioms C13_parse_toString
#print axioms C13_parse_iff
#print axioms C13_toString_shape
#print axioms C14_comparisons
#print axioms C14_total_order
end Mx.Props
