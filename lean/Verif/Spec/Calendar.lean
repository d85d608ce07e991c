/-
The proleptic Gregorian calendar, written independently of the model of Date.cpp.
-/
namespace Spec

/-- Gregorian leap year rule. -/
def Leap (y : Int) : Prop := y % 4 = 0 ∧ (y % 100 ≠ 0 ∨ y % 400 = 0)

instance (y : Int) : Decidable (Leap y) := inferInstanceAs (Decidable (_ ∧ _))

/-- Thirty days hath September, April, June and November ... -/
def monthLength (y m : Int) : Int :=
  if m = 4 ∨ m = 6 ∨ m = 9 ∨ m = 11 then 30
  else if m = 2 then (if Leap y then 29 else 28)
  else 31

/-- A real calendar date with a four digit year. -/
def ValidDate (y m d : Int) : Prop :=
  1 ≤ y ∧ y ≤ 9999 ∧ 1 ≤ m ∧ m ≤ 12 ∧ 1 ≤ d ∧ d ≤ monthLength y m

instance (y m d : Int) : Decidable (ValidDate y m d) := inferInstanceAs (Decidable (_ ∧ _))

/-- Number of days in the years before year `y`, counted from year 1. -/
def daysBeforeYear (y : Int) : Int := 365 * (y - 1) + (y - 1) / 4 - (y - 1) / 100 + (y - 1) / 400

/-- Number of days in the months before month `m` of year `y`. -/
def daysBeforeMonth (y : Int) : Nat → Int
  | 0 => 0
  | n + 1 => daysBeforeMonth y n + (if 1 ≤ n then monthLength y n else 0)

/-- Day number: 0001-01-01 is day 1. -/
def dayNumber (y m d : Int) : Int := daysBeforeYear y + daysBeforeMonth y m.toNat + d

/-- The day number of 9999-12-31. -/
def lastDay : Int := 3652059

end Spec
