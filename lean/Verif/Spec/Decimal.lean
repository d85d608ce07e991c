import Verif.Spec.Text
import Mathlib.Algebra.Order.Field.Rat

/-
Decimal numerals, specified independently of the parsers and printers of the model.
-/
namespace Spec

/-- The number written by digits before and after a decimal point. -/
def decimalVal (ip fp : List Char) : ℚ := (digitsVal ip : ℚ) + (digitsVal fp : ℚ) / 10 ^ fp.length

/-- `s` is the canonical decimal numeral of the number `v`: an optional minus sign; a non-empty string of digits without needless leading
zeros; unless `v` is whole, a point and digits of which the last one is not zero.  Zero has no sign. -/
def CanonicalDecimal (s : List Char) (v : ℚ) : Prop :=
  ∃ sign ip fp, s = sign ++ ip ++ (if fp = [] then [] else '.' :: fp) ∧
    ip ≠ [] ∧ (∀ c ∈ ip, Digit c) ∧ (ip.head? = some '0' → ip = ['0']) ∧
    (∀ c ∈ fp, Digit c) ∧ fp.getLast? ≠ some '0' ∧
    ((sign = ['-'] ∧ v = -decimalVal ip fp ∧ v ≠ 0) ∨ (sign = [] ∧ v = decimalVal ip fp))

/-- `s` is a decimal numeral for `v`: optional white space, sign, digits with an optional point (at least one digit), an
optional exponent, white space. -/
def DecimalText (s : List Char) (v : ℚ) : Prop :=
  ∃ w₁ sign ip fp point ex w₂, s = w₁ ++ sign ++ ip ++ point ++ fp ++ ex ++ w₂ ∧
    (∀ c ∈ w₁, White c) ∧ (∀ c ∈ w₂, White c) ∧ (∀ c ∈ ip, Digit c) ∧ (∀ c ∈ fp, Digit c) ∧ ip ++ fp ≠ [] ∧
    (point = ['.'] ∨ (point = [] ∧ fp = [])) ∧
    ∃ e : Int, ((ex = [] ∧ e = 0) ∨
      ∃ c esign es, ex = c :: esign ++ es ∧ (c = 'e' ∨ c = 'E') ∧ es ≠ [] ∧ (∀ c ∈ es, Digit c) ∧
        ((esign = ['-'] ∧ e = -(digitsVal es : Int)) ∨ ((esign = [] ∨ esign = ['+']) ∧ e = (digitsVal es : Int)))) ∧
    ((sign = ['-'] ∧ v = -(decimalVal ip fp * 10 ^ e)) ∨ ((sign = [] ∨ sign = ['+']) ∧ v = decimalVal ip fp * 10 ^ e))

end Spec
