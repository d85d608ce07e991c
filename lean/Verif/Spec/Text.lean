/-
Textual notations, specified independently of the parsers of the model.
-/
namespace Spec

/-- White space characters. -/
@[reducible] def White (c : Char) : Prop := c ∈ [' ', '\t', '\n', '\x0b', '\x0c', '\r']

/-- Decimal digit. -/
@[reducible] def Digit (c : Char) : Prop := '0' ≤ c ∧ c ≤ '9'

/-- The number written by a string of decimal digits, most significant first. -/
def digitsVal : List Char → Nat
  | [] => 0
  | c :: cs => (c.toNat - '0'.toNat) * 10 ^ cs.length + digitsVal cs

/-- `s` is a decimal integer with optional sign and optional surrounding white space, of value `v`. -/
def IntegerText (s : List Char) (v : Int) : Prop :=
  ∃ w₁ sign ds w₂, s = w₁ ++ sign ++ ds ++ w₂ ∧ (∀ c ∈ w₁, White c) ∧ (∀ c ∈ w₂, White c) ∧
    ds ≠ [] ∧ (∀ c ∈ ds, Digit c) ∧
    ((sign = ['-'] ∧ v = -(digitsVal ds : Int)) ∨ ((sign = [] ∨ sign = ['+']) ∧ v = (digitsVal ds : Int)))

/-- Upper case hexadecimal digits in order. -/
def hexDigits : List Char := "0123456789ABCDEF".toList

/-- `s` is the two digit upper case hexadecimal numeral of `v`. -/
def HexByte (s : List Char) (v : Nat) : Prop :=
  ∃ a b, s = [hexDigits[a]!, hexDigits[b]!] ∧ a < 16 ∧ b < 16 ∧ v = 16 * a + b

end Spec
