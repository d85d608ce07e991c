import Verif.Spec.Text
import Mathlib.Data.List.SplitOn

/-
Words, tokens, names and comma separated lists.
-/
namespace Spec

/-- The words of a text: the maximal pieces without white space. -/
def words (s : List Char) : List (List Char) := (s.splitOnP (fun c => decide (White c))).filter (fun w => decide (w ≠ []))

/-- Texts joined by a separator. -/
def joined (sep : List Char) : List (List Char) → List Char
  | [] => []
  | [x] => x
  | x :: xs => x ++ sep ++ joined sep xs

/-- White space is only single spaces between other characters. -/
def Normalised (s : List Char) : Prop :=
  (∀ c ∈ s, White c → c = ' ') ∧ (∀ a b, s ≠ a ++ [' ', ' '] ++ b) ∧ s.head? ≠ some ' ' ∧ s.getLast? ≠ some ' '

/-- ASCII letters. -/
@[reducible] def Letter (c : Char) : Prop := ('a' ≤ c ∧ c ≤ 'z') ∨ ('A' ≤ c ∧ c ≤ 'Z')

/-- Names without a colon (NCName, https://www.w3.org/TR/xml-names/), ASCII characters only. -/
def NCName (s : List Char) : Prop :=
  ∃ c t, s = c :: t ∧ (Letter c ∨ c = '_') ∧ ∀ x ∈ t, Letter x ∨ x = '_' ∨ Digit x ∨ x = '-' ∨ x = '.'

/-- `s` is the canonical decimal numeral of the integer `v`: digits without needless leading zeros, preceded by a minus sign exactly if `v` is negative. -/
def CanonicalInteger (s : List Char) (v : Int) : Prop :=
  ∃ ds, ds ≠ [] ∧ (∀ c ∈ ds, Digit c) ∧ (ds.head? = some '0' → ds = ['0']) ∧
    ((0 ≤ v ∧ s = ds ∧ v = (digitsVal ds : Int)) ∨ (v < 0 ∧ s = '-' :: ds ∧ v = -(digitsVal ds : Int)))

end Spec
