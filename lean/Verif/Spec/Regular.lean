import Verif.Model.StringEnum

/-
Content models as regular expressions over element names.
A content model of an XML schema (sequence, choice, minOccurs, maxOccurs) is such an expression, and a list of children is allowed when the list of their names matches it.
-/
namespace Mx

/-- A name as a number: its characters are the digits in base 256. -/
def nameCode (s : Str) : Nat := s.foldl (fun n c => n * 256 + c.toNat) 0

/-- `nm! "note"` is the number literal `nameCode (chars "note")`. -/
macro "nm!" s:str : term =>
  return Lean.Syntax.mkNumLit (toString (s.getString.foldl (fun n c => n * 256 + c.toNat) 0))

example : nm! "note" = nameCode (chars "note") := by decide
example : nm! "metronome-note" = nameCode (chars "metronome-note") := by decide +kernel

namespace Spec

/-- Regular expressions over numbers. -/
inductive Re where
  /-- every list -/
  | any
  /-- the empty list -/
  | eps
  /-- one name -/
  | sym (t : Nat)
  | seq (a b : Re)
  | alt (a b : Re)
  /-- at least `lo` and (if given) at most `hi` times -/
  | rep (lo : Nat) (hi : Option Nat) (r : Re)

/-- The list of names `w` is allowed by the expression. -/
def Re.Matches : Re → List Nat → Prop
  | .any, _ => True
  | .eps, w => w = []
  | .sym t, w => w = [t]
  | .seq a b, w => ∃ u v, w = u ++ v ∧ a.Matches u ∧ b.Matches v
  | .alt a b, w => a.Matches w ∨ b.Matches w
  | .rep lo hi r, w => ∃ ws : List (List Nat), w = ws.flatten ∧ lo ≤ ws.length ∧
      (∀ h, hi = some h → ws.length ≤ h) ∧ ∀ u ∈ ws, r.Matches u

/-- One after the other. -/
def Re.seqs : List Re → Re
  | [] => .eps
  | [r] => r
  | r :: rs => .seq r (Re.seqs rs)

/-- One of them. -/
def Re.alts : List Re → Re
  | [] => .rep 1 (some 0) .eps
  | [r] => r
  | r :: rs => .alt r (Re.alts rs)

/-- `minOccurs="0"`. -/
abbrev Re.opt (r : Re) : Re := .rep 0 (some 1) r

/-- `minOccurs="0" maxOccurs="unbounded"`. -/
abbrev Re.star (r : Re) : Re := .rep 0 none r

/-- `maxOccurs="unbounded"`. -/
abbrev Re.plus (r : Re) : Re := .rep 1 none r

end Spec
end Mx
