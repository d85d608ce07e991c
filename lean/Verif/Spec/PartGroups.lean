import Verif.Model.PartGroups

/-
Specification for part groups (C29).
-/
namespace Mx.Spec

/-- Two part groups that have a part in common. -/
def Overlap (g h : PartGroupData) : Prop := g.first ≤ h.last ∧ h.first ≤ g.last

/-- Part groups over `n` parts: each covers at least one part, groups that overlap have different numbers
(−1 is "no number"), and the bracket type is a value. -/
structure GroupsFit (n : Nat) (groups : List PartGroupData) : Prop where
  range : ∀ g ∈ groups, 0 ≤ g.first ∧ g.first ≤ g.last ∧ g.last < n
  numbers : ∀ g ∈ groups, -1 ≤ g.number ∧ InInt g.number
  bracket : ∀ g ∈ groups, g.bracket ≠ none
  distinct : groups.Pairwise (fun g h => Overlap g h → g.number ≠ h.number)

/-- What is left of a part group: first part, last part, number, name and bracket type; not the abbreviation and the texts for display.  A bracket type
"unspecified" becomes an indeterminate value (`none`). -/
def keptGroup (g : PartGroupData) : PartGroupData :=
  { first := g.first, last := g.last, number := g.number, name := g.name, bracket := if g.bracket = some .unspecified then none else g.bracket }

/-- The order in which part groups are listed after reading: by first part, then by number. -/
def GroupOrder (g h : PartGroupData) : Prop := g.first < h.first ∨ (g.first = h.first ∧ g.number < h.number)

/-- A part group that has only the fields that come back. -/
structure PlainGroup (g : PartGroupData) : Prop where
  displayName : g.displayName = []
  abbreviation : g.abbreviation = []
  displayAbbreviation : g.displayAbbreviation = []
  bracket : g.bracket ≠ some .unspecified

/-- Write a part list, then read it back with the same parts. -/
def partsBack (σ : StdSort) (τ : GroupSort) (groups : List PartGroupData) (ids : List Str) : Option (Res (List PartGroupData × List Str)) :=
  (writePartList σ groups ids).bind fun pl => (PartList.ofChildren pl.children).map (reconcileParts τ ids)

end Mx.Spec
