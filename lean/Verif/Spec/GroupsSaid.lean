import Verif.Model.PartListThrough

/-!
What the children of a `<part-list>` say about groups of parts (C106).
-/
namespace Mx.Spec

/-- A group of parts: its first and its last part (0 is the first part of the file), its number, name and symbol. -/
structure GroupSaid where
  first : Nat
  last : Nat
  number : Option Str
  name : Str
  symbol : Option Core.GroupSymbolValue
deriving DecidableEq, Repr

/-- The last part of a group that is open: the part before the next stop with the number of the group; `parts` parts have gone before. -/
def endOf (number : Option Str) : Nat → List (Convert.Entry PartGroupXml) → Option Nat
  | _, [] => none
  | parts, .scorePart _ :: r => endOf number (parts + 1) r
  | parts, .partGroup g :: r => if g.isStart = false ∧ g.number = number then some (parts - 1) else endOf number parts r

/-- The groups that a list of children says, when `parts` parts have gone before.  A start that is never stopped says nothing. -/
def groupsSaidFrom : Nat → List (Convert.Entry PartGroupXml) → List GroupSaid
  | _, [] => []
  | parts, .scorePart _ :: r => groupsSaidFrom (parts + 1) r
  | parts, .partGroup g :: r =>
    (if g.isStart then
      match endOf g.number parts r with
      | some last => [{ first := parts, last := last, number := g.number, name := g.name.getD [], symbol := g.symbol }]
      | none => []
    else []) ++ groupsSaidFrom parts r

/-- The groups that a part list says. -/
def groupsSaid (cs : List (Convert.Entry PartGroupXml)) : List GroupSaid := groupsSaidFrom 0 cs

/-- No number, or a number that is written as the program writes it. -/
def GroupNumberKept (number : Option Str) : Prop := number = none ∨ ∃ n : Nat, n ≤ 2147483647 ∧ number = some (showInt n)

/-- The starts and stops of groups fit together: a group has a symbol, no open group has the number of a new one, and a stop has the number of an open group that has a part.  The list has the numbers of the open groups and the number of parts
before each of them. -/
def GroupsInOrder : List (Option Str × Nat) → Nat → List (Convert.Entry PartGroupXml) → Prop
  | _, _, [] => True
  | opened, parts, .scorePart _ :: r => GroupsInOrder opened (parts + 1) r
  | opened, parts, .partGroup g :: r =>
    GroupNumberKept g.number ∧
    ((g.isStart = true ∧ g.symbol ≠ none ∧ (∀ o ∈ opened, o.1 ≠ g.number) ∧ GroupsInOrder ((g.number, parts) :: opened) parts r) ∨
     (g.isStart = false ∧ (∃ o ∈ opened, o.1 = g.number ∧ o.2 < parts) ∧ GroupsInOrder (opened.filter (fun o => o.1 ≠ g.number)) parts r))

/-- A part list that comes out as it was: it has a part, not more than an `int` can count, and its groups are in order. -/
structure PartListKept (cs : List (Convert.Entry PartGroupXml)) : Prop where
  parts : scorePartIds cs ≠ []
  groups : GroupsInOrder [] 0 cs

end Mx.Spec
