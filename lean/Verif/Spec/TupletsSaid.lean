import Verif.Model.Notations
import Verif.Spec.ScorePartSaid

/-
What a `<tuplet>` element of a note says, whatever the spelling of its numbers (C110).  Left out: positions, which are not written, and `show-type` and `line-shape`, which are
neither read nor written.

Only the data types, and the texts of enumerations (C23), are shared with the model.
-/
namespace Spec
open Mx

/-- So many notes of a type. -/
structure NotesSaid where
  number : Int
  type : Core.NoteTypeValue
  dots : Nat := 0
deriving DecidableEq

/-- How a tuplet starts: that many notes in the time of that many notes, whether there is a bracket, and which numbers are shown. -/
structure TupletStartSaid where
  actual : NotesSaid
  normal : NotesSaid
  bracket : Option Core.YesNo := none
  showNumber : Option Core.ShowTuplet := none
deriving DecidableEq

/-- The number of the tuplet and how it starts, `none` where it ends. -/
structure TupletSaid where
  number : Option Int := none
  start : Option TupletStartSaid
deriving DecidableEq

/-- `<tuplet-actual>` or `<tuplet-normal>`. -/
def NotesSay (p : TupletPartXml) (a : NotesSaid) : Prop := (∃ t, p.number = some t ∧ IntegerText t a.number) ∧ p.type = some (StringEnum.toStr a.type) ∧ p.dots = a.dots

/-- The time modification of the note: the notes are those of its `<normal-type>`, or else of the note. -/
def NoteSaysTuplet (n : TupletNote) (actual normal : NotesSaid) : Prop :=
  ∃ s t g, n.timeModification = some (s, t, g) ∧ IntegerText s actual.number ∧ IntegerText t normal.number ∧ normal.type = actual.type ∧ normal.dots = actual.dots ∧
    (g = some (StringEnum.toStr actual.type, actual.dots) ∨ (g = none ∧ n.type = some (StringEnum.toStr actual.type) ∧ actual.dots = 0))

/-- What the element says on the note `n`: without the parts it is the time modification of the note that says them. -/
def TupletSays (n : TupletNote) (x : TupletXml) (a : TupletSaid) : Prop :=
  x.position = {} ∧ IntegerSays x.number a.number ∧
  match a.start with
  | none => x.type = chars "stop" ∧ x.bracket = none ∧ x.showNumber = none ∧ x.actual = none ∧ x.normal = none
  | some s =>
    x.type = chars "start" ∧ x.bracket = s.bracket.map StringEnum.toStr ∧ x.showNumber = s.showNumber.map StringEnum.toStr ∧
      ((∃ p q, x.actual = some p ∧ x.normal = some q ∧ NotesSay p s.actual ∧ NotesSay q s.normal) ∨ (x.actual = none ∧ x.normal = none ∧ NoteSaysTuplet n s.actual s.normal))

/-- What is kept: tuplet numbers from 1 to 6, and numbers of notes that fit into an `int`. -/
structure TupletKept (a : TupletSaid) : Prop where
  number : ∀ n ∈ a.number, 1 ≤ n ∧ n ≤ 6
  notes : ∀ s ∈ a.start, (0 ≤ s.actual.number ∧ s.actual.number ≤ 2147483647) ∧ 0 ≤ s.normal.number ∧ s.normal.number ≤ 2147483647

/-- The same tuplets, those that start in the same order, and those that end in the same order. -/
def SameTuplets (l m : List TupletSaid) : Prop :=
  l.Perm m ∧ l.filter (·.start.isSome) = m.filter (·.start.isSome) ∧ l.filter (·.start.isNone) = m.filter (·.start.isNone)

end Spec
