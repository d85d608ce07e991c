import Verif.Model.ApiEquality

/-
When two values of the api should compare equal.
-/
namespace Mx.Spec
open ApiEq

/-- The members that are left out of comparisons. -/
def ignored : List (Struct × Str) := [
  (.DefaultsData, chars "scalingMillimeters"), (.DefaultsData, chars "scalingTenths"), (.DirectionData, chars "rehearsals"), (.LyricData, chars "text"), (.NoteData, chars "notehead"),
  (.PartGroupData, chars "bracketType"), (.PartGroupData, chars "number"), (.WordsData, chars "text")]

/-- The members for which small differences do not count. -/
def tolerant : List (Struct × Str) := [
  (.PitchData, chars "cents"), (.PositionData, chars "defaultX"), (.PositionData, chars "defaultY"), (.PositionData, chars "relativeX"), (.PositionData, chars "relativeY")]

/-- A difference of at most 10⁻⁸.  A value that is not a number is near to everything. -/
inductive Near : Val → Val → Prop
  | fin {p q : Rat} : p - q ≤ 1 / 100000000 → q - p ≤ 1 / 100000000 → Near (.real (.fin p)) (.real (.fin q))
  | inf {b : Bool} : Near (.real (.inf b)) (.real (.inf b))
  | nanLeft {y : Dbl} : Near (.real .nan) (.real y)
  | nanRight {x : Dbl} : Near (.real x) (.real .nan)

/-- The same value throughout, except in the members that are left out or tolerant. -/
inductive Agree : Val → Val → Prop
  | plain {p : PlainVal} : Agree (.plain p) (.plain p)
  | real {x : Dbl} : x ≠ .nan → Agree (.real x) (.real x)
  | none : Agree .none .none
  | some {a b : Val} : Agree a b → Agree (.some a) (.some b)
  | vec {l r : List Val} : l.length = r.length → (∀ p ∈ l.zip r, Agree p.1 p.2) → Agree (.vec l) (.vec r)
  | intMap {k : List Int} {l r : List Val} : l.length = r.length → (∀ p ∈ l.zip r, Agree p.1 p.2) → Agree (.intMap k l) (.intMap k r)
  | obj {s : Struct} {l r : List Val} : l.length = s.members.length → r.length = s.members.length →
      (∀ p ∈ (s.members.map (·.1)).zip (l.zip r), (s, p.1) ∉ ignored → (s, p.1) ∈ tolerant → Near p.2.1 p.2.2) →
      (∀ p ∈ (s.members.map (·.1)).zip (l.zip r), (s, p.1) ∉ ignored → (s, p.1) ∉ tolerant → Agree p.2.1 p.2.2) →
      Agree (.obj s l) (.obj s r)

mutual
/-- Values of a type, without NaN. -/
def Fits : Ty → Val → Prop
  | .plain, .plain _ => True
  | .real, .real x => x ≠ .nan
  | .of s, .obj t l => s = t ∧ FitsAll (s.members.map (·.2)) l
  | .vec t, .vec l => FitsEach t l
  | .opt _, .none => True
  | .opt t, .some v => Fits t v
  | .intMap t, .intMap k l => k.length = l.length ∧ k.Pairwise (· < ·) ∧ FitsEach t l
  | _, _ => False
def FitsAll : List Ty → List Val → Prop
  | [], [] => True
  | t :: ts, v :: vs => Fits t v ∧ FitsAll ts vs
  | _, _ => False
def FitsEach : Ty → List Val → Prop
  | _, [] => True
  | t, v :: vs => Fits t v ∧ FitsEach t vs
end

end Mx.Spec
