import Verif.Model.DocumentData
import Verif.Spec.PartStaves
import Verif.Spec.Tokens

/-
Which documents give their data: conditions on the part list and on the parts.
-/
namespace Mx.Spec
open _root_.Spec Mx.Measure Mx.Directions Mx.DocumentData

/-- The number of part groups that are open behind some children of the part list. -/
def openGroups (n : Nat) : List (Convert.Entry PartGroupXml) → Nat
  | [] => n
  | .scorePart _ :: l => openGroups n l
  | .partGroup g :: l => openGroups (if g.isStart then n + 1 else n - 1) l

/-- The number of a part group is missing, or an integer in its usual form that fits into an `int`. -/
def Numbered (g : PartGroupXml) : Prop := ∀ s, g.number = some s → ∃ v, CanonicalInteger s v ∧ InInt v

/-- Every start of a part group, and every stop that stops one, has such a number. -/
def GroupsNumbered (l : List (Convert.Entry PartGroupXml)) : Prop :=
  ∀ before g after, l = before ++ .partGroup g :: after → (g.isStart = true ∨ 0 < openGroups 0 before) → Numbered g

/-- A part of the document that the part list mentions: the first one with an id of the part list. -/
def Listed (pl : PartList) (parts : Parts) (ms : List (List (Child Content))) : Prop :=
  ∃ id, .scorePart id ∈ pl.children ∧ ∃ before after, parts = before ++ (id, ms) :: after ∧ ∀ p ∈ before, p.1 ≠ id

/-- No metronome mark of a part consists of notes and a relation. -/
def NoNoteRelations (ms : List (List (Child Content))) : Prop :=
  ∀ m ∈ ms, ∀ c ∈ m, ∀ s o d, c.elem = .direction s o (some (.direction d)) → .metronome .noteRelation ∉ d.types

/-- Nothing is undefined in a part: numbers of staves are positive, no `<divisions>` is rounded to zero, the values of its directions can be represented, and the processing
instructions of its harmonies are what has been loaded. -/
structure PartDefined (ms : List (List (Child Content))) : Prop where
  numbers : NumbersPositive ms
  divisions : ∀ m ∈ ms, ∀ c ∈ m, ∀ a, c.elem = .attributes a → ∀ d, a.divisions = some d → roundMicro d ≠ 0
  directions : ∀ m ∈ ms, ∀ c ∈ m, ∀ x, directionOf c = some x → getDirectionData 0 x ≠ .error .undefined
  instructions : ∀ m ∈ ms, ∀ c ∈ m, ∀ h, directionOf c = some (.harmony h) → ∀ s ∈ h.instructions, ∃ i, readInstruction s = .ok i

end Mx.Spec
