import Verif.Spec.Unknown

/-
Elements in the order that the readers expect.
-/
namespace Mx.Spec
open Content

def lateB (name : Nat) : Bool := Nat.beq name (nm! "extend") || Nat.beq name (nm! "laughing") || Nat.beq name (nm! "humming")
def endB (name : Nat) : Bool := Nat.beq name (nm! "end-line") || Nat.beq name (nm! "end-paragraph")

/-- No `extend`, `laughing` or `humming` after the end of a line or a paragraph. -/
def orderB : List Nat → Bool
  | [] => true
  | n :: ns => (!endB n || ns.all fun m => !lateB m) && orderB ns

/-- Conditions on an element: it has a name and the name is not `other-notations`, a `notehead-text` has neither attributes nor a value, and in a lyric the end of a line or a paragraph
is not in front of `extend`, `laughing` or `humming`. -/
structure TidyHere (name : Nat) (data : Str) (kids : List Xml) : Prop where
  named : name ≠ 0
  known : name ≠ nm! "other-notations"
  text : name = nm! "notehead-text" → data = []
  lyric : name = nm! "lyric" → orderB (kids.map xmlName) = true

/-- They hold for the element and all elements in it. -/
inductive Tidy : Xml → Prop where
  | elem (name : Nat) (data : Str) (kids : List Xml) : TidyHere name data kids → (∀ x ∈ kids, Tidy x) → Tidy (.elem name data kids)

/-- No `notehead-text` has attributes or a value; the schema allows neither. -/
inductive BareTexts : Xml → Prop where
  | elem (name : Nat) (data : Str) (kids : List Xml) : (name = nm! "notehead-text" → data = []) → (∀ x ∈ kids, BareTexts x) → BareTexts (.elem name data kids)

end Mx.Spec
