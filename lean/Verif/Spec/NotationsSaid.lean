import Verif.Model.NotationsThrough
import Verif.Spec.CurvesSaid
import Verif.Spec.TupletsSaid
import Verif.Spec.MarksSaid

/-
What all `<notations>` elements of a note together say (C112): its ties and slurs, its tuplets and its marks.

Only the data types are shared with the model.
-/
namespace Spec
open Mx

def curvesIn (xs : List (List AnyNotation)) : List CurveXml := xs.flatten.filterMap fun | .curve x => some x | _ => none
def tupletsIn (xs : List (List AnyNotation)) : List TupletXml := xs.flatten.filterMap fun | .tuplet x => some x | _ => none
def marksIn (xs : List (List AnyNotation)) : List NotationXml := xs.flatten.filterMap fun | .mark x => some x | _ => none

/-- The curves, tuplets and marks of a note. -/
structure NotationsSaid where
  curves : List CurveSaid := []
  tuplets : List TupletSaid := []
  marks : List MarkSaid := []

/-- What the elements say on the note `n`, in however many elements and in whatever order curves, tuplets and marks are mixed. -/
structure NotationsSay (n : TupletNote) (xs : List (List AnyNotation)) (a : NotationsSaid) : Prop where
  curves : List.Forall₂ CurveSays (curvesIn xs) a.curves
  tuplets : List.Forall₂ (TupletSays n) (tupletsIn xs) a.tuplets
  marks : MarksSay (marksIn xs) a.marks

/-- What is kept. -/
structure NotationsKept (a : NotationsSaid) : Prop where
  curves : ∀ c ∈ a.curves, CurveKept c
  tuplets : ∀ t ∈ a.tuplets, TupletKept t
  marks : ∀ m ∈ a.marks, MarkKept m

structure SameNotations (a b : NotationsSaid) : Prop where
  curves : SameCurves a.curves b.curves
  tuplets : SameTuplets a.tuplets b.tuplets
  marks : SameMarks a.marks b.marks

/-- The slurs of a note, without the ties. -/
def slursOf (a : NotationsSaid) : List CurveSaid := a.curves.filter (·.isSlur)

end Spec
