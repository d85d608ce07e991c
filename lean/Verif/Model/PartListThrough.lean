import Verif.Model.PartGroups

/-!
The part list, when a file is loaded and saved.
-/
namespace Mx

/-- The ids of the `<score-part>` elements of a part list. -/
def scorePartIds : List (Convert.Entry PartGroupXml) → List Str
  | [] => []
  | .scorePart id :: r => id :: scorePartIds r
  | .partGroup _ :: r => scorePartIds r

/-- The children of `<part-list>` are read (private/mx/core/elements/PartList.cpp 163-215, private/mx/impl/ScoreReader.cpp 100-166) and what was read is written (private/mx/impl/ScoreWriter.cpp 138-212).  `none`: loading fails, or
loading or saving has undefined behaviour.  Simplification: there is a `<part>` for every `<score-part>`. -/
def partListThrough (σ : StdSort) (τ : GroupSort) (cs : List (Convert.Entry PartGroupXml)) : Option (List (Convert.Entry PartGroupXml)) :=
  (PartList.ofChildren cs).bind fun pl =>
    (reconcileParts τ (scorePartIds cs) pl).toOption.bind fun r => (writePartList σ r.1 r.2).map PartList.children

/-- Any number of times, every time with some sorting routines. -/
inductive PartListPasses : Nat → List (Convert.Entry PartGroupXml) → List (Convert.Entry PartGroupXml) → Prop
  | zero (cs : List (Convert.Entry PartGroupXml)) : PartListPasses 0 cs cs
  | succ {n : Nat} {cs ds es : List (Convert.Entry PartGroupXml)} (σ : StdSort) (τ : GroupSort) (h : partListThrough σ τ cs = some ds) (hs : PartListPasses n ds es) : PartListPasses (n + 1) cs es

end Mx
