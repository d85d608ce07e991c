import Verif.Model.PartStaves
import Verif.Model.PartGroups
import Verif.Model.Directions

/-
Model of `DocumentManager::getData` as far as it can fail: `ScoreReader::getScoreData` (private/mx/impl/ScoreReader.cpp 168-306) with the part list, the time scale, the
measures of the parts and their directions.

Simplifications: what a `<direction>` or `<harmony>` holds is given as the content of the child of the measure; the contents of the other children (notes, keys, barlines) are not
looked at, and neither is the header of the score: reading them raises no exception.
-/
namespace Mx.DocumentData
open Mx.Measure Mx.Directions

/-- The content of a child of a measure: that of a `<direction>` or `<harmony>`, nothing for other children. -/
abbrev Content := Option ElementXml

/-- The `<part>` elements: their ids and their measures. -/
abbrev Parts := List (Str × List (List (Child Content)))

/-- What a child gives to the reader of directions, private/mx/impl/MeasureReader.cpp 242-248, 256-262, 390-394. -/
def directionOf (c : Child Content) : Option ElementXml :=
  match c.elem with
  | .direction _ _ x => x
  | _ => none

/-- Whether reading the directions of a part gives a result, private/mx/impl/MeasureReader.cpp 390-394.  They are read at tick 0 here: the tick only moves their times. -/
def directionsRead (ms : List (List (Child Content))) : Bool :=
  (ms.flatten.filterMap directionOf).all (fun x => (getDirectionData 0 x).isOk)

/-- The data of a document: its part groups, its ticks per quarter and its parts; `none` is an exception or undefined behaviour.  `ScoreReader::getScoreData`,
private/mx/impl/ScoreReader.cpp 168-306 with `reconcileParts` (100-166), called in private/mx/api/DocumentManager.cpp 200-201. -/
def getData (τ : GroupSort) (pl : PartList) (parts : Parts) : Option (List PartGroupData × Int × List (List (MeasureData Content))) :=
  match Mx.reconcileParts τ (parts.map (·.1)) pl with
  | .error _ => none
  | .ok (groups, ids) =>
    match getScore ids parts with
    | none => none
    | some (ticks, out) => if (Mx.Measure.reconcileParts ids parts).all directionsRead then some (groups, ticks, out) else none

end Mx.DocumentData
