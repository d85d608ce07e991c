import Verif.Model.MeasureTypes
import Verif.Model.ApiEnums
import Mathlib.Data.Rat.Defs
import Mathlib.Algebra.Order.Ring.Rat
import Mathlib.Algebra.Order.Group.Abs

/-
Model of small functions of the public data types: `MeasureLocation::isValid`, the queries and the sorting of `ScoreData`, and
the arithmetic of note lengths.
-/
namespace Mx

/-! ### MeasureLocation -/

/-- `x.size() - 1` of `size_t`: private/mx/api/MeasureLocation.cpp 28, 35, 42.  Arithmetic modulo 2^64. -/
def sizeMinusOne (n : Nat) : Nat := (n + 2 ^ 64 - 1) % 2 ^ 64

/-- `MeasureLocation::isValid`, private/mx/api/MeasureLocation.cpp 19-48.  Of the score only the sizes of the vectors matter: for each
part, for each of its measures, the number of staves.  `none`: `at` throws. -/
def isValidLocation (score : List (List Nat)) (partIndex staffIndex measureIndex : Int) : Option Bool :=
  if partIndex < 0 ∨ staffIndex < 0 ∨ measureIndex < 0 then some false else
  if partIndex.toNat > sizeMinusOne score.length then some false else
  match score[partIndex.toNat]? with
  | none => none
  | some part =>
    if measureIndex.toNat > sizeMinusOne part.length then some false else
    match part[measureIndex.toNat]? with
    | none => none
    | some staves => if staffIndex.toNat > sizeMinusOne staves then some false else some true

/-! ### ScoreData -/

/-- `api::PartData` as far as the queries of `ScoreData` look at it: its id and its measures. -/
structure ScorePart (M : Type) where
  uniqueId : List Char
  measures : List M
deriving Repr, DecidableEq

/-- `ScoreData::getNumMeasures`, private/mx/api/ScoreData.cpp 34-48 (sizes below 2^31). -/
def getNumMeasures {M : Type} (parts : List (ScorePart M)) : Int :=
  parts.foldl (fun numMeasures p => if (p.measures.length : Int) > numMeasures then (p.measures.length : Int) else numMeasures) 0

/-- `findPart`, private/mx/api/ScoreData.cpp 103-112: index of the part that `std::find_if` finds; the size of the list if there is none
(`end()`). -/
def findPart {M : Type} (parts : List (ScorePart M)) (partId : List Char) : Nat :=
  parts.findIdx (fun p => decide (partId = p.uniqueId))

/-- `std::sort` with a comparison of integer keys: all that the C++ standard says about it is that the result is a permutation of the input in ascending
order; which one is not said (the sort is not stable). -/
structure StdSort where
  sort : {α : Type} → (α → Int) → List α → List α
  perm : ∀ {α : Type} (key : α → Int) (l : List α), (sort key l).Perm l
  sorted : ∀ {α : Type} (key : α → Int) (l : List α), (sort key l).Pairwise (fun a b => key a ≤ key b)

open Measure in
/-- `ScoreData::sort` of one staff, private/mx/api/ScoreData.cpp 71-97. -/
def sortStaff {P : Type} (σ : StdSort) (s : StaffData P) : StaffData P :=
  { s with
    clefs := σ.sort (fun c => c.tick) s.clefs
    directions := σ.sort (fun d => d.tick) s.directions
    voices := s.voices.map (fun v => (v.1, σ.sort (fun n => n.tick) v.2)) }

open Measure in
/-- `ScoreData::sort`, private/mx/api/ScoreData.cpp 65-100; the score is the list of the measures of its parts. -/
def sortScore {P : Type} (σ : StdSort) (parts : List (List (MeasureData P))) : List (List (MeasureData P)) :=
  parts.map (fun measures => measures.map (fun m => { m with staves := m.staves.map (sortStaff σ) }))

/-! ### Note lengths -/

/-- The constants `DUR_QUARTERS_VALUE_…`, include/mx/api/DurationData.h 36-49. -/
def durQuarters : Api.DurationName → ℚ
  | .unspecified => 0
  | .maxima => 32
  | .longa => 16
  | .breve => 8
  | .whole => 4
  | .half => 2
  | .quarter => 1
  | .eighth => 1 / 2
  | .dur16th => 1 / 4
  | .dur32nd => 1 / 8
  | .dur64th => 1 / 16
  | .dur128th => 1 / 32
  | .dur256th => 1 / 64
  | .dur512th => 1 / 128
  | .dur1024th => 1 / 256

/-- The loop of `applyDots`, include/mx/api/DurationData.h 56-60. -/
def applyDotsLoop : Nat → ℚ → ℚ → ℚ
  | 0, outValue, _ => outValue
  | n + 1, outValue, valueToAdd => applyDotsLoop n (outValue + valueToAdd) (valueToAdd / (1 / 2))

/-- `applyDots`, include/mx/api/DurationData.h 51-63. -/
def applyDots (unDotted : ℚ) (numDots : Nat) : ℚ := applyDotsLoop numDots unDotted (unDotted / (1 / 2))

/-- `areSame`, include/mx/api/ApiCommon.h 19-22. -/
def areSame (a b : ℚ) : Bool := decide (|a - b| < 1 / 100000000)

/-- The names that `deriveNoteTypeFromDurationValue` tries, in its order, private/mx/impl/NoteFunctions.cpp 197-245. -/
def derivedNames : List Api.DurationName :=
  [.quarter, .half, .whole, .eighth, .dur16th, .dur32nd, .dur64th, .dur128th, .dur512th, .dur1024th]

/-- `deriveNoteTypeFromDurationValue`, private/mx/impl/NoteFunctions.cpp 192-248: `durationValue` is the contents of the `<duration>` element. -/
def deriveNoteType (globalTicksPerQuarter : Int) (durationValue : ℚ) : Api.DurationName :=
  (derivedNames.find? (fun n => areSame durationValue (durQuarters n * globalTicksPerQuarter))).getD .unspecified

/-- The names that `findNormalNameAndDots` tries, in its order, private/mx/impl/NoteWriter.cpp 497-552. -/
def normalNames : List Api.DurationName :=
  [.quarter, .eighth, .dur16th, .maxima, .longa, .breve, .whole, .half, .dur32nd, .dur64th, .dur128th, .dur256th, .dur512th, .dur1024th]

/-- `findNormalNameAndDots`, private/mx/impl/NoteWriter.cpp 474-556. -/
def findNormalNameAndDots (ticksPerQuarter : Int) (tickLength : ℚ) : Option (Api.DurationName × Nat) :=
  ((List.range 4).flatMap (fun dots => normalNames.map (fun n => (n, dots)))).find?
    (fun p => decide (|applyDots (durQuarters p.1 * ticksPerQuarter) p.2 - tickLength| < 1 / 10000))

end Mx
