import Verif.Model.MeasureReader
import Verif.Model.LcmGcd

/-
Model of the time scale of a score that is read: `ScoreReader::findMaxDivisionsPerQuarter` (private/mx/impl/ScoreReader.cpp
590-624), the loop over the parts (168-174, 290-298) and the loop over the measures of a part (private/mx/impl/PartReader.cpp 80-121).
-/
namespace Mx.Measure

variable {P : Type}

/-- `std::set<int>::insert`, the set being the list of its elements in ascending order. -/
def setInsert (x : Int) : List Int → List Int
  | [] => [x]
  | y :: ys => if x < y then x :: y :: ys else if x = y then y :: ys else y :: setInsert x ys

/-- The `<divisions>` of one child of a measure, rounded: private/mx/impl/ScoreReader.cpp 600-615. -/
def elemDivisions : Elem P → Option Int
  | .attributes a => a.divisions.map roundMicro
  | _ => none

/-- `foundDivisions`, private/mx/impl/ScoreReader.cpp 592-621: the positive ones, parts and measures in order. -/
def foundDivisions (score : List (List (List (Elem P)))) : List Int :=
  ((score.flatten.flatten.filterMap elemDivisions).filter (fun d => decide (0 < d))).foldl (fun s d => setInsert d s) []

/-- `findMaxDivisionsPerQuarter`, private/mx/impl/ScoreReader.cpp 590-624. -/
def findMaxDivisionsPerQuarter (score : List (List (List (Elem P)))) : Res Int := LcmGcd.lcmSet (foundDivisions score)

/-- The loop over the measures of a part, private/mx/impl/PartReader.cpp 96-115: each measure begins with a fresh position and the
divisions of the measure before.  The reader's state at the end of each measure is kept (see `readMeasure` for what
becomes of it), with the divisions at the end of the part. -/
def readMeasures (env : REnv) : Int → List (List (Elem P)) → Option (List (RSt P) × Int)
  | tpq, [] => some ([], tpq)
  | tpq, m :: ms => do
    let r ← readElems env false m (initRSt tpq)
    let (rs, t) ← readMeasures env r.ticksPerQuarter ms
    some (r :: rs, t)

/-- `PartReader::getPartData`, private/mx/impl/PartReader.cpp 80-121: `divisionsValue` comes from the part before, if
positive, else the global value is used. -/
def readPart (env : REnv) (divisionsValue : Int) (ms : List (List (Elem P))) : Option (List (RSt P) × Int) :=
  readMeasures env (if divisionsValue > 0 then divisionsValue else env.globalTicksPerQuarter) ms

/-- The loop over the parts, private/mx/impl/ScoreReader.cpp 291-298; a part is its number of staves and its measures. -/
def readParts (G : Int) : Int → List (Int × List (List (Elem P))) → Option (List (List (RSt P)))
  | _, [] => some []
  | divisionsValue, (numStaves, ms) :: rest => do
    let (rs, t) ← readPart { numStaves := numStaves, globalTicksPerQuarter := G } divisionsValue ms
    let rss ← readParts G t rest
    some (rs :: rss)

/-- Ticks per quarter and the parts of a score, private/mx/impl/ScoreReader.cpp 174, 290-298. -/
def readScoreTimes (parts : List (Int × List (List (Elem P)))) : Option (Int × List (List (RSt P))) :=
  match findMaxDivisionsPerQuarter (parts.map (·.2)) with
  | .error _ => none
  | .ok G => (readParts G (-1) parts).map (fun rs => (G, rs))

end Mx.Measure
