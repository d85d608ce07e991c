import Verif.Model.ScoreTime
import Verif.Model.MeasureWriter
import Verif.Model.Strings

/-
Model of the staves of a part: `PartReader` (private/mx/impl/PartReader.cpp 80-191, PartReader.h 65-76), `PartWriter::writeMeasures`
(private/mx/impl/PartWriter.cpp 235-287), the loops over the parts (ScoreReader.cpp 174, 290-298; ScoreWriter.cpp 126-144) and the assignment of parts to
the entries of the part list (ScoreReader.cpp 78-139).

Simplifications: those of the models of the measure reader and the measure writer; a `<harmony>` is a `direction` here, too (both have a staff number and a
position).  `none` is an exception or undefined behaviour.
-/
namespace Mx.Measure

variable {P : Type}

/-- A child of a `<measure>`; `forwardStaff` is the `<staff>` of a `<forward>` (meaningless for others), which `Elem` does not have because it is only
used to count staves. -/
structure Child (P : Type) where
  elem : Elem P
  forwardStaff : Option Int := none
deriving Repr, DecidableEq

/-- The number that is looked at for a child, private/mx/impl/PartReader.cpp 140-186. -/
def Child.staff (c : Child P) : Option Int :=
  match c.elem with
  | .note n => n.staff
  | .forward _ => c.forwardStaff
  | .direction s _ _ => s
  | .attributes a => a.staves
  | .backup _ => none
  | .barline _ _ => none
  | .other => none

/-- `updateNumStaves`, private/mx/impl/PartReader.h 65-76, and PartReader.cpp 161-168. -/
def updateNumStaves (staff : Option Int) (numStaves : Int) : Int :=
  match staff with
  | some temp => if temp > numStaves then temp else numStaves
  | none => numStaves

/-- `calculateNumStaves`, private/mx/impl/PartReader.cpp 130-191. -/
def calculateNumStaves (ms : List (List (Child P))) : Int :=
  ms.flatten.foldl (fun n c => updateNumStaves c.staff n) 1

/-- The measure that is made of the state of the reader at its end, private/mx/impl/MeasureReader.cpp 102-108, 137, 176-181. -/
def measureOf (env : REnv) (st : RSt P) : MeasureData P :=
  { staves := (List.range env.numStaves.toNat).map (fun i : Nat => staffOf st (i : Int)), keys := st.keys, barlines := st.barlines }

/-- The elements of the measures of a part. -/
def partElems (ms : List (List (Child P))) : List (List (Elem P)) := ms.map (fun m => m.map (·.elem))

/-- The settings of the reader of a part, private/mx/impl/PartReader.cpp 76, 86. -/
def partEnv (G : Int) (ms : List (List (Child P))) : REnv := { numStaves := calculateNumStaves ms, globalTicksPerQuarter := G }

/-- `PartReader::getPartData`, private/mx/impl/PartReader.cpp 80-121: the measures, and the divisions at the end of the part. -/
def getPartData (G divisionsValue : Int) (ms : List (List (Child P))) : Option (List (MeasureData P) × Int) :=
  (readPart (partEnv G ms) divisionsValue (partElems ms)).map (fun r => (r.1.map (measureOf (partEnv G ms)), r.2))

/-- The loop over the parts, private/mx/impl/ScoreReader.cpp 290-298. -/
def getParts (G : Int) : Int → List (List (List (Child P))) → Option (List (List (MeasureData P)))
  | _, [] => some []
  | divisionsValue, p :: rest => do
    let (ms, t) ← getPartData G divisionsValue p
    let ps ← getParts G t rest
    some (ms :: ps)

/-- `findPartwisePart` for each `<score-part>` of the part list, private/mx/impl/ScoreReader.cpp 78-139 (part groups aside; `ids` are the ids of the
entries of the part list, the first of which always exists). -/
def reconcileParts {X : Type} (ids : List Str) (parts : List (Str × X)) : List X :=
  ids.filterMap (fun i => (parts.find? (fun p => decide (p.1 = i))).map (·.2))

/-- Ticks per quarter and parts of a score, private/mx/impl/ScoreReader.cpp 174, 290-298.  The ids agree (PartReader.cpp 67-75), since the part was found by
its id. -/
def getScore (ids : List Str) (parts : List (Str × List (List (Child P)))) : Option (Int × List (List (MeasureData P))) :=
  match findMaxDivisionsPerQuarter (parts.map (fun p => partElems p.2)) with
  | .error _ => none
  | .ok G => (getParts G (-1) (reconcileParts ids parts)).map (fun ps => (G, ps))

/-! ### writing -/

/-- What is written at the beginning of a measure besides the measure itself (see `WEnv`). -/
structure Extras where
  writesTime : Bool
  writesTranspose : Bool
  printElements : Nat
deriving Repr, DecidableEq

/-- The settings of the writer of a measure. -/
def Extras.env (x : Extras) (numStaves ticksPerQuarter : Int) (first : Bool) : WEnv :=
  { numStaves := numStaves, ticksPerQuarter := ticksPerQuarter, isFirstMeasureInPart := first, writesTime := x.writesTime
    writesTranspose := x.writesTranspose, printElements := x.printElements }

/-- The loop over the measures, private/mx/impl/PartWriter.cpp 272-286. -/
def writeMeasuresFrom (numStaves ticksPerQuarter : Int) : Bool → List (Extras × MeasureData P) → List (List (Elem P))
  | _, [] => []
  | first, (x, m) :: rest =>
    writeMeasure (x.env numStaves ticksPerQuarter first) m :: writeMeasuresFrom numStaves ticksPerQuarter false rest

/-- `PartWriter::writeMeasures` and `getPartwisePart`, private/mx/impl/PartWriter.cpp 235-287: a `PartwisePart` is made with one empty
measure (private/mx/core/elements/PartwisePart.cpp 14-19), which is removed when there are others; a part without measures that has a
transposition gets one measure (with the default members of `MeasureData`, so without staves). -/
def writePart (ticksPerQuarter : Int) (transposition : Option Extras) (ms : List (Extras × MeasureData P)) : List (List (Elem P)) :=
  match ms, transposition with
  | [], none => [[]]
  | [], some x => writeMeasuresFrom 0 ticksPerQuarter true [(x, { staves := [], keys := [], barlines := [] })]
  | (x, m) :: rest, _ => writeMeasuresFrom m.staves.length ticksPerQuarter true ((x, m) :: rest)

/-- What is written, as it is read: the writer gives no `<forward>` a staff (private/mx/impl/MeasureWriter.cpp 594-602). -/
def asChildren (ms : List (List (Elem P))) : List (List (Child P)) := ms.map (fun m => m.map (fun e => { elem := e }))

/-- A part of `api::ScoreData`: `uniqueId`, what is written at its beginning if it has a transposition, and its measures. -/
structure PartData (P : Type) where
  uniqueId : Str
  transposition : Option Extras := none
  measures : List (Extras × MeasureData P)

/-- `ScoreWriter::getScorePartwise`, private/mx/impl/ScoreWriter.cpp 126-144, with `addPartwisePart` (215-224) and the ids of PartWriter.cpp 74, 239: the ids in the
part list and the parts.  Without parts, the part list keeps its first entry and the score its first part, both with the default id
(private/mx/core/elements/ScorePartwise.cpp 15-21, XsID.cpp 12-16). -/
def writeScore (ticksPerQuarter : Int) (parts : List (PartData P)) : List Str × List (Str × List (List (Elem P))) :=
  match parts with
  | [] => ([chars "ID"], [(chars "ID", [[]])])
  | p :: ps => ((p :: ps).map (fun q => xsID q.uniqueId), (p :: ps).map (fun q => (xsID q.uniqueId, writePart ticksPerQuarter q.transposition q.measures)))

/-- Writing a score and reading it. -/
def rereadScore (ticksPerQuarter : Int) (parts : List (PartData P)) : Option (Int × List (List (MeasureData P))) :=
  getScore (writeScore ticksPerQuarter parts).1 ((writeScore ticksPerQuarter parts).2.map (fun p => (p.1, asChildren p.2)))

end Mx.Measure
