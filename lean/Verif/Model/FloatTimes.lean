import Verif.Model.FloatDecimals
import Verif.Model.ScoreTime

/-
The reader of measures (MeasureReader.lean) and the time scale of a score (ScoreTime.lean) once more, with the rounding of floating point arithmetic: every result of an operation on `long double` is rounded to its `prec` binary digits.
Simplifications: as in MeasureReader.lean; numbers of type `double` that take part (0.5) are exact.
-/
namespace Mx.Measure
open Fl

variable {P : Type}

/-- `getValue` of a decimal of six decimals that is stored as `d` millionths, private/mx/core/Decimals.cpp 50-53. -/
def microF (prec : Nat) (d : Int) : ℚ := PreciseDecimal.expressF prec (d.natAbs / 10 ^ 6) (d.natAbs % 10 ^ 6) 6 (decide (d < 0))

/-- `static_cast<int>( std::ceil( value - 0.5 ) )`, private/mx/impl/Cursor.cpp 60, MeasureReader.cpp 440, DirectionReader.cpp 126, ScoreReader.cpp 614. -/
def roundF (prec : Nat) (v : ℚ) : Int := ⌈fl prec (v - 1 / 2)⌉

/-- The same of a decimal. -/
def roundMicroF (prec : Nat) (d : Int) : Int := roundF prec (microF prec d)

/-- `convertDurationToGlobalTickScale`, private/mx/impl/Cursor.cpp 56-67. A division by zero gives an infinite or NaN value whose conversion to int is undefined. -/
def convertDurationF (prec : Nat) (ticksPerQuarter globalTicksPerQuarter : Int) (d : Int) : Option Int :=
  if ticksPerQuarter = globalTicksPerQuarter then some (roundMicroF prec d)
  else if ticksPerQuarter = 0 then none
  else
    let convertedVal := fl prec (microF prec d * fl prec (fl prec globalTicksPerQuarter / fl prec ticksPerQuarter))
    some (roundF prec convertedVal)

/-- `parseNote`, private/mx/impl/MeasureReader.cpp 321-359, with the duration of NoteReader.cpp 134-164 (grace notes: 0). -/
def parseNoteF (prec : Nat) (env : REnv) (nextChord : Bool) (n : NoteElem P) (st : RSt P) : Option (RSt P) := do
  let ticks ← convertDurationF prec st.ticksPerQuarter env.globalTicksPerQuarter (if n.kind = .grace then 0 else n.dur)
  let staff := noteStaffIndex n
  if env.numStaves ≤ staff then none
  else
    let isThis := n.chord || nextChord
    let note := parseNoteData isThis st.tick ticks n
    let tick := if !isThis || !nextChord then st.tick + ticks else st.tick
    some { st with
      isBackupInProgress := false
      tick := tick
      notes := st.notes ++ [{ staff := staff, voice := st.voiceIndex, note := note }] }

/-- `parseBackup`, private/mx/impl/MeasureReader.cpp 362-378. -/
def parseBackupF (prec : Nat) (env : REnv) (d : Int) (st : RSt P) : Option (RSt P) := do
  let amount ← convertDurationF prec st.ticksPerQuarter env.globalTicksPerQuarter d
  let tick := st.tick + -1 * amount
  some { st with
    voiceIndex := if st.isBackupInProgress then st.voiceIndex else st.voiceIndex + 1
    isBackupInProgress := true
    tick := if tick < 0 then tick + tick * -1 else tick }

/-- `parseForward`, private/mx/impl/MeasureReader.cpp 236-240, 381-385. -/
def parseForwardF (prec : Nat) (env : REnv) (d : Int) (st : RSt P) : Option (RSt P) := do
  let amount ← convertDurationF prec st.ticksPerQuarter env.globalTicksPerQuarter d
  some { st with isBackupInProgress := false, tick := st.tick + amount }

/-- `parseDirectionImpl`, private/mx/impl/MeasureReader.cpp 391-423, with the time of private/mx/impl/DirectionReader.cpp 102-138. -/
def parseDirectionF (prec : Nat) (env : REnv) (staff : Option Int) (offset : Int) (content : P) (st : RSt P) : Option (RSt P) :=
  let staffIndex := match staff with | some s => s - 1 | none => 0
  let sane := staff.isSome && decide (staffIndex < env.numStaves)
  if env.numStaves ≤ 0 then none
  else some { st with
    isBackupInProgress := false
    directions := st.directions ++
      [(if sane then staffIndex else 0,
        { tick := st.tick + roundMicroF prec offset, isStaffValueSpecified := sane, content := content })] }

/-- `parseProperties`, private/mx/impl/MeasureReader.cpp 433-547. -/
def parsePropertiesF (prec : Nat) (env : REnv) (a : Attributes P) (st : RSt P) : Option (RSt P) :=
  if a.clefs.any (fun c => decide (env.numStaves ≤ clefStaff c)) then none
  else some { st with
    isBackupInProgress := false
    ticksPerQuarter := match a.divisions with | some d => roundMicroF prec d | none => st.ticksPerQuarter
    keys := st.keys ++ a.keys.map (parseKey env st.tick)
    clefs := st.clefs ++ a.clefs.map (fun c => (clefStaff c, { tick := st.tick, content := c.content })) }

/-- `parseMusicDataChoice`, private/mx/impl/MeasureReader.cpp 218-318. -/
def parseElemF (prec : Nat) (env : REnv) (nextChord : Bool) (e : Elem P) (st : RSt P) : Option (RSt P) :=
  match e with
  | .note n => parseNoteF prec env nextChord n st
  | .backup d => parseBackupF prec env d st
  | .forward d => parseForwardF prec env d st
  | .direction s o c => parseDirectionF prec env s o c st
  | .attributes a => parsePropertiesF prec env a st
  | .barline l c => some (parseBarline l c st)
  | .other => some { st with isBackupInProgress := false }

/-- The loop of `getMeasureData`, private/mx/impl/MeasureReader.cpp 144-172. -/
def readElemsF (prec : Nat) (env : REnv) : List (Elem P) → RSt P → Option (RSt P)
  | [], st => some st
  | e :: es, st => do
    let st' ← parseElemF prec env (nextNoteIsChord false es) e st
    readElemsF prec env es st'

/-- The `<divisions>` of one child of a measure, rounded: private/mx/impl/ScoreReader.cpp 600-615. -/
def elemDivisionsF (prec : Nat) : Elem P → Option Int
  | .attributes a => a.divisions.map (roundMicroF prec)
  | _ => none

/-- `foundDivisions`, private/mx/impl/ScoreReader.cpp 592-621. -/
def foundDivisionsF (prec : Nat) (score : List (List (List (Elem P)))) : List Int :=
  ((score.flatten.flatten.filterMap (elemDivisionsF prec)).filter (fun d => decide (0 < d))).foldl (fun s d => setInsert d s) []

/-- `findMaxDivisionsPerQuarter`, private/mx/impl/ScoreReader.cpp 590-624. -/
def findMaxDivisionsPerQuarterF (prec : Nat) (score : List (List (List (Elem P)))) : Res Int := LcmGcd.lcmSet (foundDivisionsF prec score)

/-- The loop over the measures of a part, private/mx/impl/PartReader.cpp 96-115. -/
def readMeasuresF (prec : Nat) (env : REnv) : Int → List (List (Elem P)) → Option (List (RSt P) × Int)
  | tpq, [] => some ([], tpq)
  | tpq, m :: ms => do
    let r ← readElemsF prec env m (initRSt tpq)
    let (rs, t) ← readMeasuresF prec env r.ticksPerQuarter ms
    some (r :: rs, t)

/-- `PartReader::getPartData`, private/mx/impl/PartReader.cpp 80-121. -/
def readPartF (prec : Nat) (env : REnv) (divisionsValue : Int) (ms : List (List (Elem P))) : Option (List (RSt P) × Int) :=
  readMeasuresF prec env (if divisionsValue > 0 then divisionsValue else env.globalTicksPerQuarter) ms

/-- The loop over the parts, private/mx/impl/ScoreReader.cpp 291-298. -/
def readPartsF (prec : Nat) (G : Int) : Int → List (Int × List (List (Elem P))) → Option (List (List (RSt P)))
  | _, [] => some []
  | divisionsValue, (numStaves, ms) :: rest => do
    let (rs, t) ← readPartF prec { numStaves := numStaves, globalTicksPerQuarter := G } divisionsValue ms
    let rss ← readPartsF prec G t rest
    some (rs :: rss)

/-- Ticks per quarter and the parts of a score, private/mx/impl/ScoreReader.cpp 174, 290-298. -/
def readScoreTimesF (prec : Nat) (parts : List (Int × List (List (Elem P)))) : Option (Int × List (List (RSt P))) :=
  match findMaxDivisionsPerQuarterF prec (parts.map (·.2)) with
  | .error _ => none
  | .ok G => (readPartsF prec G (-1) parts).map (fun rs => (G, rs))

end Mx.Measure
