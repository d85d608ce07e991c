import Verif.Model.MeasureWriter
import Verif.Model.MeasureReader
import Verif.Model.Basic

/-
The measure writer and the measure reader with the range of `int`: every time, index and difference that the code calculates in an `int` is tested, and one that does not fit is undefined behaviour (signed overflow,
or a `static_cast<int>` of a number that does not fit).  What is written and read otherwise is that of MeasureWriter.lean and MeasureReader.lean.
Simplification: the sizes of containers and the numbers of the document (staff, clef and key numbers, which are positive `int`s) are taken as they are.
-/
namespace Mx.Measure

variable {P : Type}

/-- Calculated numbers fit into `int`. -/
def need (xs : List Int) : Res Unit := if ∀ x ∈ xs, InInt x then .ok () else .error .undefined

/-- A call that returns or throws. -/
def toRes {α : Type} : Option α → Res α
  | some a => .ok a
  | none => .error .throws

/-! ### Reading -/

/-- `convertDurationToGlobalTickScale`, private/mx/impl/Cursor.cpp 56-67: the result is cast to `int`. -/
def converted (ticksPerQuarter globalTicksPerQuarter d : Int) : Res Int :=
  match convertDuration ticksPerQuarter globalTicksPerQuarter d with
  | some t => chkR t
  | none => .error .undefined

/-- `parseNote`, private/mx/impl/MeasureReader.cpp 321-359. -/
def parseNoteR (env : REnv) (nextChord : Bool) (n : NoteElem P) (st : RSt P) : Res (RSt P) := do
  let ticks ← converted st.ticksPerQuarter env.globalTicksPerQuarter (if n.kind = .grace then 0 else n.dur)
  need (if !(n.chord || nextChord) || !nextChord then [st.tick + ticks] else [])
  toRes (parseNote env nextChord n st)

/-- `parseBackup`, private/mx/impl/MeasureReader.cpp 362-378. -/
def parseBackupR (env : REnv) (d : Int) (st : RSt P) : Res (RSt P) := do
  need (if st.isBackupInProgress then [] else [st.voiceIndex + 1])
  let amount ← converted st.ticksPerQuarter env.globalTicksPerQuarter d
  need [-1 * amount, st.tick + -1 * amount]
  need (if st.tick + -1 * amount < 0 then [(st.tick + -1 * amount) * -1] else [])
  toRes (parseBackup env d st)

/-- `parseForward`, private/mx/impl/MeasureReader.cpp 381-385. -/
def parseForwardR (env : REnv) (d : Int) (st : RSt P) : Res (RSt P) := do
  let amount ← converted st.ticksPerQuarter env.globalTicksPerQuarter d
  need [st.tick + amount]
  toRes (parseForward env d st)

/-- `parseDirectionImpl`, private/mx/impl/MeasureReader.cpp 391-423, and `updateTimeForOffset`, private/mx/impl/DirectionReader.cpp 120-138. -/
def parseDirectionR (env : REnv) (staff : Option Int) (offset : Int) (content : P) (st : RSt P) : Res (RSt P) := do
  need [roundMicro offset]
  need [st.tick + roundMicro offset]
  toRes (parseDirection env staff offset content st)

/-- `parseProperties`, private/mx/impl/MeasureReader.cpp 433-441: the divisions are cast to `int`. -/
def parsePropertiesR (env : REnv) (a : Attributes P) (st : RSt P) : Res (RSt P) := do
  need (a.divisions.toList.map roundMicro)
  toRes (parseProperties env a st)

/-- `parseMusicDataChoice`, private/mx/impl/MeasureReader.cpp 218-318. -/
def parseElemR (env : REnv) (nextChord : Bool) (e : Elem P) (st : RSt P) : Res (RSt P) :=
  match e with
  | .note n => parseNoteR env nextChord n st
  | .backup d => parseBackupR env d st
  | .forward d => parseForwardR env d st
  | .direction s o c => parseDirectionR env s o c st
  | .attributes a => parsePropertiesR env a st
  | .barline l c => .ok (parseBarline l c st)
  | .other => .ok { st with isBackupInProgress := false }

/-- The loop of `getMeasureData`, private/mx/impl/MeasureReader.cpp 144-172. -/
def readElemsR (env : REnv) : List (Elem P) → RSt P → Res (RSt P)
  | [], st => .ok st
  | e :: es, st => do
    let st' ← parseElemR env (nextNoteIsChord false es) e st
    readElemsR env es st'

/-! ### Writing -/

/-- The numbers of `backup`, private/mx/impl/MeasureWriter.cpp 564-591. -/
def backupInts (inTicks tick : Int) : List Int :=
  let proposedNewTime := tick - inTicks
  let safeTickAmount := if proposedNewTime < 0 then inTicks + proposedNewTime else inTicks
  [proposedNewTime, safeTickAmount, -1 * safeTickAmount, tick + -1 * safeTickAmount]

/-- The numbers of `writeForwardOrBackupIfNeeded`, private/mx/impl/MeasureWriter.cpp 543-561, and `forward`, 594-602. -/
def moveInts (n : NoteData P) (tick : Int) : List Int :=
  if n.tick < 0 then []
  else
    let timeDifference := n.tick - tick
    if timeDifference < 0 then timeDifference :: -1 * timeDifference :: backupInts (-1 * timeDifference) tick
    else if timeDifference > 0 then [timeDifference, tick + timeDifference]
    else [timeDifference]

/-- The directions that `writeDirections` writes, private/mx/impl/MeasureWriter.cpp 649-709 (see `writeDirections`). -/
def dueDirections (prev cur next : Option (NoteData P)) (st : WSt P) : List (DirectionData P) :=
  match cur with
  | none => st.dirs
  | some n =>
    if !next.isNone && prev.isNone then st.dirs.takeWhile (fun d => d.tick ≤ max 0 n.tick)
    else if n.isChord && !isLastNoteOfChord n next && isTickTimeSameAsPreviousNote prev n then []
    else st.dirs.takeWhile (fun d => d.tick < st.tick + max 0 n.ticks)

/-- `currentNoteEndTime`, private/mx/impl/MeasureWriter.cpp 699; it is only calculated if there are directions left and the note is neither the first of several nor within a chord. -/
def endTimeInts (prev cur next : Option (NoteData P)) (st : WSt P) : List Int :=
  match cur with
  | none => []
  | some n =>
    if st.dirs.isEmpty || (!next.isNone && prev.isNone) then []
    else if n.isChord && !isLastNoteOfChord n next && isTickTimeSameAsPreviousNote prev n then []
    else [st.tick + max 0 n.ticks]

/-- `writeDirections`, private/mx/impl/MeasureWriter.cpp 649-709; the offset, private/mx/impl/DirectionWriter.cpp 105. -/
def writeDirectionsR (c : WCtx) (prev cur next : Option (NoteData P)) (st : WSt P) : Res (WSt P) := do
  need (endTimeInts prev cur next st)
  need ((dueDirections prev cur next st).map fun d => d.tick - st.tick)
  .ok (writeDirections c prev cur next st)

/-- The numbers of `advanceCursorIfNeeded`, private/mx/impl/MeasureWriter.cpp 631-646, and of `setTime`, private/mx/impl/MeasureWriter.h 155-168. -/
def advanceInts (n : NoteData P) (next : Option (NoteData P)) (tick : Int) : List Int :=
  if isAdvanceNeeded n next then [max tick 0 + max n.ticks 0, max tick 0 + max n.ticks 0 - tick] else []

/-- The loop over the notes of a voice, private/mx/impl/MeasureWriter.cpp 413-500; the number of the voice, private/mx/impl/NoteWriter.cpp 392-396. -/
def writeNotesR (c : WCtx) : Bool → Int → Option (NoteData P) → List (NoteData P) → WSt P → Res (WSt P)
  | _, _, _, [], st => .ok st
  | isFirst, prevChordTick, prev, n :: rest, st => do
    need (moveInts n st.tick)
    let st1 := writeForwardOrBackupIfNeeded n st
    let isStartOfChord := n.isChord && (isFirst || st1.tick != prevChordTick)
    let prevChordTick := if n.isChord then st1.tick else prevChordTick
    let st2 := writeKeysAndClefs c st1
    let st3 ← writeDirectionsR c prev (some n) rest.head? st2
    need (if c.voiceIndex ≥ 0 then [c.voiceIndex + 1] else [])
    let st4 := addNote c isStartOfChord n st3
    need (advanceInts n rest.head? st4.tick)
    let st5 := { advanceCursorIfNeeded n rest.head? st4 with prevChord := n.isChord }
    writeNotesR c false prevChordTick (some n) rest st5

/-- One voice, private/mx/impl/MeasureWriter.cpp 396-504. -/
def writeVoiceR (numStaves staffIndex : Int) (voice : Int × List (NoteData P)) (st : WSt P) : Res (WSt P) := do
  let c : WCtx := { numStaves := numStaves, staffIndex := staffIndex, voiceIndex := voice.1 }
  let st ← writeDirectionsR c none voice.2.head? voice.2.tail.head? st
  let st ← writeNotesR c true (-2) none voice.2 st
  writeDirectionsR c voice.2.getLast? none none st

/-- The loop over the voices of a staff, private/mx/impl/MeasureWriter.cpp 396-504. -/
def writeVoiceListR (numStaves staffIndex : Int) : List (Int × List (NoteData P)) → WSt P → Res (WSt P)
  | [], st => .ok st
  | v :: vs, st => do
    let st ← writeVoiceR numStaves staffIndex v st
    writeVoiceListR numStaves staffIndex vs st

/-- `writeVoices`, private/mx/impl/MeasureWriter.cpp 386-540. -/
def writeVoicesR (numStaves staffIndex : Int) (staff : StaffData P) (st : WSt P) : Res (WSt P) := do
  let st := { st with
    clefs := staff.clefs.dropWhile (fun x => x.tick = 0)
    keys := staff.keys
    dirs := staff.directions }
  let st ← writeVoiceListR numStaves staffIndex staff.voices st
  let st ← writeDirectionsR { numStaves := numStaves, staffIndex := staffIndex, voiceIndex := 0 } none none none st
  .ok (writeRemaining staffIndex st)

/-- The loop of `writeStaves`, private/mx/impl/MeasureWriter.cpp 378-382, with `++myCursor.staffIndex`, private/mx/impl/MeasureWriter.h 104. The numbers of the staves in keys, clefs, notes and directions are the same number. -/
def writeStavesFromR (numStaves : Int) : Int → List (StaffData P) → WSt P → Res (WSt P)
  | _, [], st => .ok st
  | i, s :: rest, st => do
    let st ← writeVoicesR numStaves i s st
    need [i + 1]
    writeStavesFromR numStaves (i + 1) rest st

/-- `getPartwiseMeasure`, private/mx/impl/MeasureWriter.cpp 155-172. -/
def writeMeasureR (env : WEnv) (m : MeasureData P) : Res (List (Elem P)) := do
  let early := m.barlines.takeWhile (fun b => b.tick ≤ 0)
  let late := (m.barlines.dropWhile (fun b => b.tick ≤ 0)).takeWhile (fun b => b.tick ≤ TICK_TIME_INFINITY)
  let st : WSt P :=
    { tick := 0, prevChord := false, dirs := [], clefs := [], keys := []
      mkeys := m.keys.dropWhile (fun k => k.tick = 0)
      buf := globals env m
      out := early.map barlineElem ++ List.replicate env.printElements .other }
  let st ← writeStavesFromR env.numStaves 0 m.staves st
  .ok ((flush st).out ++ late.map barlineElem)

end Mx.Measure
