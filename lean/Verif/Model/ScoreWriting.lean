import Verif.Model.MeasureWriter
import Verif.Model.PartStaves
import Verif.Model.Directions

/-
Model of the exceptions of `ScoreWriter` (private/mx/impl/ScoreWriter.cpp 129-136), `PartWriter::writeMeasures` (PartWriter.cpp 244-287) and `MeasureWriter`
(MeasureWriter.cpp 155-728): the loops of Model/MeasureWriter.lean with the assertions of `backup` and the outcome of the writer of directions.

Simplifications: those of Model/MeasureWriter.lean; the assertions on pointers in NoteWriter.cpp 277, 332, 338 and PropertiesWriter.cpp 116 and on iterators in MeasureWriter.cpp 519 look at
values that have just been made; `at` in NoteWriter.cpp 134-164 is within the bounds of its loop; those in DirectionWriter.cpp 124 and DynamicsWriter.cpp 19, 29 have been tested by the caller
(Model/Marks.lean).
-/
namespace Mx.Writing
open Mx.Measure

/-- The content of what stands in a measure: that of a direction, nothing for notes, keys, clefs and barlines. -/
abbrev Content := Option Directions.DirectionData

/-- `backup`, private/mx/impl/MeasureWriter.cpp 564-591, with its assertions. -/
def backupE (inTicks : Int) (st : WSt Content) : Res (WSt Content) :=
  if st.tick < 0 then .error .throws
  else
    let proposedNewTime := st.tick - inTicks
    let safeTickAmount := if proposedNewTime < 0 then inTicks + proposedNewTime else inTicks
    if safeTickAmount < 0 then .error .throws else .ok (backup inTicks st)

/-- `writeForwardOrBackupIfNeeded`, private/mx/impl/MeasureWriter.cpp 543-561. -/
def moveE (n : NoteData Content) (st : WSt Content) : Res (WSt Content) :=
  let st := flush st
  if n.tick < 0 then .ok st
  else
    let timeDifference := n.tick - st.tick
    if timeDifference < 0 then backupE (-1 * timeDifference) st
    else if timeDifference > 0 then .ok (forward timeDifference st)
    else .ok st

/-- What `DirectionWriter` does with a direction, private/mx/impl/MeasureWriter.cpp 721-722. -/
def directionE (c : WCtx) (tick : Int) (d : DirectionData Content) : Res Unit :=
  match d.content with
  | none => .ok ()
  | some x => (Directions.getDirectionLikeThings c.staffIndex tick { x with tickTimePosition := d.tick, isStaffValueSpecified := d.isStaffValueSpecified }).map fun _ => ()

/-- `writeDirection`, private/mx/impl/MeasureWriter.cpp 712-728. -/
def writeDirectionE (c : WCtx) (st : WSt Content) (d : DirectionData Content) : Res (WSt Content) :=
  match directionE c st.tick d with
  | .error f => .error f
  | .ok _ => .ok (writeDirection c d st)

/-- One of the `for` loops of `writeDirections`. -/
def writeDirectionsWhileE (c : WCtx) (p : Int → Bool) (st : WSt Content) : Res (WSt Content) := do
  let st' ← (st.dirs.takeWhile (fun d => p d.tick)).foldlM (writeDirectionE c) st
  .ok { st' with dirs := st.dirs.dropWhile (fun d => p d.tick) }

/-- `writeDirections`, private/mx/impl/MeasureWriter.cpp 649-709. -/
def writeDirectionsE (c : WCtx) (prev cur next : Option (NoteData Content)) (st : WSt Content) : Res (WSt Content) :=
  match cur with
  | none => writeDirectionsWhileE c (fun _ => true) st
  | some n =>
    if !next.isNone && prev.isNone then writeDirectionsWhileE c (fun t => t ≤ max 0 n.tick) st
    else if n.isChord && !isLastNoteOfChord n next && isTickTimeSameAsPreviousNote prev n then .ok st
    else writeDirectionsWhileE c (fun t => t < st.tick + max 0 n.ticks) st

/-- The loop over the notes of a voice, private/mx/impl/MeasureWriter.cpp 413-500. -/
def writeNotesE (c : WCtx) : Bool → Int → Option (NoteData Content) → List (NoteData Content) → WSt Content → Res (WSt Content)
  | _, _, _, [], st => .ok st
  | isFirst, prevChordTick, prev, n :: rest, st => do
    let st1 ← moveE n st
    let isStartOfChord := n.isChord && (isFirst || st1.tick != prevChordTick)
    let prevChordTick := if n.isChord then st1.tick else prevChordTick
    let st2 := writeKeysAndClefs c st1
    let st3 ← writeDirectionsE c prev (some n) rest.head? st2
    let st4 := addNote c isStartOfChord n st3
    let st5 := { advanceCursorIfNeeded n rest.head? st4 with prevChord := n.isChord }
    writeNotesE c false prevChordTick (some n) rest st5

/-- One voice, private/mx/impl/MeasureWriter.cpp 396-504. -/
def writeVoiceE (numStaves staffIndex : Int) (st : WSt Content) (voice : Int × List (NoteData Content)) : Res (WSt Content) := do
  let c : WCtx := { numStaves := numStaves, staffIndex := staffIndex, voiceIndex := voice.1 }
  let st ← writeDirectionsE c none voice.2.head? voice.2.tail.head? st
  let st ← writeNotesE c true (-2) none voice.2 st
  writeDirectionsE c voice.2.getLast? none none st

/-- `writeVoices`, private/mx/impl/MeasureWriter.cpp 386-540. -/
def writeVoicesE (numStaves staffIndex : Int) (staff : StaffData Content) (st : WSt Content) : Res (WSt Content) := do
  let st := { st with
    clefs := staff.clefs.dropWhile (fun x => x.tick = 0)
    keys := staff.keys
    dirs := staff.directions }
  let st ← staff.voices.foldlM (writeVoiceE numStaves staffIndex) st
  let st ← writeDirectionsE { numStaves := numStaves, staffIndex := staffIndex, voiceIndex := 0 } none none none st
  .ok (writeRemaining staffIndex st)

/-- The loop of `writeStaves`, private/mx/impl/MeasureWriter.cpp 378-382. -/
def writeStavesFromE (numStaves : Int) : Int → List (StaffData Content) → WSt Content → Res (WSt Content)
  | _, [], st => .ok st
  | i, s :: rest, st => do
    let st ← writeVoicesE numStaves i s st
    writeStavesFromE numStaves (i + 1) rest st

/-- `getPartwiseMeasure`, private/mx/impl/MeasureWriter.cpp 155-172. -/
def writeMeasureE (env : WEnv) (m : MeasureData Content) : Res (List (Elem Content)) := do
  let early := m.barlines.takeWhile (fun b => b.tick ≤ 0)
  let late := (m.barlines.dropWhile (fun b => b.tick ≤ 0)).takeWhile (fun b => b.tick ≤ TICK_TIME_INFINITY)
  let st : WSt Content :=
    { tick := 0, prevChord := false, dirs := [], clefs := [], keys := []
      mkeys := m.keys.dropWhile (fun k => k.tick = 0)
      buf := globals env m
      out := early.map barlineElem ++ List.replicate env.printElements .other }
  let st ← writeStavesFromE env.numStaves 0 m.staves st
  .ok ((flush st).out ++ late.map barlineElem)

/-- The loop over the measures, private/mx/impl/PartWriter.cpp 272-286. -/
def writeMeasuresFromE (numStaves ticksPerQuarter : Int) : Bool → List (Extras × MeasureData Content) → Res (List (List (Elem Content)))
  | _, [] => .ok []
  | first, (x, m) :: rest => do
    let es ← writeMeasureE (x.env numStaves ticksPerQuarter first) m
    let ess ← writeMeasuresFromE numStaves ticksPerQuarter false rest
    .ok (es :: ess)

/-- `PartWriter::writeMeasures`, private/mx/impl/PartWriter.cpp 244-287; `measures.at( 0 )` in line 267 is only reached with at least one measure. -/
def writePartE (ticksPerQuarter : Int) (transposition : Option Extras) (ms : List (Extras × MeasureData Content)) : Res (List (List (Elem Content))) :=
  match ms, transposition with
  | [], none => .ok [[]]
  | [], some x => writeMeasuresFromE 0 ticksPerQuarter true [(x, { staves := [], keys := [], barlines := [] })]
  | (x, m) :: rest, _ => writeMeasuresFromE m.staves.length ticksPerQuarter true ((x, m) :: rest)

/-- The loop over the parts, private/mx/impl/ScoreWriter.cpp 129-136. -/
def writePartsE (ticksPerQuarter : Int) : List (PartData Content) → Res (List (List (List (Elem Content))))
  | [] => .ok []
  | p :: ps => do
    let ms ← writePartE ticksPerQuarter p.transposition p.measures
    let mss ← writePartsE ticksPerQuarter ps
    .ok (ms :: mss)

end Mx.Writing
