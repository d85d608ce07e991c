import Verif.Model.MeasureTypes

/-
Model of private/mx/impl/MeasureWriter.cpp (and of the parts of NoteWriter.cpp, DirectionWriter.cpp and
PropertiesWriter.cpp that decide order, time, staff and voice).

Simplifications: `int` arithmetic is exact (no overflow); a `DirectionData` yields exactly one element.
-/
namespace Mx.Measure

variable {P : Type}

/-- The part of the cursor that is constant while a voice is written: number of staves
(`Cursor::getNumStaves`), staff index and voice index. -/
structure WCtx where
  numStaves : Int
  staffIndex : Int
  voiceIndex : Int
deriving Repr

/-- State of a `MeasureWriter`: `myHistory.getCursor().tickTimePosition`, `myPreviousCursor.isChordActive`, the
iterators (as the list of what is still to be written), the buffer of the `PropertiesWriter` and the elements added to the measure. -/
structure WSt (P : Type) where
  tick : Int
  prevChord : Bool
  dirs : List (DirectionData P)
  clefs : List (Timed P)
  keys : List (KeyData P)
  mkeys : List (KeyData P)
  buf : Attributes P
  out : List (Elem P)
deriving Repr

/-- `core::Properties::hasContents` for the members used. -/
def Attributes.hasContents (a : Attributes P) : Bool :=
  a.divisions.isSome || a.staves.isSome || a.hasTime || a.hasTranspose || !a.keys.isEmpty || !a.clefs.isEmpty

/-- `PropertiesWriter::flushBuffer`, private/mx/impl/PropertiesWriter.cpp 119-141. -/
def flush (st : WSt P) : WSt P :=
  if st.buf.hasContents then { st with out := st.out ++ [.attributes st.buf], buf := {} }
  else { st with buf := {} }

/-- `PropertiesWriter::writeKey`, private/mx/impl/PropertiesWriter.cpp 151-173. -/
def writeKey (staffIndex : Int) (k : KeyData P) (a : Attributes P) : Attributes P :=
  { a with keys := a.keys ++
      [{ number := if staffIndex ≥ 0 then some (staffIndex + 1) else none
         isTraditional := k.isTraditional, content := k.content }] }

/-- `PropertiesWriter::writeClef`, private/mx/impl/PropertiesWriter.cpp 259-284. -/
def writeClef (staffIndex : Int) (c : Timed P) (a : Attributes P) : Attributes P :=
  { a with clefs := a.clefs ++
      [{ number := if staffIndex ≥ 0 then some (staffIndex + 1) else none, content := c.content }] }

/-- `core::PositiveDivisionsValue{ ticks }` in units of 0.000001: not positive values become 0.000001,
private/mx/core/Decimals.cpp 355-398, 489-512. -/
def durMicro (ticks : Int) : Int := if 0 < ticks then ticks * MICRO else 1

/-- `forward`, private/mx/impl/MeasureWriter.cpp 594-602. -/
def forward (ticks : Int) (st : WSt P) : WSt P :=
  { st with out := st.out ++ [.forward (durMicro ticks)], tick := st.tick + ticks }

/-- `backup`, private/mx/impl/MeasureWriter.cpp 564-591. -/
def backup (inTicks : Int) (st : WSt P) : WSt P :=
  let proposedNewTime := st.tick - inTicks
  let safeTickAmount := if proposedNewTime < 0 then inTicks + proposedNewTime else inTicks
  if safeTickAmount = 0 then st
  else { st with out := st.out ++ [.backup (durMicro safeTickAmount)], tick := st.tick + -1 * safeTickAmount }

/-- `writeForwardOrBackupIfNeeded`, private/mx/impl/MeasureWriter.cpp 543-561. -/
def writeForwardOrBackupIfNeeded (n : NoteData P) (st : WSt P) : WSt P :=
  let st := flush st
  if n.tick < 0 then st
  else
    let timeDifference := n.tick - st.tick
    if timeDifference < 0 then backup (-1 * timeDifference) st
    else if timeDifference > 0 then forward timeDifference st
    else st

/-- `writeDirection`, private/mx/impl/MeasureWriter.cpp 712-728, with the staff and offset of
`DirectionWriter::getDirectionLikeThings`, private/mx/impl/DirectionWriter.cpp 95-110. -/
def writeDirection (c : WCtx) (d : DirectionData P) (st : WSt P) : WSt P :=
  let st := flush st
  { st with out := st.out ++
      [.direction (if d.isStaffValueSpecified || c.staffIndex != 0 then some (c.staffIndex + 1) else none)
        (if d.tick ≠ st.tick then (d.tick - st.tick) * MICRO else 0) d.content] }

/-- One of the `for` loops of `writeDirections`: write directions as long as their time satisfies the
loop condition. -/
def writeDirectionsWhile (c : WCtx) (p : Int → Bool) (st : WSt P) : WSt P :=
  let ds := st.dirs.takeWhile (fun d => p d.tick)
  let rest := st.dirs.dropWhile (fun d => p d.tick)
  { ds.foldl (fun s d => writeDirection c d s) st with dirs := rest }

/-- `isTickTimeSameAsPreviousNote`, private/mx/impl/MeasureWriter.cpp 666 (`prev` is none for the first note). -/
def isTickTimeSameAsPreviousNote (prev : Option (NoteData P)) (n : NoteData P) : Bool :=
  match prev with
  | some p => n.tick == p.tick
  | none => false

/-- `isLastNoteOfChord`, private/mx/impl/MeasureWriter.cpp 690. -/
def isLastNoteOfChord (n : NoteData P) (next : Option (NoteData P)) : Bool :=
  match next with
  | some x => n.isChord && n.tick != x.tick
  | none => false

/-- `writeDirections`, private/mx/impl/MeasureWriter.cpp 649-709.  `cur` is the note at the iterator (none at the
end of the notes), `prev` and `next` its neighbours in the same voice. -/
def writeDirections (c : WCtx) (prev cur next : Option (NoteData P)) (st : WSt P) : WSt P :=
  match cur with
  | none => writeDirectionsWhile c (fun _ => true) st
  | some n =>
    let isLastNote := next.isNone
    let isFirstNote := !isLastNote && prev.isNone
    if isFirstNote then writeDirectionsWhile c (fun t => t ≤ max 0 n.tick) st
    else
      if n.isChord && !isLastNoteOfChord n next && isTickTimeSameAsPreviousNote prev n then st
      else writeDirectionsWhile c (fun t => t < st.tick + max 0 n.ticks) st

/-- At most one measure key before a note, private/mx/impl/MeasureWriter.cpp 454-461. -/
def writeMeasureKey (st : WSt P) : WSt P :=
  match st.mkeys with
  | k :: ks => if k.tick ≤ st.tick then { st with buf := writeKey (-1) k st.buf, mkeys := ks } else st
  | [] => st

/-- Clefs due before a note, private/mx/impl/MeasureWriter.cpp 463-467. -/
def writeDueClefs (c : WCtx) (st : WSt P) : WSt P :=
  { st with
    buf := (st.clefs.takeWhile (fun x : Timed P => x.tick ≤ st.tick)).foldl (fun b x => writeClef c.staffIndex x b) st.buf
    clefs := st.clefs.dropWhile (fun x : Timed P => x.tick ≤ st.tick) }

/-- Staff keys due before a note, private/mx/impl/MeasureWriter.cpp 469-472. -/
def writeDueKeys (c : WCtx) (st : WSt P) : WSt P :=
  { st with
    buf := (st.keys.takeWhile (fun x : KeyData P => x.tick ≤ st.tick)).foldl (fun b x => writeKey c.staffIndex x b) st.buf
    keys := st.keys.dropWhile (fun x : KeyData P => x.tick ≤ st.tick) }

/-- The keys and clefs written before a note, private/mx/impl/MeasureWriter.cpp 454-474. -/
def writeKeysAndClefs (c : WCtx) (st : WSt P) : WSt P :=
  flush (writeDueKeys c (writeDueClefs c (writeMeasureKey st)))

/-- The note element, private/mx/impl/NoteWriter.cpp 275-333 (duration, chord), 384-398 (staff, voice). -/
def noteElem (c : WCtx) (isPreviousNoteAChordMember isStartOfChord : Bool) (n : NoteData P) : NoteElem P :=
  { chord := n.isChord && isPreviousNoteAChordMember && !isStartOfChord
    kind := n.kind
    dur := if n.kind = .grace then 0 else durMicro n.ticks
    staff := if c.numStaves > 1 ∧ c.staffIndex ≥ 0 then some (c.staffIndex + 1) else none
    voice := if c.voiceIndex ≥ 0 then some (c.voiceIndex + 1) else none
    content := n.content }

/-- `isAdvanceNeeded`, private/mx/impl/MeasureWriter.cpp 605-628. -/
def isAdvanceNeeded (n : NoteData P) (next : Option (NoteData P)) : Bool :=
  if n.isChord then
    match next with
    | none => true
    | some x => x.tick != n.tick
  else true

/-- `advanceCursorIfNeeded`, private/mx/impl/MeasureWriter.cpp 631-646. -/
def advanceCursorIfNeeded (n : NoteData P) (next : Option (NoteData P)) (st : WSt P) : WSt P :=
  if isAdvanceNeeded n next then { st with tick := max st.tick 0 + max n.ticks 0 } else st

/-- Adding the note itself, private/mx/impl/MeasureWriter.cpp 490-494. -/
def addNote (c : WCtx) (isStartOfChord : Bool) (n : NoteData P) (st : WSt P) : WSt P :=
  { st with out := st.out ++ [.note (noteElem c st.prevChord isStartOfChord n)] }

/-- The loop over the notes of a voice, private/mx/impl/MeasureWriter.cpp 413-500.  `isFirst`,
`prevChordTick` and `prev` are the loop variables `isFirstNote`, `previousChordTickPosition` and the note before. -/
def writeNotes (c : WCtx) : Bool → Int → Option (NoteData P) → List (NoteData P) → WSt P → WSt P
  | _, _, _, [], st => st
  | isFirst, prevChordTick, prev, n :: rest, st =>
    let st1 := writeForwardOrBackupIfNeeded n st
    let isStartOfChord := n.isChord && (isFirst || st1.tick != prevChordTick)
    let prevChordTick := if n.isChord then st1.tick else prevChordTick
    let st2 := writeKeysAndClefs c st1
    let st3 := writeDirections c prev (some n) rest.head? st2
    let st4 := addNote c isStartOfChord n st3
    let st5 := { advanceCursorIfNeeded n rest.head? st4 with prevChord := n.isChord }
    writeNotes c false prevChordTick (some n) rest st5

/-- One voice, private/mx/impl/MeasureWriter.cpp 396-504. -/
def writeVoice (numStaves staffIndex : Int) (voice : Int × List (NoteData P)) (st : WSt P) : WSt P :=
  let c : WCtx := { numStaves := numStaves, staffIndex := staffIndex, voiceIndex := voice.1 }
  let st := writeDirections c none voice.2.head? voice.2.tail.head? st
  let st := writeNotes c true (-2) none voice.2 st
  writeDirections c voice.2.getLast? none none st

/-- The measure key written at the end of a staff, private/mx/impl/MeasureWriter.cpp 524-531. -/
def writeRemainingMeasureKey (st : WSt P) : WSt P :=
  match st.mkeys with
  | k :: ks => if k.tick ≠ 0 then { st with buf := writeKey (-1) k st.buf, mkeys := ks } else st
  | [] => st

/-- Keys and clefs left at the end of a staff, private/mx/impl/MeasureWriter.cpp 511-538. -/
def writeRemaining (staffIndex : Int) (st : WSt P) : WSt P :=
  if !st.clefs.isEmpty || !st.mkeys.isEmpty || !st.keys.isEmpty then
    let st := { st with buf := st.clefs.foldl (fun b x => writeClef staffIndex x b) st.buf, clefs := [] }
    let st := writeRemainingMeasureKey st
    let st := { st with buf := st.keys.foldl (fun b x => writeKey staffIndex x b) st.buf, keys := [] }
    flush st
  else st

/-- `writeVoices`, private/mx/impl/MeasureWriter.cpp 386-540. -/
def writeVoices (numStaves staffIndex : Int) (staff : StaffData P) (st : WSt P) : WSt P :=
  let st := { st with
    clefs := staff.clefs.dropWhile (fun x => x.tick = 0)
    keys := staff.keys
    dirs := staff.directions }
  let st := staff.voices.foldl (fun s v => writeVoice numStaves staffIndex v s) st
  let st := writeDirections { numStaves := numStaves, staffIndex := staffIndex, voiceIndex := 0 } none none none st
  writeRemaining staffIndex st

/-- The loop of `writeStaves`, private/mx/impl/MeasureWriter.cpp 378-382. -/
def writeStavesFrom (numStaves : Int) : Int → List (StaffData P) → WSt P → WSt P
  | _, [], st => st
  | i, s :: rest, st => writeStavesFrom numStaves (i + 1) rest (writeVoices numStaves i s st)

/-- One `<barline>`, private/mx/impl/MeasureWriter.cpp 757-771 (the location). -/
def barlineElem (b : BarlineData P) : Elem P :=
  let location := if b.location ≠ .unspecified then b.location else if b.tick = 0 then .left else .right
  .barline (some location) b.content

/-- What a writer needs to know besides the measure: `Cursor::getNumStaves`, ticks per quarter,
`isFirstMeasureInPart`, and whether a time signature / transposition is to be written and whether layout elements come first. -/
structure WEnv where
  numStaves : Int
  ticksPerQuarter : Int
  isFirstMeasureInPart : Bool
  writesTime : Bool
  writesTranspose : Bool
  printElements : Nat
deriving Repr

/-- Clefs at the beginning, private/mx/impl/MeasureWriter.cpp 228-245. -/
def globalClefs (numStaves : Int) : Int → List (StaffData P) → Attributes P → Attributes P
  | _, [], a => a
  | i, s :: rest, a =>
    let idx := if numStaves > 1 then i else -1
    globalClefs numStaves (i + 1) rest
      ((s.clefs.takeWhile (fun x => x.tick = 0)).foldl (fun b x => writeClef idx x b) a)

/-- `writeMeasureGlobals`, private/mx/impl/MeasureWriter.cpp 174-268: the initial attributes (buffered). -/
def globals (env : WEnv) (m : MeasureData P) : Attributes P :=
  let a : Attributes P :=
    { divisions := if env.isFirstMeasureInPart then some (durMicro env.ticksPerQuarter) else none
      staves := if env.isFirstMeasureInPart ∧ m.staves.length > 1 then some m.staves.length else none
      hasTime := env.writesTime
      hasTranspose := env.writesTranspose }
  let a := globalClefs env.numStaves 0 m.staves a
  (m.keys.takeWhile (fun k => k.tick = 0)).foldl (fun b k => writeKey k.staffIndex k b) a

/-- `getPartwiseMeasure`, private/mx/impl/MeasureWriter.cpp 155-172: the children of the written measure. -/
def writeMeasure (env : WEnv) (m : MeasureData P) : List (Elem P) :=
  let early := m.barlines.takeWhile (fun b => b.tick ≤ 0)
  let late := (m.barlines.dropWhile (fun b => b.tick ≤ 0)).takeWhile (fun b => b.tick ≤ TICK_TIME_INFINITY)
  let st : WSt P :=
    { tick := 0, prevChord := false, dirs := [], clefs := [], keys := []
      mkeys := m.keys.dropWhile (fun k => k.tick = 0)
      buf := globals env m
      out := early.map barlineElem ++ List.replicate env.printElements .other }
  let st := flush (writeStavesFrom env.numStaves 0 m.staves st)
  st.out ++ late.map barlineElem

end Mx.Measure
