import Verif.Model.MeasureTypes

/-
Model of private/mx/impl/MeasureReader.cpp (with NoteFunctions.cpp 146-147, NoteReader.cpp 134-164 and 239-259,
Cursor.cpp 40-67, DirectionReader.cpp 102-138).

Simplifications: `int` arithmetic is exact (no overflow); `none` is an exception or undefined behaviour.
Notes, directions, clefs are collected in document order together with the staff and voice they are inserted into,
and inserted at the end; insertion does not influence anything else, so the order of these two steps is irrelevant.
-/
namespace Mx.Measure

variable {P : Type}

/-- `std::ceil` of the fraction `a / b` (`b > 0`). -/
def ceilDiv (a b : Int) : Int := -((-a) / b)

/-- `static_cast<int>( std::ceil( value - 0.5 ) )` for a value in millionths. -/
def roundMicro (d : Int) : Int := ceilDiv (2 * d - MICRO) (2 * MICRO)

/-- `convertDurationToGlobalTickScale`, private/mx/impl/Cursor.cpp 56-67: `ceil( d * (G/C) - 1/2 )` with exact arithmetic.
A division by zero gives an infinite or NaN value whose conversion to int is undefined. -/
def convertDuration (ticksPerQuarter globalTicksPerQuarter : Int) (d : Int) : Option Int :=
  if ticksPerQuarter = globalTicksPerQuarter then some (roundMicro d)
  else if ticksPerQuarter = 0 then none
  else if 0 < ticksPerQuarter then
    some (ceilDiv (2 * d * globalTicksPerQuarter - ticksPerQuarter * MICRO) (2 * ticksPerQuarter * MICRO))
  else
    some (ceilDiv (-2 * d * globalTicksPerQuarter + ticksPerQuarter * MICRO) (-2 * ticksPerQuarter * MICRO))

/-- A note with the staff and (provisional) voice it is inserted into. -/
structure ReadNote (P : Type) where
  staff : Int
  voice : Int
  note : NoteData P
deriving Repr, DecidableEq

/-- Constant parts of the cursor: `getNumStaves`, `getGlobalTicksPerQuarter`. -/
structure REnv where
  numStaves : Int
  globalTicksPerQuarter : Int
deriving Repr

/-- State of a `MeasureReader`. -/
structure RSt (P : Type) where
  tick : Int
  ticksPerQuarter : Int
  voiceIndex : Int
  isBackupInProgress : Bool
  notes : List (ReadNote P)
  directions : List (Int × DirectionData P)
  clefs : List (Int × Timed P)
  keys : List (KeyData P)
  barlines : List (BarlineData P)
deriving Repr, DecidableEq

/-- `noteDataStaffIndex`, private/mx/impl/MeasureReader.cpp 339-346 with NoteReader.cpp 71, 239-246. -/
def noteStaffIndex (n : NoteElem P) : Int :=
  let i := n.staff.getD 0 - 1
  if i < 0 then 0 else i

/-- `NoteFunctions::parseNote`, private/mx/impl/NoteFunctions.cpp 97-147; the chord flag is replaced by
the caller; a missing voice is -1 (NoteReader.cpp 249-259). -/
def parseNoteData (isChord : Bool) (tick ticks : Int) (n : NoteElem P) : NoteData P :=
  { tick := tick, ticks := ticks, isChord := isChord, kind := n.kind, userVoice := n.voice.getD (-1)
    content := n.content }

/-- `parseNote`, private/mx/impl/MeasureReader.cpp 321-359, with the duration of NoteReader.cpp 134-164
(grace notes: 0). -/
def parseNote (env : REnv) (nextChord : Bool) (n : NoteElem P) (st : RSt P) : Option (RSt P) := do
  let ticks ← convertDuration st.ticksPerQuarter env.globalTicksPerQuarter (if n.kind = .grace then 0 else n.dur)
  let staff := noteStaffIndex n
  if env.numStaves ≤ staff then none
  else
    let isThis := n.chord || nextChord
    let note := parseNoteData isThis st.tick ticks n
    let tick := if !isThis || !nextChord then st.tick + ticks else st.tick
    some { st with
      isBackupInProgress := false
      tick := tick
      notes := st.notes ++ [{ staff := staff, voice := st.voiceIndex, note := note }] }

/-- `parseBackup`, private/mx/impl/MeasureReader.cpp 362-378. -/
def parseBackup (env : REnv) (d : Int) (st : RSt P) : Option (RSt P) := do
  let amount ← convertDuration st.ticksPerQuarter env.globalTicksPerQuarter d
  let tick := st.tick + -1 * amount
  some { st with
    voiceIndex := if st.isBackupInProgress then st.voiceIndex else st.voiceIndex + 1
    isBackupInProgress := true
    tick := if tick < 0 then tick + tick * -1 else tick }

/-- `parseForward`, private/mx/impl/MeasureReader.cpp 236-240, 381-385. -/
def parseForward (env : REnv) (d : Int) (st : RSt P) : Option (RSt P) := do
  let amount ← convertDuration st.ticksPerQuarter env.globalTicksPerQuarter d
  some { st with isBackupInProgress := false, tick := st.tick + amount }

/-- `parseDirectionImpl`, private/mx/impl/MeasureReader.cpp 391-423, with the time of
private/mx/impl/DirectionReader.cpp 102-138. -/
def parseDirection (env : REnv) (staff : Option Int) (offset : Int) (content : P) (st : RSt P) : Option (RSt P) :=
  -- the staff number is a positive integer, so the cast to size_t is exact
  let staffIndex := match staff with | some s => s - 1 | none => 0
  let sane := staff.isSome && decide (staffIndex < env.numStaves)
  if env.numStaves ≤ 0 then none
  else some { st with
    isBackupInProgress := false
    directions := st.directions ++
      [(if sane then staffIndex else 0,
        { tick := st.tick + roundMicro offset, isStaffValueSpecified := sane, content := content })] }

/-- A `<key>`, private/mx/impl/MeasureReader.cpp 458-534.  A non-traditional key keeps the default time and staff. -/
def parseKey (env : REnv) (tick : Int) (k : KeyElem P) : KeyData P :=
  if k.isTraditional then
    { tick := tick
      staffIndex := match k.number with
        | some n => if n - 1 > env.numStaves - 1 then -1 else n - 1
        | none => -1
      isTraditional := true, content := k.content }
  else { tick := 0, staffIndex := -1, isTraditional := false, content := k.content }

/-- The staff of a `<clef>`, private/mx/impl/MeasureReader.cpp 732-742. -/
def clefStaff (c : ClefElem P) : Int := match c.number with | some n => n - 1 | none => 0

/-- `parseProperties`, private/mx/impl/MeasureReader.cpp 433-547 (divisions, keys, clefs); a clef of a
staff that does not exist throws (`at`, line 789). -/
def parseProperties (env : REnv) (a : Attributes P) (st : RSt P) : Option (RSt P) :=
  if a.clefs.any (fun c => decide (env.numStaves ≤ clefStaff c)) then none
  else some { st with
    isBackupInProgress := false
    ticksPerQuarter := match a.divisions with | some d => roundMicro d | none => st.ticksPerQuarter
    keys := st.keys ++ a.keys.map (parseKey env st.tick)
    clefs := st.clefs ++ a.clefs.map (fun c => (clefStaff c, { tick := st.tick, content := c.content })) }

/-- `parseBarline`, private/mx/impl/MeasureReader.cpp 574-643 (time and location). -/
def parseBarline (location : Option Location) (content : P) (st : RSt P) : RSt P :=
  let loc := location.getD .unspecified
  { st with
    isBackupInProgress := false
    barlines := st.barlines ++
      [{ tick := if loc = .right then TICK_TIME_INFINITY else st.tick, location := loc, content := content }] }

/-- `parseMusicDataChoice`, private/mx/impl/MeasureReader.cpp 218-318. -/
def parseElem (env : REnv) (nextChord : Bool) (e : Elem P) (st : RSt P) : Option (RSt P) :=
  match e with
  | .note n => parseNote env nextChord n st
  | .backup d => parseBackup env d st
  | .forward d => parseForward env d st
  | .direction s o c => parseDirection env s o c st
  | .attributes a => parseProperties env a st
  | .barline l c => some (parseBarline l c st)
  | .other => some { st with isBackupInProgress := false }

/-- Whether the next `<note>` has a `<chord/>` tag, private/mx/impl/MeasureReader.cpp 152-165 and 326-332;
`dflt` is the answer if there is no further note. -/
def nextNoteIsChord (dflt : Bool) : List (Elem P) → Bool
  | [] => dflt
  | .note n :: _ => n.chord
  | _ :: es => nextNoteIsChord dflt es

/-- The loop of `getMeasureData`, private/mx/impl/MeasureReader.cpp 144-172.  `dflt` is false for the code; other values
are used to reason about a prefix of a measure. -/
def readElems (env : REnv) (dflt : Bool) : List (Elem P) → RSt P → Option (RSt P)
  | [], st => some st
  | e :: es, st => do
    let st' ← parseElem env (nextNoteIsChord dflt es) e st
    readElems env dflt es st'

/-- The cursor with which each measure starts, private/mx/impl/PartReader.cpp 86-115 and Cursor.cpp 12-25. -/
def initRSt (ticksPerQuarter : Int) : RSt P :=
  { tick := 0, ticksPerQuarter := ticksPerQuarter, voiceIndex := 0, isBackupInProgress := false, notes := []
    directions := [], clefs := [], keys := [], barlines := [] }

/-! ### inserting into staves and voices -/

/-- `voices[key]` with insertion of an empty voice if absent, then `emplace_back`: `insertNoteData`,
private/mx/impl/MeasureReader.cpp 770-782, on a `std::map` in ascending key order. -/
def insertNote (key : Int) (n : NoteData P) : List (Int × List (NoteData P)) → List (Int × List (NoteData P))
  | [] => [(key, [n])]
  | (k, ns) :: rest =>
    if key < k then (key, [n]) :: (k, ns) :: rest
    else if key = k then (k, ns ++ [n]) :: rest
    else (k, ns) :: insertNote key n rest

/-- The voices of one staff. -/
def voicesOf (staff : Int) (notes : List (ReadNote P)) : List (Int × List (NoteData P)) :=
  (notes.filter (fun r => r.staff = staff)).foldl (fun m r => insertNote r.voice r.note m) []

/-- `getUserRequestedVoiceNumber`, private/mx/impl/MeasureReader.cpp 882-890. -/
def userVoiceOf : List (NoteData P) → Int
  | [] => -1
  | n :: _ => n.userVoice

/-- `isUserRequestedVoiceNumberConsistent`, private/mx/impl/MeasureReader.cpp 836-858. -/
def isConsistent (ns : List (NoteData P)) : Bool :=
  match ns with
  | [] => true
  | n :: _ => if n.userVoice < 1 then false else ns.all (fun x => x.userVoice == n.userVoice)

/-- `isUserRequestedVoiceNumberConsistentAccrossAllVoices`, private/mx/impl/MeasureReader.cpp 861-879;
`seen` is the set of numbers found so far. -/
def allConsistent : List Int → List (Int × List (NoteData P)) → Bool
  | _, [] => true
  | seen, v :: vs =>
    if !isConsistent v.2 then false
    else if seen.contains (userVoiceOf v.2) then false
    else allConsistent (userVoiceOf v.2 :: seen) vs

/-- `map[key] = value`. -/
def assign (key : Int) (ns : List (NoteData P)) : List (Int × List (NoteData P)) → List (Int × List (NoteData P))
  | [] => [(key, ns)]
  | (k, x) :: rest =>
    if key < k then (key, ns) :: (k, x) :: rest
    else if key = k then (k, ns) :: rest
    else (k, x) :: assign key ns rest

/-- `takeUserRequestedVoiceNumbers`, private/mx/impl/MeasureReader.cpp 809-820. -/
def takeUserVoices (vs : List (Int × List (NoteData P))) : List (Int × List (NoteData P)) :=
  vs.foldl (fun m v => assign (userVoiceOf v.2 - 1) v.2 m) []

/-- `collapseVoicesAutomatically`, private/mx/impl/MeasureReader.cpp 823-833. -/
def collapseFrom : Int → List (Int × List (NoteData P)) → List (Int × List (NoteData P))
  | _, [] => []
  | i, v :: vs => (i, v.2) :: collapseFrom (i + 1) vs

/-- `consolidateVoicesForAllStaves` for one staff, private/mx/impl/MeasureReader.cpp 793-806. -/
def consolidate (vs : List (Int × List (NoteData P))) : List (Int × List (NoteData P)) :=
  if allConsistent [] vs then takeUserVoices vs else collapseFrom 0 vs

/-- One staff of the result. -/
def staffOf (st : RSt P) (i : Int) : StaffData P :=
  { clefs := (st.clefs.filter (fun c => c.1 = i)).map (·.2)
    keys := []
    voices := consolidate (voicesOf i st.notes)
    directions := (st.directions.filter (fun d => d.1 = i)).map (·.2) }

/-- `getMeasureData`, private/mx/impl/MeasureReader.cpp 110-182. -/
def readMeasure (env : REnv) (ticksPerQuarter : Int) (es : List (Elem P)) : Option (MeasureData P) := do
  let st ← readElems env false es (initRSt ticksPerQuarter)
  some { staves := (List.range env.numStaves.toNat).map (fun i => staffOf st (i : Nat))
         keys := st.keys, barlines := st.barlines }

end Mx.Measure
