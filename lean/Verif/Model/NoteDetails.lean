import Verif.Model.Properties
import Verif.Model.ApiData

/-
Model of the details of one note: kind, rest or pitch, ties, name and dots, time modification, notehead, stem, accidental and
beams, as written by `NoteWriter` (private/mx/impl/NoteWriter.cpp) and read by `NoteReader` and `NoteFunctions`
(private/mx/impl/NoteReader.cpp, private/mx/impl/NoteFunctions.cpp).  Time, chord, staff and voice are in the models of the measure; notations and positions have
models of their own.

A `<note>` element is modelled by the texts and attributes that are written or used.  The order of the elements in a note, and elements that neither
function touches, are not modelled.
-/
namespace Mx

open Measure (NoteKind)

/-- `api::PitchData`, include/mx/api/PitchData.h 67-129. -/
structure PitchData where
  step : Api.Step := .c
  alter : Int := 0
  cents : ℚ := 0
  accidental : Api.Accidental := .none
  isAccidentalParenthetical : Bool := false
  isAccidentalCautionary : Bool := false
  isAccidentalEditorial : Bool := false
  isAccidentalBracketed : Bool := false
  octave : Int := 4
deriving Repr, DecidableEq

/-- `PitchData::showAccidental`, private/mx/api/PitchData.cpp 17-30. -/
def PitchData.showAccidental (p : PitchData) : PitchData :=
  { p with accidental :=
      if p.alter = -3 then .tripleFlat else
      if p.alter = -2 then .flatFlat else
      if p.alter = -1 then .flat else
      if p.alter = 0 then .natural else
      if p.alter = 1 then .sharp else
      if p.alter = 2 then .doubleSharp else
      if p.alter = 3 then .tripleSharp else .none }

/-- `PitchData::hideAccidental`, private/mx/api/PitchData.cpp 33-40. -/
def PitchData.hideAccidental (p : PitchData) : PitchData :=
  { p with
    accidental := .none
    isAccidentalBracketed := false
    isAccidentalCautionary := false
    isAccidentalEditorial := false
    isAccidentalParenthetical := false }

/-- `api::DurationData` without the ticks, include/mx/api/DurationData.h 65-77. -/
structure DurationNames where
  durationName : Api.DurationName := .unspecified
  durationDots : Int := 0
  isTied : Bool := false
  actualNotes : Int := 1
  normalNotes : Int := 1
  normalType : Api.DurationName := .unspecified
  normalTypeDots : Int := 0
deriving Repr, DecidableEq

/-- `api::NoteData`, the part modelled here, include/mx/api/NoteData.h 76-129. -/
structure NoteDetails where
  isRest : Bool := false
  isMeasureRest : Bool := false
  isUnpitched : Bool := false
  isDisplayStepOctaveSpecified : Bool := false
  isTieStart : Bool := false
  isTieStop : Bool := false
  noteType : NoteKind := .normal
  notehead : Api.Notehead := .normal
  pitchData : PitchData := {}
  stem : Api.Stem := .unspecified
  durationData : DurationNames := {}
  beams : List Api.Beam := []
deriving Repr, DecidableEq

/-- The contents of `<rest>`, `<unpitched>` or `<pitch>`. `display` are the texts of `<display-step>` and `<display-octave>`. -/
inductive SoundXml where
  | rest (measure : Option Str) (display : Option (Str × Str))
  | unpitched (display : Option (Str × Str))
  | pitch (step : Str) (alter : Option Str) (octave : Str)
deriving Repr, DecidableEq

/-- `<accidental>` with its attributes. -/
structure AccidentalXml where
  value : Str
  parentheses : Option Str := none
  cautionary : Option Str := none
  editorial : Option Str := none
  bracket : Option Str := none
deriving Repr, DecidableEq

/-- `<time-modification>`; `normal` is the text of `<normal-type>` and the number of `<normal-dot>`. -/
structure TimeModificationXml where
  actualNotes : Str
  normalNotes : Str
  normal : Option (Str × Nat)
deriving Repr, DecidableEq

/-- `<beam>` with its number attribute. -/
structure BeamXml where
  number : Option Str
  value : Str
deriving Repr, DecidableEq

/-- `<note>`. -/
structure NoteXml where
  kind : NoteKind
  ties : List Str
  sound : SoundXml
  type : Option Str
  dots : Nat
  accidental : Option AccidentalXml
  timeModification : Option TimeModificationXml
  stem : Option Str
  notehead : Option Str
  beams : List BeamXml
deriving Repr, DecidableEq

/-! ### Writing -/

/-- What the search for the tuplet of a note looks at in its sibling notes: time, length, the ratios (actual, normal) of the tuplets that start and the number of
those that stop. -/
structure TupletSibling where
  tick : Int
  ticks : Int
  starts : List (Int × Int)
  stops : Nat
deriving Repr, DecidableEq

/-- The search for the note where the tuplet starts, private/mx/impl/NoteWriter.cpp 126-142: the closest note, from note `i` backwards, with exactly one
start. -/
def findTupletStart (siblings : List TupletSibling) : Nat → Option Nat
  | 0 => if (siblings[0]?.map (·.starts.length)) = some 1 then some 0 else none
  | i + 1 => if (siblings[i + 1]?.map (·.starts.length)) = some 1 then some (i + 1) else findTupletStart siblings i

/-- The search for the note where the tuplet stops, private/mx/impl/NoteWriter.cpp 149-168: the closest note, from the start forwards, with exactly one stop. -/
def findTupletStop (siblings : List TupletSibling) (start : Nat) : Option TupletSibling :=
  (siblings.drop start).find? (fun s => decide (s.stops = 1))

/-- The normal type and dots of a time modification, private/mx/impl/NoteWriter.cpp 126-211 (compiled without `DEBUG`, so that `MX_DEBUG_THROW` does nothing; the sum and
difference of ticks are taken not to overflow). -/
def tupletNormal (ticksPerQuarter : Int) (siblings : List TupletSibling) (noteIndex : Nat) : Option (Api.DurationName × Nat) := do
  let i ← findTupletStart siblings noteIndex
  let start ← siblings[i]?
  let ratio ← start.starts.head?
  let stop ← findTupletStop siblings i
  if stop.tick + stop.ticks - start.tick > 0 ∧ ratio.2 ≠ 0 ∧ ratio.1 ≠ 0 then
    findNormalNameAndDots ticksPerQuarter (((stop.tick + stop.ticks - start.tick : Int) : ℚ) / (ratio.2 : ℚ))
  else none

/-- The ties, private/mx/impl/NoteWriter.cpp 220-234, 297-305, 317-325: types of the `<tie>` elements (a cue note has none). -/
def writeTies (n : NoteDetails) : List Str :=
  if n.noteType = .cue then [] else
  (if n.isTieStop then [StringEnum.toStr Core.StartStop.stop] else []) ++ (if n.isTieStart then [StringEnum.toStr Core.StartStop.start] else [])

/-- The `<alter>` element, private/mx/impl/NoteWriter.cpp 373-378: `none` is a failure. -/
def writeAlter (p : PitchData) : Option (Option Str) :=
  if p.alter ≠ 0 ∨ p.cents ≠ 0 then (semitonesText (convertToAlter p.alter p.cents)).map some else some none

/-- `NoteWriter::setFullNoteTypeChoice`, private/mx/impl/NoteWriter.cpp 336-381.  The display step and octave of a rest are set in the `<unpitched>` element, which is
not part of the document, and those of an unpitched note in a group whose has-flag is not set. -/
def writeSound (n : NoteDetails) : Option SoundXml :=
  if n.isRest then some (.rest (if n.isMeasureRest then some (StringEnum.toStr Core.YesNo.yes) else none) none) else
  if n.isUnpitched then some (.unpitched none) else
  (writeAlter n.pitchData).map fun alter =>
    .pitch (StringEnum.toStr (MapName.stepMap.toCore n.pitchData.step : Core.StepEnum)) alter (IntRange.ofKind .OctaveValue n.pitchData.octave).toStr

/-- `NoteWriter::setDurationNameAndDots`, private/mx/impl/NoteWriter.cpp 401-413. -/
def writeType (n : NoteDetails) : Option Str :=
  if n.isRest = true ∧ n.isMeasureRest = true then none else
    some (StringEnum.toStr (MapName.durationMap.toCore n.durationData.durationName : Core.NoteTypeValue))

/-- The accidental, private/mx/impl/NoteWriter.cpp 98-102. -/
def writeAccidental (p : PitchData) : Option AccidentalXml :=
  if p.accidental ≠ .none then some { value := StringEnum.toStr (MapName.accidentalMap.toCore p.accidental : Core.AccidentalValue) } else none

/-- The loop over the beams, private/mx/impl/NoteWriter.cpp 104-114, with the limit of `Note::addBeam`, private/mx/core/elements/Note.cpp 515-524. -/
def writeBeamsFrom (i : Nat) (set : List BeamXml) : List Api.Beam → List BeamXml
  | [] => set
  | b :: bs =>
    let x : BeamXml :=
      { number := some (IntRange.ofKind .BeamLevel ((i : Int) + 1)).toStr
        value := StringEnum.toStr (MapName.beamMap.toCore b : Core.BeamValue) }
    writeBeamsFrom (i + 1) (if set.length < 8 then set ++ [x] else set) bs

/-- The beams of a note, private/mx/impl/NoteWriter.cpp 104-114. -/
def writeBeams (bs : List Api.Beam) : List BeamXml := writeBeamsFrom 0 [] bs

/-- The time modification, private/mx/impl/NoteWriter.cpp 116-215; `normal` is the result of `tupletNormal`. -/
def writeTimeModification (normal : Option (Api.DurationName × Nat)) (d : DurationNames) : Option TimeModificationXml :=
  if d.normalNotes > 0 ∧ d.actualNotes > 0 ∧ (d.normalNotes > 1 ∨ d.actualNotes > 1) then
    some
      { actualNotes := (IntRange.ofKind .NonNegativeInteger d.actualNotes).toStr
        normalNotes := (IntRange.ofKind .NonNegativeInteger d.normalNotes).toStr
        normal := normal.map (fun p => (StringEnum.toStr (MapName.durationMap.toCore p.1 : Core.NoteTypeValue), p.2)) }
  else none

/-- `NoteWriter::getNote`, private/mx/impl/NoteWriter.cpp 78-218. -/
def writeNote (normal : Option (Api.DurationName × Nat)) (n : NoteDetails) : Option NoteXml :=
  (writeSound n).map fun sound =>
    { kind := n.noteType
      ties := writeTies n
      sound := sound
      type := writeType n
      dots := n.durationData.durationDots.toNat
      accidental := writeAccidental n.pitchData
      timeModification := writeTimeModification normal n.durationData
      stem := if n.stem = .unspecified then none else some (StringEnum.toStr (MapName.stemMap.toCore n.stem : Core.StemValue))
      notehead := if n.notehead ≠ .normal then some (StringEnum.toStr (MapName.noteheadMap.toCore n.notehead : Core.NoteheadValue)) else none
      beams := writeBeams n.beams }

/-! ### Reading -/

/-- Step and octave of a display, private/mx/impl/NoteReader.cpp 186-191, 202-207 (defaults 67, 70). -/
def readDisplay (d : Option (Str × Str)) : Core.StepEnum × Int :=
  (d.map (fun p => ((parseEnum p.1 : Core.StepEnum), parseBounded .OctaveValue p.2))).getD (.c, 4)

/-- The alteration of a pitch, private/mx/impl/NoteReader.cpp 218-223 (defaults 68-69). -/
def readAlter : Option Str → Option (Int × ℚ)
  | none => some (0, 0)
  | some a => (parseSemitones a).bind convertToSemitonesAndCents

/-- An attribute is present and `yes`. -/
def isYes (a : Option Str) : Bool := (a.map (fun t => decide ((parseEnum t : Core.YesNo) = .yes))).getD false

/-- `setRestPitchUnpitchedItems`, private/mx/impl/NoteReader.cpp 167-230, with private/mx/impl/NoteFunctions.cpp 89-96, 115-117, 130: rest, measure rest, unpitched,
display, pitch without accidental. -/
def readSound : SoundXml → Option (Bool × Bool × Bool × Bool × PitchData)
  | .rest measure display =>
    some (true, isYes measure, false, display.isSome,
      { step := MapName.stepMap.toApi (readDisplay display).1, octave := (readDisplay display).2 })
  | .unpitched display =>
    some (false, false, true, display.isSome,
      { step := MapName.stepMap.toApi (readDisplay display).1, octave := (readDisplay display).2 })
  | .pitch step alter octave =>
    (readAlter alter).map fun ac =>
      (false, false, false, false,
        { step := MapName.stepMap.toApi (parseEnum step : Core.StepEnum), alter := ac.1, cents := ac.2, octave := parseBounded .OctaveValue octave })

/-- `setAccidental`, private/mx/impl/NoteReader.cpp 347-380, with private/mx/impl/NoteFunctions.cpp 119-128. -/
def readAccidental (x : Option AccidentalXml) (p : PitchData) : PitchData :=
  match x with
  | none => { p with accidental := .none }
  | some a =>
    { p with
      accidental := MapName.accidentalMap.toApi (parseEnum a.value : Core.AccidentalValue)
      isAccidentalParenthetical := isYes a.parentheses
      isAccidentalCautionary := isYes a.cautionary
      isAccidentalEditorial := isYes a.editorial
      isAccidentalBracketed := isYes a.bracket }

/-- `map[key] = value` of a `std::map`, as the list of its pairs in ascending key order. -/
def mapPut {V : Type} (k : Int) (v : V) : List (Int × V) → List (Int × V)
  | [] => [(k, v)]
  | (k', v') :: m => if k < k' then (k, v) :: (k', v') :: m else if k = k' then (k, v) :: m else (k', v') :: mapPut k v m

/-- The index of a beam, private/mx/impl/NoteReader.cpp 292-305. -/
def beamIndex (calculated : Int) (m : List (Int × Core.BeamValue)) (x : BeamXml) : Int :=
  (x.number.map (fun t => if m.any (fun p => decide (p.1 = parseBounded .BeamLevel t)) then calculated else parseBounded .BeamLevel t)).getD calculated

/-- The loop of `setBeams`, private/mx/impl/NoteReader.cpp 290-309. -/
def readBeamsFrom (calculated : Int) (m : List (Int × Core.BeamValue)) : List BeamXml → List (Int × Core.BeamValue)
  | [] => m
  | x :: xs => readBeamsFrom (calculated + 1) (mapPut (beamIndex calculated m x) (parseEnum x.value) m) xs

/-- `setBeams`, private/mx/impl/NoteReader.cpp 284-317, with private/mx/impl/NoteFunctions.cpp 149-152. -/
def readBeams (xs : List BeamXml) : List Api.Beam := (readBeamsFrom 0 [] xs).map (fun p => MapName.beamMap.toApi p.2)

/-- `setTimeModification`, private/mx/impl/NoteReader.cpp 320-344 (`durationType`: 74, 268-275; default of the normal type: 80): actual notes, normal notes, normal type and
dots. -/
def readTimeModification (durationType : Core.NoteTypeValue) : Option TimeModificationXml → Int × Int × Core.NoteTypeValue × Int
  | none => (1, 1, .maxima, 0)
  | some t =>
    (parseBounded .NonNegativeInteger t.actualNotes, parseBounded .NonNegativeInteger t.normalNotes,
      (t.normal.map (fun p => ((parseEnum p.1 : Core.NoteTypeValue), (p.2 : Int)))).getD (durationType, 0))

/-- The normal type is kept only in certain cases: private/mx/impl/NoteFunctions.cpp 159-172. -/
def keepNormalType (durationType : Core.NoteTypeValue) (t : Core.NoteTypeValue × Int) : Api.DurationName × Int :=
  if t.2 > 0 ∧ t.1 ≠ durationType then (MapName.durationMap.toApi t.1, t.2) else (.unspecified, 0)

/-- The name, the dots and the time modification of a note, private/mx/impl/NoteFunctions.cpp 136-145, 154-172. -/
def readDuration (globalTicksPerQuarter : Int) (durationValue : ℚ) (x : NoteXml) : DurationNames :=
  let durationType : Core.NoteTypeValue := (x.type.map (fun t => (parseEnum t : Core.NoteTypeValue))).getD .maxima
  let tm := readTimeModification durationType x.timeModification
  let kept := keepNormalType durationType (tm.2.2.1, tm.2.2.2)
  { durationName := (x.type.map (fun t => (MapName.durationMap.toApi (parseEnum t : Core.NoteTypeValue) : Api.DurationName))).getD
      (deriveNoteType globalTicksPerQuarter durationValue)
    durationDots := x.dots
    actualNotes := tm.1
    normalNotes := tm.2.1
    normalType := kept.1
    normalTypeDots := kept.2 }

/-- `setTie`, private/mx/impl/NoteReader.cpp 397-410: one of the ties has the type. -/
def hasTie (t : Core.StartStop) (ties : List Str) : Bool := ties.any (fun s => decide ((parseEnum s : Core.StartStop) = t))

/-- `NoteFunctions::parseNote`, private/mx/impl/NoteFunctions.cpp 81-189.  `durationValue` is the contents of `<duration>`. A cue note has no ties
(private/mx/impl/NoteReader.cpp 154-160). -/
def readNote (globalTicksPerQuarter : Int) (durationValue : ℚ) (x : NoteXml) : Option NoteDetails :=
  (readSound x.sound).map fun s =>
    { isRest := s.1
      isMeasureRest := s.2.1
      isUnpitched := s.2.2.1
      isDisplayStepOctaveSpecified := s.2.2.2.1
      isTieStart := if x.kind = .cue then false else hasTie .start x.ties
      isTieStop := if x.kind = .cue then false else hasTie .stop x.ties
      noteType := x.kind
      notehead := MapName.noteheadMap.toApi ((x.notehead.map (fun t => (parseEnum t : Core.NoteheadValue))).getD .normal)
      pitchData := readAccidental x.accidental s.2.2.2.2
      stem := (x.stem.map (fun t => (MapName.stemMap.toApi (parseEnum t : Core.StemValue) : Api.Stem))).getD .unspecified
      durationData := readDuration globalTicksPerQuarter durationValue x
      beams := readBeams x.beams }

end Mx
