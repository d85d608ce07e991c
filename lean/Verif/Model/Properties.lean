import Verif.Model.Strings
import Verif.Model.OpenEnums
import Verif.Model.ConverterTables

/-
The contents of the `<attributes>` element (class `Properties`): clefs, keys, time signatures and transpositions, as structures of the api, as elements whose
leaves are texts, and the functions between them.  Elements are structures of the texts of their children and attributes; a child or attribute that is not
written is `none`.  Numbers of type `double` and `long double` are rationals here (rounding of binary floating point is not modelled).
-/
namespace Mx

/-- Conversion of a floating point number to `int`: truncation toward zero; a value that is not an `int` is undefined behaviour. -/
def castInt (q : ℚ) : Option Int := chk (q.num.tdiv q.den)

/-- `Converter::convertToAlter`, private/mx/impl/Converter.cpp 1811-1823. -/
def convertToAlter (semitones : Int) (cents : ℚ) : ℚ :=
  if semitones ≠ 0 ∨ cents ≠ 0 then (semitones : ℚ) + (if cents ≠ 0 then cents / 100 else 0) else 0

/-- `Converter::convertToSemitonesAndCents`, private/mx/impl/Converter.cpp 1825-1838. -/
def convertToSemitonesAndCents (xmlAlter : ℚ) : Option (Int × ℚ) :=
  (castInt xmlAlter).map fun (intAlter : Int) =>
    let micro : ℚ := xmlAlter - (intAlter : ℚ)
    (intAlter, if |micro| ≥ 1 / 1000000000000 then micro * 100 else 0)

/-- The text of an element that holds a `Semitones`; `none`: the number is too large (undefined behaviour). -/
def semitonesText (v : ℚ) : Option Str := (DecimalRange.make .Semitones v).map DecimalRange.toStr

/-- `Semitones::parse` of a new element (its value is 0 before); `none`: undefined behaviour. -/
def parseSemitones (s : Str) : Option ℚ :=
  ((DecimalRange.make .Semitones 0).bind (fun d => d.parse s)).map (fun r => r.2.getValue)

/-- `Integer::parse` of a new element (its value is 0 before). -/
def parseInteger (s : Str) : Int := (Integer.parse ⟨0⟩ s).2.value

/-- `parse` of a new bounded integer. -/
def parseBounded (k : IntKind) (s : Str) : Int := ((IntRange.default k).parse s).2.value

/-! ### Transposition -/

/-- `TransposeData`, include/mx/api/TransposeData.h 48-83. -/
structure TransposeData where
  chromatic : Int
  diatonic : Int
deriving Repr, DecidableEq

/-- `TransposeData::isUsed`, include/mx/api/TransposeData.h 73. -/
def TransposeData.isUsed (t : TransposeData) : Bool := decide (t.chromatic ≠ 0 ∨ t.diatonic ≠ 0)

/-- `<transpose>`: the texts of its children (private/mx/core/elements/Transpose.cpp). `<double>` is never written and never used. -/
structure TransposeXml where
  diatonic : Option Str
  chromatic : Str
  octaveChange : Option Str
deriving Repr, DecidableEq

/-- The octave change computed in `convertToTranspose`, private/mx/impl/Converter.cpp 1845-1849 (0 when `chromatic` is 0). -/
def transposeOctave (chromatic : Int) : Int := if chromatic ≠ 0 then chromatic.tdiv 12 else 0

/-- The value of `<chromatic>` computed in `convertToTranspose`, private/mx/impl/Converter.cpp 1850-1852 (0, the default of the element, when `chromatic`
is 0); `std::abs` of the smallest `int` is undefined behaviour. -/
def transposeChromatic (chromatic : Int) : Option Int :=
  if chromatic ≠ 0 then
    (chk chromatic.natAbs).map (fun a => if chromatic < 0 then -1 * a.tmod 12 else a.tmod 12)
  else some 0

/-- The value of `<diatonic>` in `convertToTranspose`, private/mx/impl/Converter.cpp 1868-1881: `some none` when it is not written. -/
def transposeDiatonic (octave diatonic : Int) : Option (Option Int) :=
  if diatonic ≠ 0 then
    (if octave ≠ 0 then (chk (octave * -7)).bind (fun x => chk (diatonic + x)) else some diatonic).map
      (fun harmonic => if harmonic ≠ 0 then some harmonic else none)
  else some none

/-- `Converter::convertToTranspose`, private/mx/impl/Converter.cpp 1840-1884. -/
def convertToTranspose (t : TransposeData) : Option TransposeXml := do
  let chromatic ← transposeChromatic t.chromatic
  let text ← semitonesText chromatic
  let diatonic ← transposeDiatonic (transposeOctave t.chromatic) t.diatonic
  return { diatonic := diatonic.map showInt
           chromatic := text
           octaveChange := if transposeOctave t.chromatic ≠ 0 then some (showInt (transposeOctave t.chromatic)) else none }

/-- `figureOutDiatonic`, private/mx/impl/Converter.cpp 1886-1917. -/
def figureOutDiatonic (c : Int) : Int :=
  if c = -11 then -6 else if c = -10 then -6 else if c = -9 then -5 else if c = -8 then -5 else if c = -7 then -4 else if c = -6 then -3
  else if c = -5 then -3 else if c = -4 then -2 else if c = -3 then -2 else if c = -2 then -1 else if c = -1 then -1 else if c = 0 then 0
  else if c = 1 then 1 else if c = 2 then 1 else if c = 3 then 2 else if c = 4 then 2 else if c = 5 then 3 else if c = 6 then 3
  else if c = 7 then 4 else if c = 8 then 5 else if c = 9 then 5 else if c = 10 then 6 else if c = 11 then 6 else -1

/-- The diatonic value before the octave change is added, private/mx/impl/Converter.cpp 1936-1955. -/
def readDiatonic (specifiedChromatic : Int) (specifiedDiatonic : Option Int) : Option Int :=
  match specifiedDiatonic with
  | some d => some d
  | none =>
    if specifiedChromatic ≥ -11 ∧ specifiedChromatic ≤ 11 then some (figureOutDiatonic specifiedChromatic)
    else do
      let octaves := specifiedChromatic.tdiv 12
      let a ← chk specifiedChromatic.natAbs
      let semitones := a.tmod 12 * (if specifiedChromatic < 0 then -1 else 1)
      let o ← chk (octaves * 7)
      chk (figureOutDiatonic semitones + o)

/-- `Converter::convertToTransposeData`, private/mx/impl/Converter.cpp 1919-1960, on the values parsed from the texts. -/
def convertToTransposeData (x : TransposeXml) : Option TransposeData := do
  let chromaticValue ← parseSemitones x.chromatic
  let specifiedChromatic ← castInt chromaticValue
  let diatonic ← readDiatonic specifiedChromatic (x.diatonic.map parseInteger)
  let octaves := (x.octaveChange.map parseInteger).getD 0
  let o7 ← chk (octaves * 7)
  let diatonic ← chk (diatonic + o7)
  let o12 ← chk (octaves * 12)
  let chromatic ← chk (specifiedChromatic + o12)
  return { chromatic := chromatic, diatonic := diatonic }

/-- What `MeasureWriter::writeMeasureGlobals` writes for the transposition of a part, private/mx/impl/MeasureWriter.cpp 260-267 (in the first measure). -/
def writeTransposition (t : Option TransposeData) : Option (Option TransposeXml) :=
  match t with
  | some t => if t.isUsed then (convertToTranspose t).map some else some none
  | none => some none

/-- The transposition of a part read from the first measure, private/mx/impl/MeasureReader.cpp 537-545 and PartReader.cpp 107-110. -/
def readTransposition (x : Option TransposeXml) : Option (Option TransposeData) :=
  match x with
  | some x => (convertToTransposeData x).map some
  | none => some none

/-! ### Clefs -/

/-- `ClefData`, include/mx/api/ClefData.h 32-75. -/
structure ClefData where
  symbol : Api.ClefSymbol := .g
  line : Int := 2
  octaveChange : Int := 0
  tick : Int := 0
  location : Api.ClefLocation := .unspecified
deriving Repr, DecidableEq

/-- The clefs that have a setter and a predicate. -/
inductive ClefName where
  | treble | bass | alto | tenor | baritone | soprano | mezzoSoprano
deriving Repr, DecidableEq

/-- The values assigned by each setter, private/mx/api/ClefData.cpp 44-98. -/
def ClefName.sign : ClefName → Api.ClefSymbol × Int
  | .treble => (.g, 2)
  | .bass => (.f, 4)
  | .alto => (.c, 3)
  | .tenor => (.c, 4)
  | .baritone => (.c, 5)
  | .soprano => (.c, 0)
  | .mezzoSoprano => (.c, 1)

/-- `setTreble` .. `setMezzoSoprano`, private/mx/api/ClefData.cpp 44-98. -/
def ClefData.set (n : ClefName) (c : ClefData) : ClefData := { c with symbol := n.sign.1, line := n.sign.2, octaveChange := 0 }

/-- The values compared by each predicate, private/mx/api/ClefData.cpp 100-139. -/
def ClefName.tested : ClefName → Api.ClefSymbol × Int
  | .treble => (.g, 2)
  | .bass => (.f, 4)
  | .alto => (.c, 3)
  | .tenor => (.c, 4)
  | .baritone => (.c, 5)
  | .soprano => (.c, 0)
  | .mezzoSoprano => (.c, 1)

/-- `isTreble` .. `isMezzoSoprano`, private/mx/api/ClefData.cpp 100-139. -/
def ClefData.is (n : ClefName) (c : ClefData) : Bool := decide (c.symbol = n.tested.1 ∧ c.line = n.tested.2 ∧ c.octaveChange = 0)

/-- `<clef>`: the texts of its attributes and children that are written or used (private/mx/core/elements/Clef.cpp 60-174). -/
structure ClefXml where
  number : Option Str
  afterBarline : Option Str
  sign : Str
  line : Option Str
  octaveChange : Option Str
deriving Repr, DecidableEq

/-- The `number` attribute for a staff index, private/mx/impl/PropertiesWriter.cpp 157-161 and 263-267; `staffIndex + 1` may overflow. -/
def staffNumberText (staffIndex : Int) : Option (Option Str) :=
  if staffIndex ≥ 0 then (chk (staffIndex + 1)).map (fun n => some (IntRange.ofKind .StaffNumber n).toStr) else some none

/-- `PropertiesWriter::writeClef`, private/mx/impl/PropertiesWriter.cpp 259-284. -/
def writeClef (staffIndex : Int) (c : ClefData) : Option ClefXml :=
  (staffNumberText staffIndex).map fun number =>
    { number := number
      afterBarline := none
      sign := StringEnum.toStr (MapName.clefMap.toCore c.symbol : Core.ClefSign)
      line := if c.line ≥ 0 then some (IntRange.ofKind .StaffLine c.line).toStr else none
      octaveChange := if c.octaveChange ≠ 0 then some (Integer.toStr ⟨c.octaveChange⟩) else none }

/-- The line of a clef that has none, private/mx/impl/MeasureReader.cpp 697-720. -/
def defaultClefLine : Api.ClefSymbol → Int
  | .g => 2
  | .f => 4
  | .c => 3
  | .jianpu => 1
  | .tab => 1
  | .percussion => 3
  | .none => 3

/-- The location of a clef, private/mx/impl/MeasureReader.cpp 744-765. -/
def clefLocation (tick : Int) (afterBarline : Option Str) : Api.ClefLocation :=
  if tick = 0 then
    match afterBarline with
    | some t => if (parseEnum t : Core.YesNo) = .yes then .afterBarline else .beforeBarline
    | none => .unspecified
  else .midMeasure

/-- `MeasureReader::importClef`, private/mx/impl/MeasureReader.cpp 684-767: the staff index and the clef that are passed to `insertClef`. -/
def importClef (tick : Int) (x : ClefXml) : Int × ClefData :=
  let symbol : Api.ClefSymbol := MapName.clefMap.toApi (parseEnum x.sign : Core.ClefSign)
  ((x.number.map (fun n => parseBounded .StaffNumber n - 1)).getD 0,
   { symbol := symbol
     line := (x.line.map (parseBounded .StaffLine)).getD (defaultClefLine symbol)
     octaveChange := (x.octaveChange.map parseInteger).getD 0
     tick := tick
     location := clefLocation tick x.afterBarline })

/-! ### Keys -/

/-- `KeyComponent`, include/mx/api/KeyComponent.h 15-48. -/
structure KeyComponent where
  step : Api.Step
  alter : Int
  cents : ℚ
  accidental : Api.Accidental
deriving DecidableEq

/-- `KeyData`, include/mx/api/KeyData.h 42-90. -/
structure KeyData where
  fifths : Int := 0
  cancel : Int := 0
  mode : Api.KeyMode := .unspecified
  tick : Int := 0
  staffIndex : Int := -1
  nonTraditional : List KeyComponent := []
deriving DecidableEq

/-- `<key-step>`, `<key-alter>` and `<key-accidental>` (private/mx/core/elements/NonTraditionalKey.cpp 50-66). -/
structure KeyPartXml where
  step : Str
  alter : Str
  accidental : Option Str
deriving Repr, DecidableEq

/-- The two kinds of contents of `<key>` (private/mx/core/elements/KeyChoice.cpp 46-73). -/
inductive KeyChoiceXml where
  | traditional (cancel : Option Str) (fifths : Str) (mode : Option Str)
  | nonTraditional (parts : List KeyPartXml)
deriving Repr, DecidableEq

/-- `<key>`; the other attributes and `<key-octave>` are not written and not used. -/
structure KeyXml where
  number : Option Str
  choice : KeyChoiceXml
deriving Repr, DecidableEq

/-- The body of the loop of `PropertiesWriter::writeNonTraditionalKey`, private/mx/impl/PropertiesWriter.cpp 179-197. -/
def writeKeyPart (k : KeyComponent) : Option KeyPartXml :=
  (semitonesText (convertToAlter k.alter k.cents)).map fun alter =>
    { step := StringEnum.toStr (MapName.stepMap.toCore (if k.step = .unspecified then .c else k.step : Api.Step) : Core.StepEnum)
      alter := alter
      accidental := if k.accidental ≠ .none then some (StringEnum.toStr (MapName.accidentalMap.toCore k.accidental : Core.AccidentalValue)) else none }

/-- `PropertiesWriter::writeTraditionalKey`, private/mx/impl/PropertiesWriter.cpp 200-217. -/
def writeTraditionalKey (k : KeyData) : KeyChoiceXml :=
  .traditional (if k.cancel ≠ 0 then some (IntRange.ofKind .FifthsValue k.cancel).toStr else none) (IntRange.ofKind .FifthsValue k.fifths).toStr
    (if k.mode = .major ∨ k.mode = .minor then
      some (OpenValue.ofEnum (if k.mode = .major then Core.ModeEnum.major else Core.ModeEnum.minor)).valueString
    else none)

/-- `PropertiesWriter::writeKey`, private/mx/impl/PropertiesWriter.cpp 151-173. -/
def writeKey (staffIndex : Int) (k : KeyData) : Option KeyXml :=
  (staffNumberText staffIndex).bind fun number =>
    if k.nonTraditional = [] then some { number := number, choice := writeTraditionalKey k }
    else (k.nonTraditional.mapM writeKeyPart).map fun parts => { number := number, choice := .nonTraditional parts }

/-- The alteration of a part of a non-traditional key, private/mx/impl/MeasureReader.cpp 479-485. -/
def readKeyAlter (alter : ℚ) : Option (Int × ℚ) := if alter ≠ 0 then convertToSemitonesAndCents alter else some (0, 0)

/-- The body of the loop over the parts of a non-traditional key, private/mx/impl/MeasureReader.cpp 470-489. -/
def readKeyPart (x : KeyPartXml) : Option KeyComponent := do
  let alter ← parseSemitones x.alter
  let sc ← readKeyAlter alter
  return { step := MapName.stepMap.toApi (parseEnum x.step : Core.StepEnum)
           alter := sc.1
           cents := sc.2
           accidental := (x.accidental.map (fun a => (MapName.accidentalMap.toApi (parseEnum a : Core.AccidentalValue) : Api.Accidental))).getD .none }

/-- The mode of a traditional key, private/mx/impl/MeasureReader.cpp 514-530 (the third branch repeats the condition of the second). -/
def readKeyMode : Option Str → Api.KeyMode
  | some m =>
    let mode := (OpenValue.setText (OpenValue.ofEnum Core.ModeEnum.major) m).enum
    if mode = .major then .major else if mode = .minor then .minor else if mode = .minor then .unsupported else .unspecified
  | none => .unspecified

/-- The body of the loop over the keys in `MeasureReader::parseProperties`, private/mx/impl/MeasureReader.cpp 458-534. -/
def readKey (numStaves tick : Int) (x : KeyXml) : Option KeyData :=
  match x.choice with
  | .nonTraditional parts => (parts.mapM readKeyPart).map fun l => { nonTraditional := l }
  | .traditional cancel fifths mode =>
    some
      { staffIndex := (x.number.map (fun n => if parseBounded .StaffNumber n - 1 > numStaves - 1 then -1 else parseBounded .StaffNumber n - 1)).getD (-1)
        fifths := parseBounded .FifthsValue fifths
        cancel := (cancel.map (parseBounded .FifthsValue)).getD 0
        mode := readKeyMode mode
        tick := tick }

/-! ### Time signatures -/

/-- `TimeSignatureData`, include/mx/api/TimeSignatureData.h 22-58. -/
structure TimeSignatureData where
  symbol : Api.TimeSignatureSymbol := .unspecified
  beats : Int := 4
  beatType : Int := 4
  isImplicit : Bool := true
  display : Api.Bool := .unspecified
deriving Repr, DecidableEq

/-- `<time>`: the attributes and texts that are written or used. A time signature may have several pairs of beats and beat type; only the first is used
(private/mx/impl/TimeReader.cpp 79), so `beats` and `beatType` are its texts. `senzaMisura` stands for every other content. -/
inductive TimeXml where
  | signature (symbol printObject : Option Str) (beats beatType : Str)
  | senzaMisura
deriving Repr, DecidableEq

/-- `PropertiesWriter::writeTime`, private/mx/impl/PropertiesWriter.cpp 220-249. -/
def writeTime (t : TimeSignatureData) : TimeXml :=
  .signature
    (match t.symbol with
      | .unspecified => none
      | .common => some (StringEnum.toStr Core.TimeSymbol.common)
      | .cut => some (StringEnum.toStr Core.TimeSymbol.cut))
    (if t.display ≠ .unspecified then some (StringEnum.toStr (MapName.boolMap.toCore t.display : Core.YesNo)) else none)
    (showInt t.beats) (showInt t.beatType)

/-- The time element of a measure, private/mx/impl/MeasureWriter.cpp 223-226. -/
def writeMeasureTime (t : TimeSignatureData) : Option TimeXml := if t.isImplicit then none else some (writeTime t)

/-- The symbol in `TimeReader::parseTimeSignatureGroup`, private/mx/impl/TimeReader.cpp 110-124. -/
def readTimeSymbol : Option Str → Api.TimeSignatureSymbol
  | some s => if (parseEnum s : Core.TimeSymbol) = .common then .common else if (parseEnum s : Core.TimeSymbol) = .cut then .cut else .unspecified
  | none => .unspecified

/-- The display in `TimeReader::parseTimeSignatureGroup`, private/mx/impl/TimeReader.cpp 126-139. -/
def readTimeDisplay : Option Str → Api.Bool
  | some s => if (parseEnum s : Core.YesNo) = .yes then .yes else .no
  | none => .unspecified

/-- `TimeReader::parseTime` and `parseTimeSignatureGroup`, private/mx/impl/TimeReader.cpp 71-144: `some none` when they return false, `none` when
`stringToInt` has undefined behaviour. -/
def parseTime : TimeXml → Option (Option TimeSignatureData)
  | .senzaMisura => some none
  | .signature symbol printObject beats beatType =>
    (stringToInt beats 4).bind fun b =>
      if b.1 = false then some none
      else (stringToInt beatType 4).map fun bt =>
        if bt.1 = false then none
        else some { symbol := readTimeSymbol symbol, beats := b.2, beatType := bt.2, isImplicit := false, display := readTimeDisplay printObject }

/-- `TimeReader::initialize`, private/mx/impl/TimeReader.cpp 52-67: the argument is the front of the first non-empty time set of the measure. -/
def timeFound : Option TimeXml → Option (Option TimeSignatureData)
  | some x => parseTime x
  | none => some none

/-- `MeasureReader::parseTimeSignature`, private/mx/impl/MeasureReader.cpp 191-213. -/
def readMeasureTime (measureIndex : Nat) (previous : TimeSignatureData) (x : Option TimeXml) : Option TimeSignatureData :=
  (timeFound x).map fun found =>
    match found with
    | some t => { t with isImplicit := false }
    | none => { (if measureIndex > 0 then previous else ({} : TimeSignatureData)) with isImplicit := true }

/-- The time signatures in the loop of `PartReader::getPartData`, private/mx/impl/PartReader.cpp 86-116: the cursor carries the time signature of the
measure before. -/
def readTimesFrom (measureIndex : Nat) (previous : TimeSignatureData) : List (Option TimeXml) → Option (List TimeSignatureData)
  | [] => some []
  | x :: xs => do
    let t ← readMeasureTime measureIndex previous x
    let ts ← readTimesFrom (measureIndex + 1) t xs
    return t :: ts

/-- The time signatures of all measures of a part. -/
def readTimes (xs : List (Option TimeXml)) : Option (List TimeSignatureData) := readTimesFrom 0 {} xs

/-- The time elements written for the measures of a part. -/
def writeTimes (ts : List TimeSignatureData) : List (Option TimeXml) := ts.map writeMeasureTime

/-! ### Measure attributes -/

/-- The parts of `MeasureData` that become attributes of `<measure>`, include/mx/api/MeasureData.h. -/
structure MeasureHead where
  number : Str := []
  width : ℚ := -1
  implicit : Api.Bool := .unspecified
deriving DecidableEq

/-- The attributes `number`, `width` and `implicit` of `<measure>`, as texts. -/
structure MeasureHeadXml where
  number : Str
  width : Option Str
  implicit : Option Str
deriving Repr, DecidableEq

/-- The text of an attribute that holds a `TenthsValue`; `none`: the number is too large (undefined behaviour). -/
def tenthsText (v : ℚ) : Option Str := (DecimalRange.make .TenthsValue v).map DecimalRange.toStr

/-- `TenthsValue::parse` of a new attribute; `none`: undefined behaviour. -/
def parseTenths (s : Str) : Option ℚ :=
  ((DecimalRange.make .TenthsValue 0).bind (fun d => d.parse s)).map (fun r => r.2.getValue)

/-- The `width` attribute, private/mx/impl/MeasureWriter.cpp 188-192. -/
def measureWidthText (width : ℚ) : Option (Option Str) := if width ≥ 0 then (tenthsText width).map some else some none

/-- `MeasureWriter::writeMeasureGlobals`, private/mx/impl/MeasureWriter.cpp 177-200; `measureIndex + 1` is an `int`. -/
def writeMeasureHead (measureIndex : Int) (m : MeasureHead) : Option MeasureHeadXml := do
  let width ← measureWidthText m.width
  let ordinary ← chk (measureIndex + 1)
  return { number := if m.number.length > 0 then xsToken m.number else xsToken (showInt ordinary)
           width := width
           implicit := if m.implicit ≠ .unspecified then some (StringEnum.toStr (MapName.boolMap.toCore m.implicit : Core.YesNo)) else none }

/-- `MeasureReader::getMeasureData`, private/mx/impl/MeasureReader.cpp 115-135; the `number` attribute is an `XsToken`. -/
def readMeasureHead (measureIndex : Int) (x : MeasureHeadXml) : Option MeasureHead := do
  let width ← (x.width.map parseTenths).getD (some (-1))
  let ordinary ← chk (measureIndex + 1)
  return { number := if xsToken x.number = showInt ordinary then [] else xsToken x.number
           width := width
           implicit := (x.implicit.map (fun i => if (parseEnum i : Core.YesNo) = .yes then Api.Bool.yes else .no)).getD .unspecified }

end Mx
