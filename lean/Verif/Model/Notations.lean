import Verif.Model.Properties
import Verif.Model.Color
import Verif.Model.MeasureTypes

/-
Model of positions, lines, colours, ties, slurs and tuplets: private/mx/impl/PositionFunctions.h, LineFunctions.h, PrintFunctions.h (colour),
CurveFunctions.h, the curves and tuplets of NotationsWriter.cpp, NoteFunctions::parseNotations, TupletReader.cpp and NoteWriter.cpp `addTie`.

Attributes are modelled as optional texts (`none`: absent). A number with its `is…Specified` flag is one value `MaybeNum`. Failing computations (`none`) are
numbers too large for the decimal classes, which is undefined behaviour.
-/
namespace Mx

open Measure (NoteKind)

/-- A number and its `is…Specified` flag, e.g. `defaultX` and `isDefaultXSpecified`, include/mx/api/PositionData.h 100-107. -/
structure MaybeNum where
  isSpecified : Bool := false
  value : ℚ := 0
deriving Repr, DecidableEq

/-- Setting the flag and the value of a decimal attribute, e.g. private/mx/impl/PositionFunctions.h 126-135, and streaming it. -/
def writeNum (k : DecimalKind) (n : MaybeNum) : Option (Option Str) :=
  if n.isSpecified then ((DecimalRange.make k n.value).map DecimalRange.toStr).map some else some none

/-- Reading a decimal attribute, e.g. private/mx/impl/PositionFunctions.h 43-47. -/
def readNum (k : DecimalKind) : Option Str → Option MaybeNum
  | none => some {}
  | some s => (((DecimalRange.make k 0).bind (fun d => d.parse s)).map (fun r => r.2.getValue)).map (fun v => { isSpecified := true, value := v })

/-! ### Positions -/

/-- `api::PositionData`, include/mx/api/PositionData.h 95-128. -/
structure PositionData where
  defaultX : MaybeNum := {}
  defaultY : MaybeNum := {}
  relativeX : MaybeNum := {}
  relativeY : MaybeNum := {}
  placement : Api.Placement := .unspecified
  verticalAlignment : Api.VerticalAlignment := .unspecified
  horizontalAlignment : Api.HorizontalAlignment := .unspecified
deriving Repr, DecidableEq

/-- Which of the position members a struct of attributes has; private/mx/utility/OptionalMembers.h 41-145 skips the others. -/
structure PositionMembers where
  defaultXY : Bool := true
  relativeXY : Bool := true
  halign : Bool := false
  valign : Bool := false
  placement : Bool := true
deriving Repr, DecidableEq

/-- The position attributes of an element. -/
structure PositionXml where
  defaultX : Option Str := none
  defaultY : Option Str := none
  relativeX : Option Str := none
  relativeY : Option Str := none
  halign : Option Str := none
  valign : Option Str := none
  placement : Option Str := none
deriving Repr, DecidableEq

/-- Setting a member that may not exist. -/
def ifMember {α : Type} (has : Bool) (x : Option (Option α)) : Option (Option α) := if has then x else some none

/-- `setAttributesFromPositionData`, private/mx/impl/PositionFunctions.h 122-200. -/
def writePosition (m : PositionMembers) (p : PositionData) : Option PositionXml := do
  let dx ← ifMember m.defaultXY (writeNum .TenthsValue p.defaultX)
  let dy ← ifMember m.defaultXY (writeNum .TenthsValue p.defaultY)
  let rx ← ifMember m.relativeXY (writeNum .TenthsValue p.relativeX)
  let ry ← ifMember m.relativeXY (writeNum .TenthsValue p.relativeY)
  return {
    defaultX := dx, defaultY := dy, relativeX := rx, relativeY := ry
    halign := if m.halign = true ∧ p.horizontalAlignment ≠ .unspecified then some (StringEnum.toStr (MapName.halignMap.toCore p.horizontalAlignment : Core.LeftCenterRight)) else none
    valign := if m.valign = true ∧ p.verticalAlignment ≠ .unspecified then some (StringEnum.toStr (MapName.valignMap.toCore p.verticalAlignment : Core.Valign)) else none
    placement := if m.placement = true ∧ p.placement ≠ .unspecified then some (StringEnum.toStr (MapName.placementMap.toCore p.placement : Core.AboveBelow)) else none }

/-- `getPositionData`, private/mx/impl/PositionFunctions.h 39-99.  Attributes that the struct does not have are not read. -/
def readPosition (m : PositionMembers) (x : PositionXml) : Option PositionData := do
  let dx ← readNum .TenthsValue (if m.defaultXY then x.defaultX else none)
  let dy ← readNum .TenthsValue (if m.defaultXY then x.defaultY else none)
  let rx ← readNum .TenthsValue (if m.relativeXY then x.relativeX else none)
  let ry ← readNum .TenthsValue (if m.relativeXY then x.relativeY else none)
  return {
    defaultX := dx, defaultY := dy, relativeX := rx, relativeY := ry
    horizontalAlignment := ((if m.halign then x.halign else none).map (fun t => (MapName.halignMap.toApi (parseEnum t : Core.LeftCenterRight) : Api.HorizontalAlignment))).getD .unspecified
    verticalAlignment := ((if m.valign then x.valign else none).map (fun t => (MapName.valignMap.toApi (parseEnum t : Core.Valign) : Api.VerticalAlignment))).getD .unspecified
    placement := ((if m.placement then x.placement else none).map (fun t => (MapName.placementMap.toApi (parseEnum t : Core.AboveBelow) : Api.Placement))).getD .unspecified }

/-! ### Lines and colours -/

/-- `api::LineData`, include/mx/api/LineData.h 32-63. -/
structure LineData where
  lineType : Api.LineType := .unspecified
  lineHook : Api.LineHook := .unspecified
  endLength : MaybeNum := {}
  dashLength : MaybeNum := {}
  spaceLength : MaybeNum := {}
deriving Repr, DecidableEq

/-- The line attributes of a tie or slur. -/
structure LineXml where
  lineType : Option Str := none
  dashLength : Option Str := none
  spaceLength : Option Str := none
deriving Repr, DecidableEq

/-- `setAttributesFromLineData`, private/mx/impl/LineFunctions.h 83-112, for a struct with line type, dash length and space length. The members `lineStop` and `endLength` with their
flags `hasLineStop`, `hasStopLength` do not exist in any struct, so that the hook and the end length are not set. -/
def writeLine (l : LineData) : Option LineXml := do
  let d ← writeNum .TenthsValue l.dashLength
  let s ← writeNum .TenthsValue l.spaceLength
  return {
    lineType := if l.lineType ≠ .unspecified then some (StringEnum.toStr (MapName.lineType.toCore l.lineType : Core.LineType)) else none
    dashLength := d, spaceLength := s }

/-- `getLineData`, private/mx/impl/LineFunctions.h 32-66. -/
def readLine (x : LineXml) : Option LineData := do
  let d ← readNum .TenthsValue x.dashLength
  let s ← readNum .TenthsValue x.spaceLength
  return {
    lineType := (x.lineType.map (fun t => (MapName.lineType.toApi (parseEnum t : Core.LineType) : Api.LineType))).getD .unspecified
    dashLength := d, spaceLength := s }

/-- `api::ColorData`, include/mx/api/ColorData.h 13-31: the channels are bytes. -/
structure ColorData where
  red : Fin 256 := 255
  green : Fin 256 := 255
  blue : Fin 256 := 255
  isAlphaSpecified : Bool := false
  alpha : Fin 256 := 255
deriving Repr, DecidableEq

/-- `createCoreColor`, private/mx/impl/PrintFunctions.h 83-90. -/
def createCoreColor (c : ColorData) : Color :=
  if c.isAlphaSpecified then Color.argb c.alpha.val c.red.val c.green.val c.blue.val else Color.rgb c.red.val c.green.val c.blue.val

/-- `static_cast<uint8_t>`. -/
def toByte (v : Int) : Fin 256 := Fin.ofNat 256 (v % 256).toNat

/-- `getColor`, private/mx/impl/PrintFunctions.h 36-59. -/
def getColor (c : Color) : ColorData :=
  { red := toByte c.red, green := toByte c.green, blue := toByte c.blue
    isAlphaSpecified := decide (c.type = .ARGB)
    alpha := if c.type = .ARGB then toByte c.alpha else 255 }

/-- Setting and streaming a colour attribute, private/mx/impl/CurveFunctions.h 167-171. -/
def writeColor (isSpecified : Bool) (c : ColorData) : Option Str := if isSpecified then some (createCoreColor c).toStr else none

/-- Reading a colour attribute, private/mx/impl/CurveFunctions.h 88-93. -/
def readColor : Option Str → Bool × ColorData
  | none => (false, {})
  | some s => (true, getColor (Color.ofString s))

/-! ### Curves -/

/-- `api::CurvePoints`, include/mx/api/CurveData.h 58-101; the offset is an `int`. -/
structure CurvePoints where
  positionData : PositionData := {}
  bezierX : MaybeNum := {}
  bezierY : MaybeNum := {}
  isBezierOffsetSpecified : Bool := false
  bezierOffset : Int := 0
deriving Repr, DecidableEq

/-- `api::CurveStart`, include/mx/api/CurveData.h 103-127. -/
structure CurveStart where
  curveType : Api.CurveType
  numberLevel : Int := -1
  curvePoints : CurvePoints := {}
  curveOrientation : Api.CurveOrientation := .unspecified
  placement : Api.Placement := .unspecified
  lineData : LineData := {}
  isColorSpecified : Bool := false
  colorData : ColorData := {}
deriving Repr, DecidableEq

/-- `api::CurveContinue`, include/mx/api/CurveData.h 130-155. -/
structure CurveContinue where
  curveType : Api.CurveType
  numberLevel : Int := -1
  curvePoints : CurvePoints := {}
  bezierX2 : MaybeNum := {}
  bezierY2 : MaybeNum := {}
  bezierOffset2 : MaybeNum := {}
deriving Repr, DecidableEq

/-- `api::CurveStop`, include/mx/api/CurveData.h 158-171. -/
structure CurveStop where
  curveType : Api.CurveType
  numberLevel : Int := -1
  curvePoints : CurvePoints := {}
deriving Repr, DecidableEq

/-- A `<tied>` or `<slur>` element with its attributes, private/mx/core/elements/TiedAttributes.h, SlurAttributes.h. -/
structure CurveXml where
  isSlur : Bool
  type : Str
  number : Option Str := none
  line : LineXml := {}
  position : PositionXml := {}
  orientation : Option Str := none
  bezierOffset : Option Str := none
  bezierX : Option Str := none
  bezierY : Option Str := none
  bezierOffset2 : Option Str := none
  bezierX2 : Option Str := none
  bezierY2 : Option Str := none
  color : Option Str := none
deriving Repr, DecidableEq

/-- The position members of `TiedAttributes` and `SlurAttributes`: private/mx/core/elements/TiedAttributes.h 31-55. -/
def curveMembers : PositionMembers := {}

/-- The number of a curve, private/mx/impl/CurveFunctions.h 173-177 with private/mx/core/Integers.h (NumberLevel). -/
def writeNumber (numberLevel : Int) : Option Str := if numberLevel > 0 then some (IntRange.ofKind .NumberLevel numberLevel).toStr else none

/-- Reading the number, private/mx/impl/CurveFunctions.h 79-85. -/
def readNumber (x : Option Str) : Int := (x.map (parseBounded .NumberLevel)).getD (-1)

/-- The Bézier point of a curve: private/mx/impl/CurveFunctions.h 179-195. -/
def writeOffset (p : CurvePoints) : Option (Option Str) := writeNum .DivisionsValue { isSpecified := p.isBezierOffsetSpecified, value := p.bezierOffset }

/-- `std::ceil( x - 0.5 )` converted to `int`, private/mx/impl/CurveFunctions.h 36-40. -/
def readOffset (n : MaybeNum) : Option Int := if n.isSpecified then chk ⌈n.value - 1 / 2⌉ else some 0

/-- `writeAttributesFromCurveStop`, private/mx/impl/CurveFunctions.h 253-281, for the element `isSlur`, and the common part of start and continue. -/
def writeCurve (isSlur : Bool) (type : Core.StartStopContinue) (numberLevel : Int) (p : CurvePoints) : Option CurveXml := do
  let position ← writePosition curveMembers p.positionData
  let offset ← writeOffset p
  let x ← writeNum .TenthsValue p.bezierX
  let y ← writeNum .TenthsValue p.bezierY
  return { isSlur := isSlur, type := StringEnum.toStr type, number := writeNumber numberLevel, position := position, bezierOffset := offset, bezierX := x, bezierY := y }

/-- The notations choice of a curve whose type is unspecified: a new choice is a tie with the default attributes, private/mx/impl/NotationsWriter.cpp 108-125,
private/mx/core/elements/NotationsChoice.cpp 27-29, private/mx/core/elements/TiedAttributes.cpp 13-14. -/
def defaultTied : CurveXml := { isSlur := false, type := StringEnum.toStr Core.StartStopContinue.start }

/-- A curve stop, private/mx/impl/NotationsWriter.cpp 106-125. -/
def writeStop (c : CurveStop) : Option CurveXml :=
  if c.curveType = .unspecified then some defaultTied else writeCurve (decide (c.curveType = .slur)) .stop c.numberLevel c.curvePoints

/-- A continued curve, private/mx/impl/NotationsWriter.cpp 127-146, private/mx/impl/CurveFunctions.h 204-250. -/
def writeContinue (c : CurveContinue) : Option CurveXml :=
  if c.curveType = .unspecified then some defaultTied else do
    let x ← writeCurve (decide (c.curveType = .slur)) .continue_ c.numberLevel c.curvePoints
    let x2 ← writeNum .TenthsValue c.bezierX2
    let y2 ← writeNum .TenthsValue c.bezierY2
    let o2 ← writeNum .DivisionsValue c.bezierOffset2
    return { x with bezierX2 := x2, bezierY2 := y2, bezierOffset2 := o2 }

/-- The orientation of a curve, private/mx/impl/CurveFunctions.h 197-201. -/
def writeOrientation (o : Api.CurveOrientation) : Option Str :=
  if o ≠ .unspecified then some (StringEnum.toStr (if o = .overhand then Core.OverUnder.over else Core.OverUnder.under)) else none

/-- A curve start, private/mx/impl/NotationsWriter.cpp 148-167, private/mx/impl/CurveFunctions.h 160-201. -/
def writeStart (c : CurveStart) : Option CurveXml :=
  if c.curveType = .unspecified then some defaultTied else do
    let x ← writeCurve (decide (c.curveType = .slur)) .start c.numberLevel c.curvePoints
    let line ← writeLine c.lineData
    return { x with line := line, color := writeColor c.isColorSpecified c.colorData, orientation := writeOrientation c.curveOrientation }

/-- `parseCurvePoints`, private/mx/impl/CurveFunctions.h 20-43. -/
def readPoints (x : CurveXml) : Option CurvePoints := do
  let position ← readPosition curveMembers x.position
  let bx ← readNum .TenthsValue x.bezierX
  let byy ← readNum .TenthsValue x.bezierY
  let offset ← readNum .DivisionsValue x.bezierOffset
  let o ← readOffset offset
  return { positionData := position, bezierX := bx, bezierY := byy, isBezierOffsetSpecified := offset.isSpecified, bezierOffset := o }

/-- The type of a curve read, private/mx/impl/CurveFunctions.h 76, 107, 144. -/
def readCurveType (x : CurveXml) : Api.CurveType := if x.isSlur then .slur else .tie

/-- `parseCurveStop`, private/mx/impl/CurveFunctions.h 140-156. -/
def readStop (x : CurveXml) : Option CurveStop :=
  (readPoints x).map fun p => { curveType := readCurveType x, numberLevel := readNumber x.number, curvePoints := p }

/-- The second Bézier point is read by `SlurAttributes`, but `TiedAttributes` looks for other names (`bezier-x-2` and so on) than it writes:
private/mx/core/elements/TiedAttributes.cpp 91-96, 125-130, SlurAttributes.cpp 123-128. -/
def ifSlur (x : CurveXml) (a : Option Str) : Option Str := if x.isSlur then a else none

/-- `parseCurveContinue`, private/mx/impl/CurveFunctions.h 103-137. -/
def readContinue (x : CurveXml) : Option CurveContinue := do
  let x2 ← readNum .TenthsValue (ifSlur x x.bezierX2)
  let y2 ← readNum .TenthsValue (ifSlur x x.bezierY2)
  let o2 ← readNum .DivisionsValue (ifSlur x x.bezierOffset2)
  let p ← readPoints x
  return { curveType := readCurveType x, numberLevel := readNumber x.number, curvePoints := p, bezierX2 := x2, bezierY2 := y2, bezierOffset2 := o2 }

/-- The orientation read, private/mx/impl/CurveFunctions.h 95-98. -/
def readOrientation (x : Option Str) : Api.CurveOrientation :=
  (x.map (fun t => if (parseEnum t : Core.OverUnder) = .over then Api.CurveOrientation.overhand else .underhand)).getD .unspecified

/-- `parseCurveStart`, private/mx/impl/CurveFunctions.h 72-100. -/
def readStart (x : CurveXml) : Option CurveStart := do
  let p ← readPoints x
  let line ← readLine x.line
  return {
    curveType := readCurveType x, numberLevel := readNumber x.number, curvePoints := p, lineData := line
    isColorSpecified := (readColor x.color).1, colorData := (readColor x.color).2, curveOrientation := readOrientation x.orientation }

/-- The curves of a note, `api::NoteAttachmentData`, include/mx/api/NoteAttachmentData.h 15-26. -/
structure NoteCurves where
  starts : List CurveStart := []
  continuations : List CurveContinue := []
  stops : List CurveStop := []
deriving Repr, DecidableEq

/-- The curves in the notations of a note, private/mx/impl/NotationsWriter.cpp 106-167. -/
def writeCurves (c : NoteCurves) : Option (List CurveXml) := do
  let stops ← c.stops.mapM writeStop
  let continuations ← c.continuations.mapM writeContinue
  let starts ← c.starts.mapM writeStart
  return stops ++ continuations ++ starts

/-- A `<tied>` element of `addTie`, private/mx/impl/NoteWriter.cpp 263-272. -/
def addedTied (type : Core.StartStopContinue) : CurveXml := { isSlur := false, type := StringEnum.toStr type }

/-- The `<notations>` elements made by `addTie`, private/mx/impl/NoteWriter.cpp 220-273, 297-305, 317-325: the second tie is added to the first element, and the same element is added to
the note once more. -/
def tieNotations (kind : NoteKind) (isTieStop isTieStart : Bool) : List (List CurveXml) :=
  if kind = .cue then [] else
  if isTieStop then
    if isTieStart then [[addedTied .stop, addedTied .start], [addedTied .stop, addedTied .start]] else [[addedTied .stop]]
  else if isTieStart then [[addedTied .start]] else []

/-- All ties and slurs of a note, in the order of the document: private/mx/impl/NoteWriter.cpp 78-96. -/
def writeNoteCurves (kind : NoteKind) (isTieStop isTieStart : Bool) (c : NoteCurves) : Option (List CurveXml) :=
  (writeCurves c).map fun xs => (tieNotations kind isTieStop isTieStart).flatten ++ xs

/-- `parseCurve`, private/mx/impl/CurveFunctions.h 287-303. -/
def readCurve (c : NoteCurves) (x : CurveXml) : Option NoteCurves :=
  match (parseEnum x.type : Core.StartStopContinue) with
  | .start => (readStart x).map fun s => { c with starts := c.starts ++ [s] }
  | .continue_ => (readContinue x).map fun s => { c with continuations := c.continuations ++ [s] }
  | .stop => (readStop x).map fun s => { c with stops := c.stops ++ [s] }

/-- The curves of a note read, private/mx/impl/NoteFunctions.cpp 251-272. -/
def readNoteCurves (xs : List CurveXml) : Option NoteCurves := xs.foldlM readCurve {}

/-! ### Tuplets -/

/-- `api::TupletStart`, include/mx/api/TupletData.h 21-67. -/
structure TupletStart where
  numberLevel : Int := -1
  positionData : PositionData := {}
  actualNumber : Int := -1
  actualDurationName : Api.DurationName := .unspecified
  actualDots : Int := -1
  normalNumber : Int := -1
  normalDurationName : Api.DurationName := .unspecified
  normalDots : Int := -1
  showActualNumber : Api.Bool := .unspecified
  showNormalNumber : Api.Bool := .unspecified
  bracket : Api.Bool := .unspecified
deriving Repr, DecidableEq

/-- `api::TupletStop`, include/mx/api/TupletData.h 69-85. -/
structure TupletStop where
  numberLevel : Int := -1
  positionData : PositionData := {}
deriving Repr, DecidableEq

/-- `<tuplet-actual>` or `<tuplet-normal>`. -/
structure TupletPartXml where
  number : Option Str
  type : Option Str
  dots : Nat
deriving Repr, DecidableEq

/-- `<tuplet>`. -/
structure TupletXml where
  type : Str
  number : Option Str := none
  position : PositionXml := {}
  bracket : Option Str := none
  showNumber : Option Str := none
  actual : Option TupletPartXml := none
  normal : Option TupletPartXml := none
deriving Repr, DecidableEq

/-- The position members of `TupletAttributes`: private/mx/core/elements/TupletAttributes.h. -/
def tupletMembers : PositionMembers := {}

/-- `showNumber`, private/mx/impl/NotationsWriter.cpp 225-250. -/
def writeShowNumber (showActual showNormal : Api.Bool) : Option Str :=
  match showActual with
  | .yes => some (StringEnum.toStr (if showNormal = .yes then Core.ShowTuplet.both else Core.ShowTuplet.actual))
  | .no => some (StringEnum.toStr Core.ShowTuplet.none)
  | .unspecified => none

/-- One part of a tuplet, private/mx/impl/NotationsWriter.cpp 196-211. -/
def writeTupletPart (number : Int) (name : Api.DurationName) (dots : Int) : TupletPartXml :=
  { number := some (IntRange.ofKind .NonNegativeInteger number).toStr
    type := some (StringEnum.toStr (MapName.durationMap.toCore name : Core.NoteTypeValue))
    dots := dots.toNat }

/-- A tuplet start, private/mx/impl/NotationsWriter.cpp 186-251. -/
def writeTupletStart (t : TupletStart) : TupletXml :=
  { type := StringEnum.toStr Core.StartStop.start
    number := writeNumber t.numberLevel
    bracket := if t.bracket ≠ .unspecified then some (StringEnum.toStr (MapName.boolMap.toCore t.bracket : Core.YesNo)) else none
    showNumber := writeShowNumber t.showActualNumber t.showNormalNumber
    actual := some (writeTupletPart t.actualNumber t.actualDurationName t.actualDots)
    normal := some (writeTupletPart t.normalNumber t.normalDurationName t.normalDots) }

/-- A tuplet stop, private/mx/impl/NotationsWriter.cpp 171-184. -/
def writeTupletStop (t : TupletStop) : TupletXml := { type := StringEnum.toStr Core.StartStop.stop, number := writeNumber t.numberLevel }

/-- What the tuplet reader looks at in the note: the time modification (actual notes, normal notes, normal type with its dots) and the type. -/
structure TupletNote where
  timeModification : Option (Str × Str × Option (Str × Nat)) := none
  type : Option Str := none
deriving Repr, DecidableEq

/-- The number of dots found, private/mx/impl/TupletReader.cpp 100-103. -/
def readTupletDots (dots : Nat) : Int := if dots > 0 then (dots : Int) else -1

/-- The tuplet part read, private/mx/impl/TupletReader.cpp 86-104: number (`old` when absent), name and dots (unspecified and −1 when absent). -/
def readTupletPart (old : Int) (p : TupletPartXml) : Int × Api.DurationName × Int :=
  ((p.number.map (parseBounded .NonNegativeInteger)).getD old,
    (p.type.map (fun t => (MapName.durationMap.toApi (parseEnum t : Core.NoteTypeValue) : Api.DurationName))).getD .unspecified,
    readTupletDots p.dots)

/-- The name and dots guessed from the note, private/mx/impl/TupletReader.cpp 144-156, 169-181: `none` when nothing is set; the dots are set only with a normal type. -/
def guessName (n : TupletNote) : Option (Api.DurationName × Option Int) :=
  match n.timeModification with
  | none => none
  | some (_, _, some (t, d)) => some (MapName.durationMap.toApi (parseEnum t : Core.NoteTypeValue), some (d : Int))
  | some (_, _, none) => n.type.map (fun t => ((MapName.durationMap.toApi (parseEnum t : Core.NoteTypeValue) : Api.DurationName), none))

/-- `guessActualFromNote`, private/mx/impl/TupletReader.cpp 160-182: it sets the number of the *normal* part. -/
def guessActual (n : TupletNote) (t : TupletStart) : TupletStart :=
  let t := (n.timeModification.map (fun m => { t with normalNumber := parseBounded .NonNegativeInteger m.2.1 })).getD t
  ((guessName n).map (fun g => { t with actualDurationName := g.1, actualDots := g.2.getD t.actualDots })).getD t

/-- `guessNormalFromNote`, private/mx/impl/TupletReader.cpp 135-157: it sets the number of the *actual* part. -/
def guessNormal (n : TupletNote) (t : TupletStart) : TupletStart :=
  let t := (n.timeModification.map (fun m => { t with actualNumber := parseBounded .NonNegativeInteger m.1 })).getD t
  ((guessName n).map (fun g => { t with normalDurationName := g.1, normalDots := g.2.getD t.normalDots })).getD t

/-- `showNumber` read, private/mx/impl/TupletReader.cpp 55-75. -/
def readShowNumber (x : Option Str) : Api.Bool × Api.Bool :=
  (x.map (fun t =>
    match (parseEnum t : Core.ShowTuplet) with
    | .none => (Api.Bool.no, Api.Bool.no)
    | .both => (.yes, .yes)
    | .actual => (.yes, .no))).getD (.unspecified, .unspecified)

/-- `TupletReader::parseTuplet`, private/mx/impl/TupletReader.cpp 34-132. -/
def readTuplet (n : TupletNote) (x : TupletXml) : Option (TupletStart ⊕ TupletStop) :=
  (readPosition tupletMembers x.position).map fun position =>
    if (parseEnum x.type : Core.StartStop) = .stop then .inr { numberLevel := readNumber x.number, positionData := position } else
    let t : TupletStart :=
      { numberLevel := readNumber x.number, positionData := position
        showActualNumber := (readShowNumber x.showNumber).1, showNormalNumber := (readShowNumber x.showNumber).2
        bracket := (x.bracket.map (fun t => (MapName.boolMap.toApi (parseEnum t : Core.YesNo) : Api.Bool))).getD .unspecified }
    let t := match x.actual with
      | some p => { t with actualNumber := (readTupletPart t.actualNumber p).1, actualDurationName := (readTupletPart t.actualNumber p).2.1, actualDots := (readTupletPart t.actualNumber p).2.2 }
      | none => guessActual n t
    let t := match x.normal with
      | some p => { t with normalNumber := (readTupletPart t.normalNumber p).1, normalDurationName := (readTupletPart t.normalNumber p).2.1, normalDots := (readTupletPart t.normalNumber p).2.2 }
      | none => guessNormal n t
    .inl t

end Mx
