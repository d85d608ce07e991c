import Verif.Model.MeasureWriter
import Verif.Model.MeasureReader
import Verif.Model.ConverterTables
import Verif.Model.Strings

/-!
What a `<barline>` is besides its place: style, ending and repeat.  (Of `<barline>` the reader uses only these and `location`;
wavy lines, segnos, codas, fermatas, and the attributes of `<ending>` other than `number` and `type` and of `<repeat>` other than `direction` are not
modelled: the reader does not look at them and the writer does not write them.)
-/
namespace Mx.Bar

/-- `core::Ending` with its required attributes, private/mx/core/elements/EndingAttributes.h. -/
structure Ending where
  type : Core.StartStopDiscontinue
  number : CommaInts
deriving Repr, DecidableEq

/-- The contents of `core::Barline`, private/mx/core/elements/Barline.h; a `<repeat>` is its direction. -/
structure Contents where
  style : Option Core.BarStyleEnum := none
  ending : Option Ending := none
  repeats : Option Core.BackwardForward := none
deriving Repr, DecidableEq

/-- `core::Barline` with its location, private/mx/core/elements/BarlineAttributes.h. -/
structure Barline where
  location : Option Core.RightLeftMiddle
  contents : Contents
deriving Repr, DecidableEq

/-- `api::BarlineData`, include/mx/api/BarlineData.h 39-59. -/
structure Data where
  tick : Int
  barlineType : Api.BarlineType
  endingType : Api.EndingType
  endingNumber : Int
  isRepeat : Bool
  location : Api.HorizontalAlignment
deriving Repr, DecidableEq

/-- The `switch` over the type of an ending, private/mx/impl/MeasureReader.cpp 611-624. -/
def endingTypeOf : Core.StartStopDiscontinue → Api.EndingType
  | .start => .start
  | .stop => .stop
  | .discontinue => .discontinue

/-- `MeasureReader::parseBarline`, private/mx/impl/MeasureReader.cpp 574-643, at a time of the measure. -/
def parseBarline (tick : Int) (b : Barline) : Data :=
  let loc : Api.HorizontalAlignment := match b.location with
    | some l => Mx.barlinePlacementMap.toApi l
    | none => .unspecified
  { tick := if loc = .right then Measure.TICK_TIME_INFINITY else tick
    barlineType := match b.contents.style with
      | some s => Mx.barlineMap.toApi s
      | none => .unspecified
    endingType := match b.contents.ending with
      | some e => endingTypeOf e.type
      | none => .none
    endingNumber := match b.contents.ending with
      | some e => e.number.values.head?.getD 0
      | none => 0
    isRepeat := b.contents.repeats.isSome
    location := loc }

/-- `Converter::endingMap`, private/mx/impl/Converter.cpp 406-411, default 1730 (there is no conversion from core to API, so `defaultApi` is not used). -/
def endingMap : ConvMap Core.StartStopDiscontinue Api.EndingType where
  rows := [(.start, .start), (.stop, .stop), (.discontinue, .discontinue)]
  defaultApi := .none
  defaultCore := .start
  order := [.start, .stop, .discontinue]

/-- The `number` of a written ending: "1" by default (private/mx/core/elements/EndingAttributes.cpp 15), replaced by a positive ending number,
private/mx/impl/MeasureWriter.cpp 751-754. -/
def endingNumberOut (n : Int) : CommaInts :=
  if n > 0 then CommaInts.parse ⟨[], false⟩ (showInt n) else CommaInts.parse ⟨[], false⟩ (chars "1")

/-- The `<barline>` of one `BarlineData`, private/mx/impl/MeasureWriter.cpp 735-786. -/
def writeBarline (d : Data) : Barline :=
  { location := some (if d.location ≠ .unspecified then Mx.barlinePlacementMap.toCore d.location
      else if d.location = .left ∨ d.tick = 0 then Mx.barlinePlacementMap.toCore .left else Mx.barlinePlacementMap.toCore .right)
    contents :=
      { style := if d.barlineType ≠ .unspecified ∧ d.barlineType ≠ .unsupported then some (Mx.barlineMap.toCore d.barlineType) else none
        ending := if d.endingType ≠ .none then some { type := endingMap.toCore d.endingType, number := endingNumberOut d.endingNumber } else none
        repeats := if d.isRepeat then some (if d.location = .left ∨ d.tick = 0 then .forward else .backward) else none } }

/-! ### in a measure -/

/-- The locations of the model of measures are those of the API. -/
def apiLocation : Measure.Location → Api.HorizontalAlignment
  | .unspecified => .unspecified
  | .left => .left
  | .center => .center
  | .right => .right

/-- A barline of a measure that was read as the API has it: `parseBarline` once more, with the time and the location that the model of measures has given it. -/
def apiOf (b : Measure.BarlineData Contents) : Data :=
  { parseBarline b.tick ⟨none, b.content⟩ with location := apiLocation b.location }

/-- What is written of the contents of a barline that was read. -/
def recode (b : Measure.BarlineData Contents) : Measure.BarlineData Contents := { b with content := (writeBarline (apiOf b)).contents }

/-- A measure whose barlines have been read and are written again. -/
def recodeMeasure (m : Measure.MeasureData Contents) : Measure.MeasureData Contents := { m with barlines := m.barlines.map recode }

end Mx.Bar
