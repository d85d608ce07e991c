/-
Data types shared by the models of the measure writer and the measure reader, and by the specification of the
MusicXML clock.

* api side: `NoteData`, `StaffData`, `MeasureData` (Sourcecode/include/mx/api/NoteData.h, VoiceData.h, StaffData.h,
  MeasureData.h, ClefData.h, KeyData.h, DirectionData.h, BarlineData.h).
* core side: the children of a `<measure>` element in document order, `core::MusicDataChoice`
  (private/mx/core/elements/MusicDataChoice.h).

Simplifications:
* everything of a note, clef, key, direction, barline that does not influence time, staff or voice is a payload of an
  arbitrary type `P` ("content"), carried along unchanged.  (Pitches, beams, keys, clefs, ... have models of
  their own.)
* `std::map< int, VoiceData >` is its list of (key, value) pairs in ascending key order.
* decimal durations are exact multiples of 0.000001, counted in that unit (`core::Decimal` has six digits,
  private/mx/core/Decimals.cpp 297-300).
-/
namespace Mx.Measure

/-- one whole division, in units of 0.000001 divisions -/
def MICRO : Int := 1000000

/-- `api::TICK_TIME_INFINITY`, include/mx/api/ApiCommon.h. -/
def TICK_TIME_INFINITY : Int := 2147483647

/-- `api::NoteType`. -/
inductive NoteKind where
  | normal | cue | grace
deriving Repr, DecidableEq

/-- `api::NoteData`, include/mx/api/NoteData.h. -/
structure NoteData (P : Type) where
  tick : Int
  ticks : Int
  isChord : Bool
  kind : NoteKind
  userVoice : Int
  content : P
deriving Repr, DecidableEq

/-- `api::DirectionData` (time, staff flag) or `api::ClefData` (time). -/
structure Timed (P : Type) where
  tick : Int
  content : P
deriving Repr, DecidableEq

/-- `api::DirectionData`. -/
structure DirectionData (P : Type) where
  tick : Int
  isStaffValueSpecified : Bool
  content : P
deriving Repr, DecidableEq

/-- `api::KeyData`. -/
structure KeyData (P : Type) where
  tick : Int
  staffIndex : Int
  isTraditional : Bool
  content : P
deriving Repr, DecidableEq

/-- `api::HorizontalAlignment` of a barline. -/
inductive Location where
  | unspecified | left | center | right
deriving Repr, DecidableEq

/-- `api::BarlineData`. -/
structure BarlineData (P : Type) where
  tick : Int
  location : Location
  content : P
deriving Repr, DecidableEq

/-- `api::StaffData`. -/
structure StaffData (P : Type) where
  clefs : List (Timed P)
  keys : List (KeyData P)
  voices : List (Int × List (NoteData P))
  directions : List (DirectionData P)
deriving Repr, DecidableEq

/-- `api::MeasureData` (the part modelled here). -/
structure MeasureData (P : Type) where
  staves : List (StaffData P)
  keys : List (KeyData P)
  barlines : List (BarlineData P)
deriving Repr, DecidableEq

/-- A `<note>` element.  `dur` is the contents of `<duration>` (0 for a grace note, which has none),
`staff`/`voice` the contents of those elements if present. -/
structure NoteElem (P : Type) where
  chord : Bool
  kind : NoteKind
  dur : Int
  staff : Option Int
  voice : Option Int
  content : P
deriving Repr, DecidableEq

/-- `<key>` within `<attributes>`. -/
structure KeyElem (P : Type) where
  number : Option Int
  isTraditional : Bool
  content : P
deriving Repr, DecidableEq

/-- `<clef>` within `<attributes>`. -/
structure ClefElem (P : Type) where
  number : Option Int
  content : P
deriving Repr, DecidableEq

/-- `<attributes>` (`core::Properties`). -/
structure Attributes (P : Type) where
  divisions : Option Int := none
  staves : Option Int := none
  hasTime : Bool := false
  hasTranspose : Bool := false
  keys : List (KeyElem P) := []
  clefs : List (ClefElem P) := []
deriving Repr, DecidableEq

/-- The children of `<measure>` in document order; `other` stands for print, sound, figured-bass, grouping, link,
bookmark, all of which do not influence time. -/
inductive Elem (P : Type) where
  | note (n : NoteElem P)
  | backup (dur : Int)
  | forward (dur : Int)
  | direction (staff : Option Int) (offset : Int) (content : P)
  | attributes (a : Attributes P)
  | barline (location : Option Location) (content : P)
  | other
deriving Repr, DecidableEq

end Mx.Measure
