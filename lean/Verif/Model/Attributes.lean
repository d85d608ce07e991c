import Verif.Model.Strings
import Verif.Model.Color
import Verif.Model.OpenEnums

/-
Model of the attribute structs of private/mx/core/elements: what they have in common.  The structs themselves are tables (Verif/Model/AttributeTables.lean).
The member classes are modelled in Integers, Decimals, Color, CoreEnums, OpenEnums and Strings.
-/
namespace Mx

/-- The classes of the members of attribute structs.  `string` is `XsString` (also `XsAnyUri`, `XmlLang`, `XlinkHref`), `token` is `XsToken` (also `XsNMToken`,
`XlinkRole`, `XlinkTitle`), `id` is `XsID` (also `XsIDREF`), `commaInts` is `CommaSeparatedListOfPositiveIntegers` (also `EndingNumber`, `TimeOnly`). -/
inductive AttrType where
  | enum (n : EnumName) | int (k : IntKind) | decimal (k : DecimalKind) | color | fontSize | numberOrNormal | yesNoNumber
  | commaText | commaInts | string | token | id | distanceType | lineWidthType
deriving Repr, DecidableEq

/-- The value of a member. -/
inductive AttrValue where
  | enum (n : EnumName) (x : n.Carrier) | int (r : IntRange) | decimal (d : DecimalRange) | color (c : Color) | fontSize (f : FontSize)
  | numberOrNormal (n : NumberOrNormal) | yesNoNumber (y : YesNoNumber) | commaText (l : CommaText) | commaInts (c : CommaInts)
  | string (s : Str) | token (s : Str) | id (s : Str) | distanceType (v : OpenName.DistanceType.Value) | lineWidthType (v : OpenName.LineWidthType.Value)

namespace AttrValue

/-- What `operator<<` writes for a member: texts with escapes (private/mx/core/XsString.cpp 49-80, CommaSeparatedText.cpp 87-104), everything else as it is
(for `DistanceType` and `LineWidthType` private/mx/core/Enums.cpp 847-855, 1630-1638). -/
def raw : AttrValue → Str
  | .enum _ x => StringEnum.toStr x
  | .int r => r.toStr
  | .decimal d => d.toStr
  | .color c => c.toStr
  | .fontSize f => f.toStr
  | .numberOrNormal n => n.toStr
  | .yesNoNumber y => y.toStr
  | .commaText l => l.toStream
  | .commaInts c => c.toStr
  | .string s => escapeXml s
  | .token s => escapeXml s
  | .id s => escapeXml s
  | .distanceType v => v.valueString
  | .lineWidthType v => v.valueString

/-- The overloads of `parseAttribute` after the comparison of the name, private/mx/core/FromXElement.h 349-364 (enumerations) and FromXElement.cpp 563-891:
whether `isSuccess` is left as it was, and the new value.  `none`: undefined behaviour of a decimal (2^64 or more). -/
def parse : AttrValue → Str → Option (Bool × AttrValue)
  | .enum n _, s => let x : n.Carrier := parseEnum s; some (decide (StringEnum.toStr x = s), .enum n x)
  | .int r, s => let r' := (r.parse s).2; some (decide (r'.toStr = s), .int r')
  | .decimal d, s => (d.parse s).map (fun p => (true, .decimal p.2))
  | .color c, s => let c' := c.parse s; some (decide (c'.toStr = s), .color c')
  | .fontSize f, s => (f.parse s).map (fun p => (decide (p.2.toStr = s), .fontSize p.2))
  | .numberOrNormal n, s => (n.parse s).map (fun p => (decide (p.toStr = s), .numberOrNormal p))
  | .yesNoNumber y, s => (y.parse s).map (fun p => (decide (p.2.toStr = s), .yesNoNumber p.2))
  | .commaText _, s => some (true, .commaText (CommaText.parse s))
  | .commaInts c, s => some (true, .commaInts (c.parse s))
  | .string _, s => some (true, .string s)
  | .token _, s => some (true, .token (xsToken s))
  | .id _, s => some (true, .id (xsID s))
  | .distanceType v, s => some (true, .distanceType (v.setText s))
  | .lineWidthType v, s => some (true, .lineWidthType (v.setText s))

/-- `number.setUseSpaceBetweenItems( it->getValue().find( " " ) != std::string::npos )`, private/mx/core/elements/EndingAttributes.cpp 101. -/
def setSpacing (b : Bool) : AttrValue → AttrValue
  | .commaInts c => .commaInts (c.setSpacing b)
  | v => v

end AttrValue

/-- A member with its flag `has…`. -/
structure AttrField where
  present : Bool
  value : AttrValue

/-- An object of an attribute struct: its members in the order of declaration. -/
abbrev AttrObject := List AttrField

/-- A member in the table of a struct: its class, and whether its flag is the constant `true` (required attributes) or is `false` at first. -/
structure AttrMember where
  type : AttrType
  required : Bool

/-- A line `streamAttribute( os, member, "name", flag )`. -/
structure AttrWrite where
  member : Nat
  name : Str
  flag : Nat

/-- The flag of a line of `fromXElementImpl`: `has…` of the object or a local variable `is…Found`. -/
inductive AttrFlag where
  | has (i : Nat)
  | found (i : Nat)
deriving DecidableEq

/-- A line `if( parseAttribute( message, it, className, isSuccess, member, flag, "name" ) ) { continue; }`; without a member only the flag is set
(private/mx/core/elements/LinkAttributes.cpp 99-103, OpusAttributes.cpp); `spacing` for the extra statement of EndingAttributes.cpp 101. -/
structure AttrRead where
  name : Str
  member : Option Nat
  flag : AttrFlag
  spacing : Bool

/-- The table of a struct; members are given by their position. -/
structure AttrClass where
  members : List AttrMember
  hasValues : List Nat
  writes : List AttrWrite
  reads : List AttrRead
  /-- The local flags that are checked at the end of `fromXElementImpl`. -/
  checks : List Nat

/-- The flag of a member. -/
def AttrObject.flag (o : AttrObject) (i : Nat) : Bool := match o[i]? with
  | some f => f.present
  | none => false

/-- What `operator<<` writes for a member. -/
def AttrObject.raw (o : AttrObject) (i : Nat) : Str := match o[i]? with
  | some f => f.value.raw
  | none => []

/-- `streamAttribute`, private/mx/core/AttributesInterface.h 38-53. -/
def streamAttribute (name raw : Str) (isPresent : Bool) : Str :=
  if isPresent then ' ' :: (name ++ ['=', '"'] ++ raw ++ ['"']) else []

namespace AttrClass

/-- `hasValues` and `toStream` of a struct, e.g. private/mx/core/elements/EmptyPlacementAttributes.cpp 36-64. -/
def toStream (c : AttrClass) (o : AttrObject) : Str :=
  if c.hasValues.any o.flag then c.writes.flatMap (fun w => streamAttribute w.name (o.raw w.member) (o.flag w.flag)) else []

/-- The state of the loop in `fromXElementImpl`. -/
structure ReadState where
  obj : AttrObject
  found : List Nat
  success : Bool

/-- Assignment to a member. -/
def ReadState.assign (st : ReadState) (l : AttrRead) (value : Str) : Option ReadState :=
  match l.member with
  | none => some st
  | some i =>
    match st.obj[i]? with
    | none => none
    | some f =>
      match f.value.parse value with
      | none => none
      | some (ok, v) =>
        some { st with obj := st.obj.set i { f with value := if l.spacing then v.setSpacing (value.contains ' ') else v }, success := st.success && ok }

/-- Assignment of `true` to a flag. -/
def ReadState.setFlag (st : ReadState) : AttrFlag → ReadState
  | .has i => { st with obj := st.obj.modify i (fun f => { f with present := true }) }
  | .found i => { st with found := i :: st.found }

/-- The line for an attribute: the first one with its name. -/
def lineFor (c : AttrClass) (name : Str) : Option AttrRead := c.reads.find? (fun l => decide (l.name = name))

/-- One attribute of the XML element, e.g. private/mx/core/elements/EmptyPlacementAttributes.cpp 75-86: other names are passed over. -/
def readOne (c : AttrClass) (st : ReadState) (a : Str × Str) : Option ReadState :=
  match c.lineFor a.1 with
  | none => some st
  | some l => (st.assign l a.2).map (fun st' => st'.setFlag l.flag)

/-- The loop over the attributes. -/
def readAll (c : AttrClass) : ReadState → List (Str × Str) → Option ReadState
  | st, [] => some st
  | st, a :: as => (c.readOne st a).bind (fun st' => c.readAll st' as)

/-- `fromXElementImpl` of a struct, e.g. private/mx/core/elements/EndingAttributes.cpp 87-131: success and the object afterwards. -/
def read (c : AttrClass) (o : AttrObject) (attributes : List (Str × Str)) : Option (Bool × AttrObject) :=
  (c.readAll ⟨o, [], true⟩ attributes).map (fun st => (st.success && c.checks.all st.found.contains, st.obj))

end AttrClass
end Mx
