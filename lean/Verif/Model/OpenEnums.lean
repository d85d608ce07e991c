import Verif.Model.CoreEnums

/-
The classes that hold a value of an enumeration or any other text: `DistanceType`, `DynamicsValue`, `LineWidthType`, `ModeValue`
(private/mx/core/Enums.cpp 774-855, 936-1017, 1922-2003, 2268-2349).  The four classes have the same code, with their own enumeration and their own
enumerator for "any other text".
-/
namespace Mx

/-- The enumerator of each class that stands for any other text. -/
class OpenEnum (α : Type) extends StringEnum α where
  other : α

/-- `DistanceType`, private/mx/core/Enums.cpp 774-855. -/
instance : OpenEnum Core.DistanceTypeEnum where
  other := .other

/-- `DynamicsValue`, private/mx/core/Enums.cpp 936-1017. -/
instance : OpenEnum Core.DynamicsEnum where
  other := .otherDynamics

/-- `LineWidthType`, private/mx/core/Enums.cpp 1922-2003. -/
instance : OpenEnum Core.LineWidthTypeEnum where
  other := .other

/-- `ModeValue`, private/mx/core/Enums.cpp 2268-2349. -/
instance : OpenEnum Core.ModeEnum where
  other := .other

/-- The members `myEnum`, `myCustomValue`. -/
structure OpenValue (α : Type) where
  enum : α
  custom : Str
deriving DecidableEq, Repr

namespace OpenValue

variable {α : Type} [DecidableEq α] [OpenEnum α]

/-- `setValue( const DynamicsEnum value )`, private/mx/core/Enums.cpp 976-983. -/
def setEnum (v : OpenValue α) (e : α) : OpenValue α :=
  if e ≠ OpenEnum.other ∧ v.custom ≠ [] then { enum := e, custom := [] } else { v with enum := e }

/-- `setValue( const std::string& value )`, private/mx/core/Enums.cpp 985-998. -/
def setText (v : OpenValue α) (s : Str) : OpenValue α :=
  match tryParse s with
  | some e => { enum := e, custom := [] }
  | none => { v.setEnum OpenEnum.other with custom := s }

/-- Constructor from an enumerator, private/mx/core/Enums.cpp 936-941. -/
def ofEnum (e : α) : OpenValue α := setEnum { enum := e, custom := [] } e

/-- Constructor from a text (used by the parsers), private/mx/core/Enums.cpp 943-948. -/
def ofText (s : Str) : OpenValue α := setText { enum := OpenEnum.other, custom := s } s

/-- `getValueString` (and what is written), private/mx/core/Enums.cpp 962-974. -/
def valueString (v : OpenValue α) : Str := if v.enum ≠ OpenEnum.other then StringEnum.toStr v.enum else v.custom

/-- The two ways to change a value. -/
inductive Op (α : Type) where
  | setEnum (e : α)
  | setText (s : Str)

/-- One call of `setValue`. -/
def step (v : OpenValue α) : Op α → OpenValue α
  | .setEnum e => v.setEnum e
  | .setText s => v.setText s

end OpenValue

/-- The four classes. -/
inductive OpenName where
  | DistanceType | DynamicsValue | LineWidthType | ModeValue
deriving Repr, DecidableEq

/-- The enumeration of each class. -/
@[reducible] def OpenName.enumName : OpenName → EnumName
  | .DistanceType => .DistanceTypeEnum
  | .DynamicsValue => .DynamicsEnum
  | .LineWidthType => .LineWidthTypeEnum
  | .ModeValue => .ModeEnum

instance OpenName.openEnum : (o : OpenName) → OpenEnum o.enumName.Carrier
  | .DistanceType => (inferInstance : OpenEnum Core.DistanceTypeEnum)
  | .DynamicsValue => (inferInstance : OpenEnum Core.DynamicsEnum)
  | .LineWidthType => (inferInstance : OpenEnum Core.LineWidthTypeEnum)
  | .ModeValue => (inferInstance : OpenEnum Core.ModeEnum)

instance OpenName.decEq : (o : OpenName) → DecidableEq o.enumName.Carrier
  | .DistanceType => (inferInstance : DecidableEq Core.DistanceTypeEnum)
  | .DynamicsValue => (inferInstance : DecidableEq Core.DynamicsEnum)
  | .LineWidthType => (inferInstance : DecidableEq Core.LineWidthTypeEnum)
  | .ModeValue => (inferInstance : DecidableEq Core.ModeEnum)

/-- Objects of a class. -/
abbrev OpenName.Value (o : OpenName) : Type := OpenValue o.enumName.Carrier

end Mx
