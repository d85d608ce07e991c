import Verif.Model.Basic

/-
Model of private/mx/core/Integers.cpp.
-/
namespace Mx

/-- `clamp`, private/mx/core/Integers.cpp 67-81. -/
def clampInt (lo hi v : Int) : Int := if v < lo then lo else if v > hi then hi else v

/-- The bounded integer classes derived from `IntRange` (private/mx/core/Integers.h 65-239). -/
inductive IntKind where
  | AccordionMiddleValue | BeamLevel | Byte | FifthsValue | Midi128 | Midi16 | Midi16384
  | NonNegativeInteger | NumberLevel | NumberOfLines | OctaveValue | PositiveInteger
  | StaffLine | StaffNumber | StringNumber | TremoloMarks
deriving Repr, DecidableEq

namespace IntKind

/-- The bounds passed to the `IntRange` constructor by each class,
private/mx/core/Integers.cpp 103, 115, 127, 139, 151, 163, 175, 187, 199, 211, 223, 235, 247, 259, 271, 283. -/
def bounds : IntKind → Int × Int
  | AccordionMiddleValue => (0, 3)
  | BeamLevel => (1, 8)
  | Byte => (0, 255)
  | FifthsValue => (INT_MIN, INT_MAX)
  | Midi128 => (1, 128)
  | Midi16 => (1, 16)
  | Midi16384 => (1, 16384)
  | NonNegativeInteger => (0, INT_MAX)
  | NumberLevel => (1, 6)
  | NumberOfLines => (0, 3)
  | OctaveValue => (0, 9)
  | PositiveInteger => (1, INT_MAX)
  | StaffLine => (INT_MIN, INT_MAX)
  | StaffNumber => (1, INT_MAX)
  | StringNumber => (1, INT_MAX)
  | TremoloMarks => (0, 8)

end IntKind

/-- `IntRange`: `myMin`, `myMax` (private/mx/core/Integers.h 45-60) and the inherited `myValue`. -/
structure IntRange where
  min : Int
  max : Int
  value : Int
deriving Repr, DecidableEq

namespace IntRange

/-- `IntRange::IntRange( min, max, value )`, private/mx/core/Integers.cpp 83-89. -/
def make (lo hi v : Int) : IntRange := ⟨lo, hi, clampInt lo hi v⟩

/-- `K( IntType value )` for the class named by `k`. -/
def ofKind (k : IntKind) (v : Int) : IntRange := make k.bounds.1 k.bounds.2 v

/-- `K()`: all default constructors delegate with 0 (private/mx/core/Integers.cpp 96-285). -/
def default (k : IntKind) : IntRange := ofKind k 0

/-- `IntRange::setValue`, private/mx/core/Integers.cpp 91-94. -/
def setValue (r : IntRange) (v : Int) : IntRange := { r with value := clampInt r.min r.max v }

/-- `Integer::parse`, private/mx/core/Integers.cpp 37-47; `setValue` is the virtual one of `IntRange`.
`( ss >> std::ws ).eof()` holds iff only white space is left. -/
def parse (r : IntRange) (s : Str) : Bool × IntRange :=
  let t := readInt 0 s
  if t.fail ∨ ¬ (skipWs t.rest = []) then (false, r) else (true, r.setValue t.value)

/-- `toString`, private/mx/core/Integers.cpp 49-59. -/
def toStr (r : IntRange) : Str := showInt r.value

/-- Operations of the public interface. -/
inductive Op where
  | setValue (v : Int)
  | parse (s : Str)

/-- One operation. -/
def step (r : IntRange) : Op → IntRange
  | .setValue v => r.setValue v
  | .parse s => (r.parse s).2

end IntRange

/-- Unbounded `Integer` (class `Integer` itself, private/mx/core/Integers.cpp 15-47). -/
structure Integer where
  value : Int
deriving Repr, DecidableEq

/-- `Integer::parse`, private/mx/core/Integers.cpp 37-47. -/
def Integer.parse (r : Integer) (s : Str) : Bool × Integer :=
  let t := readInt 0 s
  if t.fail ∨ ¬ (skipWs t.rest = []) then (false, r) else (true, ⟨t.value⟩)

/-- `toString( Integer )`, private/mx/core/Integers.cpp 49-59. -/
def Integer.toStr (r : Integer) : Str := showInt r.value

end Mx
