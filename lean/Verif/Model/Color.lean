import Verif.Model.Integers

/-
Model of private/mx/core/Color.cpp.  The `Byte` members are `IntRange`s with bounds 0..255;
only their value is stored here because `Byte::setValue` is `clampInt 0 255`.
-/
namespace Mx

/-- `Color::ColorType`. -/
inductive ColorType where
  | RGB | ARGB
deriving Repr, DecidableEq

/-- `Color::impl` members, private/mx/core/Color.cpp 137-141. -/
structure Color where
  alpha : Int
  red : Int
  green : Int
  blue : Int
  type : ColorType
deriving Repr, DecidableEq

namespace Color

/-- `Byte( value )` / `Byte::setValue`, private/mx/core/Integers.cpp 67-94, 126-127. -/
def byte (v : Int) : Int := (IntRange.ofKind .Byte v).value

/-- ARGB constructor, private/mx/core/Color.cpp 16-25. -/
def argb (a r g b : Int) : Color := ⟨byte a, byte r, byte g, byte b, .ARGB⟩
/-- RGB constructor, private/mx/core/Color.cpp 27-35. -/
def rgb (r g b : Int) : Color := ⟨byte 255, byte r, byte g, byte b, .RGB⟩
/-- Default constructor, private/mx/core/Color.cpp 37-43. -/
def default : Color := ⟨byte 255, byte 255, byte 255, byte 255, .RGB⟩

/-- private/mx/core/Color.cpp 66-70. -/
def setAlpha (c : Color) (v : Int) : Color := { c with alpha := byte v, type := .ARGB }
/-- private/mx/core/Color.cpp 71-74. -/
def setRed (c : Color) (v : Int) : Color := { c with red := byte v }
/-- private/mx/core/Color.cpp 75-78. -/
def setGreen (c : Color) (v : Int) : Color := { c with green := byte v }
/-- private/mx/core/Color.cpp 79-82. -/
def setBlue (c : Color) (v : Int) : Color := { c with blue := byte v }
/-- private/mx/core/Color.cpp 83-90. -/
def setColorType (c : Color) (t : ColorType) : Color :=
  let c := { c with type := t }
  if c.type = .RGB then { c with alpha := byte 255 } else c

/-- Characters accepted by `find_first_not_of( "ABCDEF0123456789" )`, private/mx/core/Color.cpp 103. -/
def isHexChar (c : Char) : Bool := "ABCDEF0123456789".toList.contains c

/-- Value of a hexadecimal digit as read by `>> std::hex`; upper case only, since everything else has been
rejected before. -/
def hexVal (c : Char) : Nat := if c.isDigit then c.toNat - 48 else c.toNat - 55

/-- `getInt`, private/mx/core/Color.cpp 142-150: two characters read in base 16. -/
def getInt (s : Str) (startpos : Nat) : Int :=
  ((s.drop startpos).take 2).foldl (fun acc c => 16 * acc + (hexVal c : Int)) 0

/-- `parse`, private/mx/core/Color.cpp 91-134 (returns `void`: bad input leaves the value unchanged).
Note the order: `setAlpha` switches to ARGB, the final `setColorType` restores RGB. -/
def parse (c : Color) (s : Str) : Color :=
  if s.length ≠ 7 ∧ s.length ≠ 9 then c
  else if s.head? ≠ some '#' then c
  else if ¬ (s.drop 1).all isHexChar then c
  else
    let (t, a, r, g, b) : ColorType × Int × Int × Int × Int :=
      if s.length = 9 then (.ARGB, getInt s 1, getInt s 3, getInt s 5, getInt s 7)
      else (.RGB, 255, getInt s 1, getInt s 3, getInt s 5)
    ((((c.setAlpha a).setRed r).setGreen g).setBlue b).setColorType t

/-- String constructor, private/mx/core/Color.cpp 171-173. -/
def ofString (s : Str) : Color := default.parse s

/-- One upper case hexadecimal digit as printed by `std::hex << std::uppercase`. -/
def hexDigit (n : Nat) : Char := if n < 10 then Char.ofNat (48 + n) else Char.ofNat (55 + n)

/-- `os << std::hex << std::setfill('0') << std::setw(2) << std::uppercase << v`, for 0 ≤ v ≤ 255
(the shortest numeral, padded to two digits). -/
def hex2 (v : Int) : Str := [hexDigit (v.toNat / 16), hexDigit (v.toNat % 16)]

/-- `toStream`, private/mx/core/Color.cpp 242-261. -/
def toStr (c : Color) : Str :=
  ['#'] ++ (if c.type = .ARGB then hex2 c.alpha else []) ++ hex2 c.red ++ hex2 c.green ++ hex2 c.blue

/-- Public mutating interface. -/
inductive Op where
  | setAlpha (v : Int) | setRed (v : Int) | setGreen (v : Int) | setBlue (v : Int)
  | setColorType (t : ColorType) | parse (s : Str)

/-- One operation. -/
def step (c : Color) : Op → Color
  | .setAlpha v => c.setAlpha v
  | .setRed v => c.setRed v
  | .setGreen v => c.setGreen v
  | .setBlue v => c.setBlue v
  | .setColorType t => c.setColorType t
  | .parse s => c.parse s

/-- The constructors. -/
inductive Ctor where
  | argb (a r g b : Int) | rgb (r g b : Int) | default | str (s : Str)

/-- Construct. -/
def construct : Ctor → Color
  | .argb a r g b => Color.argb a r g b
  | .rgb r g b => Color.rgb r g b
  | .default => Color.default
  | .str s => ofString s

end Color
end Mx
