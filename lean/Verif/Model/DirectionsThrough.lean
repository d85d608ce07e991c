import Verif.Model.Directions

namespace Mx.Directions

/-- A `<direction>` is read at one place of a measure (private/mx/impl/MeasureReader.cpp 390-423), which may change whether its staff is specified, and the direction of the API is written at another or the same place (private/mx/impl/MeasureWriter.cpp 712-728), on the given staff. -/
def directionThrough (cursorTick : Int) (staffSaid : Bool) (staffIndex cursorTick' : Int) (x : DirectionXml) : Res (List ElementXml) := do
  let d ← readDirection cursorTick x
  getDirectionLikeThings staffIndex cursorTick' { d with isStaffValueSpecified := staffSaid }

/-- A `<direction>` goes `n` times through the program, every time at some place; it always comes out as one `<direction>`. -/
inductive DirectionPasses : Nat → DirectionXml → DirectionXml → Prop
  | zero (x : DirectionXml) : DirectionPasses 0 x x
  | succ {n : Nat} {x y z : DirectionXml} (cursorTick : Int) (staffSaid : Bool) (staffIndex cursorTick' : Int) (h : directionThrough cursorTick staffSaid staffIndex cursorTick' x = .ok [.direction y]) (hs : DirectionPasses n y z) : DirectionPasses (n + 1) x z

/-- The same for a `<harmony>`. -/
def harmonyThrough (cursorTick : Int) (staffSaid : Bool) (staffIndex cursorTick' : Int) (x : HarmonyXml) : Res (List ElementXml) := do
  let d ← readHarmony cursorTick x
  getDirectionLikeThings staffIndex cursorTick' { d with isStaffValueSpecified := staffSaid }

/-- A `<harmony>` goes `n` times through the program; it always comes out as one `<harmony>`. -/
inductive HarmonyPasses : Nat → HarmonyXml → HarmonyXml → Prop
  | zero (x : HarmonyXml) : HarmonyPasses 0 x x
  | succ {n : Nat} {x y z : HarmonyXml} (cursorTick : Int) (staffSaid : Bool) (staffIndex cursorTick' : Int) (h : harmonyThrough cursorTick staffSaid staffIndex cursorTick' x = .ok [.harmony y]) (hs : HarmonyPasses n y z) :
      HarmonyPasses (n + 1) x z

end Mx.Directions
