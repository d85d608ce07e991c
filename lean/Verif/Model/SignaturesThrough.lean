import Verif.Model.Properties

namespace Mx

/-- A `<clef>` is read (private/mx/impl/MeasureReader.cpp 684-767) at a time of its measure and written (private/mx/impl/PropertiesWriter.cpp 259-284) for a staff. -/
def clefThrough (tick staffIndex : Int) (x : ClefXml) : Option ClefXml := writeClef staffIndex (importClef tick x).2

/-- A `<key>` is read (private/mx/impl/MeasureReader.cpp 458-534) and written (private/mx/impl/PropertiesWriter.cpp 151-217, called with the staff of the key, MeasureWriter.cpp 251-255). -/
def keyThrough (numStaves tick : Int) (x : KeyXml) : Option KeyXml := (readKey numStaves tick x).bind (fun k => writeKey k.staffIndex k)

/-- A `<clef>` goes `n` times through the program, every time at some time and for some staff. -/
inductive ClefPasses : Nat → ClefXml → ClefXml → Prop
  | zero (x : ClefXml) : ClefPasses 0 x x
  | succ {n : Nat} {x y z : ClefXml} (tick staffIndex : Int) (h : clefThrough tick staffIndex x = some y) (hs : ClefPasses n y z) : ClefPasses (n + 1) x z

/-- The same for a `<key>`. -/
inductive KeyPasses : Nat → KeyXml → KeyXml → Prop
  | zero (x : KeyXml) : KeyPasses 0 x x
  | succ {n : Nat} {x y z : KeyXml} (numStaves tick : Int) (h : keyThrough numStaves tick x = some y) (hs : KeyPasses n y z) : KeyPasses (n + 1) x z

end Mx
