import Verif.Model.ScoreHeader

namespace Mx

/-- The elements before the part list are read (private/mx/impl/ScoreReader.cpp 171-288) and written (private/mx/impl/ScoreWriter.cpp 54-124). -/
def headerThrough (x : HeaderXml) : Option HeaderXml := (readHeader x).bind writeHeader

/-- Any number of times. -/
inductive HeaderPasses : Nat → HeaderXml → HeaderXml → Prop
  | zero (x : HeaderXml) : HeaderPasses 0 x x
  | succ {n : Nat} {x y z : HeaderXml} (h : headerThrough x = some y) (hs : HeaderPasses n y z) : HeaderPasses (n + 1) x z

end Mx
