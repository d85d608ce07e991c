import Verif.Model.Instruments

namespace Mx

/-- A `<score-part>` is read (private/mx/impl/PartReader.cpp 194-223) and written (private/mx/impl/PartWriter.cpp 70-232); `unique` is the next unused number of the document manager. -/
def scorePartThrough (unique : Int) (x : ScorePartXml) : Res ScorePartXml := (parseScorePart x).bind (getScorePart unique)

/-- Any number of times, every time with some unused number. -/
inductive ScorePartPasses : Nat → ScorePartXml → ScorePartXml → Prop
  | zero (x : ScorePartXml) : ScorePartPasses 0 x x
  | succ {n : Nat} {x y z : ScorePartXml} (unique : Int) (h : scorePartThrough unique x = .ok y) (hs : ScorePartPasses n y z) : ScorePartPasses (n + 1) x z

end Mx
