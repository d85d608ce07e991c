import Verif.Model.Properties

/-
What a user expects of transpositions, clefs, keys, time signatures and measure numbers.
-/
open Mx
namespace Spec

/-- The usual number of scale steps of an interval of `n` semitones, 0..11: unison, minor and major second, ..., minor and major seventh. -/
def usualSteps : List Int := [0, 1, 1, 2, 2, 3, 3, 4, 5, 5, 6, 6]

/-- The usual number of scale steps for a number of semitones, up or down: seven for each whole octave and the usual steps of the rest. -/
def usualDiatonic (chromatic : Int) : Int :=
  if 0 ≤ chromatic then 7 * (chromatic / 12) + usualSteps.getD (chromatic % 12).toNat 0
  else -(7 * (-chromatic / 12) + usualSteps.getD (-chromatic % 12).toNat 0)

/-- The line on which each clef stands in music notation. -/
def trueClef : ClefName → Api.ClefSymbol × Int
  | .treble => (.g, 2)
  | .bass => (.f, 4)
  | .alto => (.c, 3)
  | .tenor => (.c, 4)
  | .baritone => (.c, 5)
  | .soprano => (.c, 1)
  | .mezzoSoprano => (.c, 2)

/-- The number has at most `n` decimals. -/
def HasDecimals (n : Nat) (v : ℚ) : Prop := ∃ c : Int, v * 10 ^ n = c

/-- The cents are a fraction of a semitone in the direction of the alteration, given with at most four decimals. -/
def CentsFit (alter : Int) (cents : ℚ) : Prop := |cents| < 100 ∧ 0 ≤ (alter : ℚ) * cents ∧ HasDecimals 4 cents

/-- The last explicit time signature of a list. -/
def lastExplicit (l : List (Option TimeSignatureData)) : Option TimeSignatureData := (l.filterMap id).getLast?

/-- The time signature of measure `i` when the measures have the given explicit time signatures: the closest one at or before `i`, or else 4/4; it is
implicit unless measure `i` itself has one. -/
def timeAt (explicit : List (Option TimeSignatureData)) (i : Nat) : TimeSignatureData :=
  { (lastExplicit (explicit.take (i + 1))).getD { symbol := .unspecified, beats := 4, beatType := 4, isImplicit := true, display := .unspecified } with
    isImplicit := explicit[i]? == some none }

/-- The explicit time signatures of a list of measures. -/
def explicitTimes (ts : List TimeSignatureData) : List (Option TimeSignatureData) := ts.map (fun t => if t.isImplicit then none else some t)

/-- Every implicit time signature repeats the closest explicit one before it (or 4/4). -/
def TimesAgree (ts : List TimeSignatureData) : Prop := ∀ i (t : TimeSignatureData), ts[i]? = some t → t = timeAt (explicitTimes ts) i

end Spec
