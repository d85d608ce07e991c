import Verif.Model.ScoreConversions

/-
What converting between the two layouts of MusicXML should do.
-/
namespace Mx.Spec
open Mx.Convert

variable {H G A M : Type}

/-- A partwise score is rectangular with `n` measures: it has the parts of the part list, in that order and each once, and each of them
has `n` measures. -/
def Rectangular (s : Partwise H G A M) (n : Nat) : Prop :=
  s.parts.map Prod.fst = partIds s.header ∧ (partIds s.header).Nodup ∧ 0 < n ∧ ∀ p ∈ s.parts, p.2.length = n

/-- The attributes of each measure (number, width, ...) are the same in all parts. -/
def SameAttributes (s : Partwise H G A M) : Prop :=
  ∀ p ∈ s.parts, ∀ q ∈ s.parts, p.2.map Prod.fst = q.2.map Prod.fst

/-- A timewise score is rectangular: it has measures, and each of them has the parts of the part list, in that order and each once. -/
def RectangularT (s : Timewise H G A M) : Prop :=
  (partIds s.header).Nodup ∧ s.measures ≠ [] ∧ ∀ m ∈ s.measures, m.2.map Prod.fst = partIds s.header

/-- The music of measure `i` of the part with the given id. -/
def musicAt (s : Partwise H G A M) (id : Str) (i : Nat) : Option M := do
  let p ← s.parts.find? (fun p => p.1 = id)
  let m ← p.2[i]?
  some m.2

/-- The same in a timewise score. -/
def musicAtT (s : Timewise H G A M) (id : Str) (i : Nat) : Option M := do
  let m ← s.measures[i]?
  let p ← m.2.find? (fun p => p.1 = id)
  some p.2

end Mx.Spec
