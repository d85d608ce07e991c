import Verif.Model.ApiEnums
import Verif.Model.MeasureTypes
import Mathlib.Data.Rat.Defs
import Mathlib.Algebra.Order.Ring.Rat

/-
What the small functions of the public data types should compute.
-/
namespace Mx.Spec

/-- The part, the measure of the part and the staff of the measure exist. -/
def LocationExists (score : List (List Nat)) (partIndex staffIndex measureIndex : Int) : Prop :=
  ∃ (p s m : Nat) (part : List Nat) (staves : Nat),
    partIndex = p ∧ staffIndex = s ∧ measureIndex = m ∧ score[p]? = some part ∧ part[m]? = some staves ∧ s < staves

/-- A list is in ascending time order. -/
def InTimeOrder {α : Type} (time : α → Int) (l : List α) : Prop := l.Pairwise (fun a b => time a ≤ time b)

/-- Staff `k` of measure `j` of part `i`. -/
def staffAt {P : Type} (parts : List (List (Measure.MeasureData P))) (i j k : Nat) : Option (Measure.StaffData P) :=
  (parts[i]?.bind (fun (ms : List (Measure.MeasureData P)) => ms[j]?)).bind (fun (m : Measure.MeasureData P) => m.staves[k]?)

/-- Measure `j` of part `i` without its staves. -/
def measureRest {P : Type} (parts : List (List (Measure.MeasureData P))) (i j : Nat) :
    Option (List (Measure.KeyData P) × List (Measure.BarlineData P) × Nat) :=
  (parts[i]?.bind (fun (ms : List (Measure.MeasureData P)) => ms[j]?)).map
    (fun (m : Measure.MeasureData P) => (m.keys, m.barlines, m.staves.length))

/-- Sorting a list by time: a permutation in ascending time order. -/
def SortedByTime {α : Type} (time : α → Int) (before after : List α) : Prop :=
  after.Perm before ∧ InTimeOrder time after

/-- No two items of a staff's clefs, of its directions, or of one of its voices have the same time. -/
def DistinctTimes {P : Type} (s : Measure.StaffData P) : Prop :=
  (s.clefs.map (·.tick)).Nodup ∧ (s.directions.map (·.tick)).Nodup ∧ ∀ v ∈ s.voices, (v.2.map (·.tick)).Nodup

/-- How many quarter notes a note without dots lasts. -/
def quartersOf : Api.DurationName → Option ℚ
  | .unspecified => none
  | .maxima => some 32
  | .longa => some 16
  | .breve => some 8
  | .whole => some 4
  | .half => some 2
  | .quarter => some 1
  | .eighth => some (1 / 2)
  | .dur16th => some (1 / 4)
  | .dur32nd => some (1 / 8)
  | .dur64th => some (1 / 16)
  | .dur128th => some (1 / 32)
  | .dur256th => some (1 / 64)
  | .dur512th => some (1 / 128)
  | .dur1024th => some (1 / 256)

/-- The length of a dotted note: each dot adds half of what was added before. -/
def dotted (v : ℚ) : Nat → ℚ
  | 0 => v
  | n + 1 => dotted v n + v / 2 ^ (n + 1)

end Mx.Spec
