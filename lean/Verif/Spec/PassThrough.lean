import Verif.Spec.ScoreTime
import Verif.Spec.MeasurePlan
import Verif.Spec.PartStaves

/-
A file that goes through the program: it is loaded and saved again.
-/
namespace Spec
open Mx.Measure

variable {P : Type}

/-- What there is to hear and to see of a note: when it starts, how long it is, its staff, and everything that the note says itself. -/
def Placed.heard (p : Placed P) : ℚ × ℚ × Int × P := (p.onset, p.length, p.staffIndex, p.content)

/-- Chords as they are used in practice:
* all notes of a chord are equally long, and a note that is no grace note has a length;
* a chord of grace notes is not followed by a chord of other notes at once (with `<backup>` or some note in between it may be).

`base` is the duration of the note without `<chord/>` before, `grace` says that grace notes of a chord were the last notes (single grace notes aside). -/
def PlainChords (base : Option Int) (grace : Bool) : List (Elem P) → Prop
  | [] => True
  | .note n :: es =>
    (n.kind ≠ .grace → 0 < n.dur) ∧ (n.chord = true → base = some n.dur) ∧ (n.kind ≠ .grace → (n.chord || nextIsChord es) = true → grace = false) ∧
    PlainChords (if n.chord then base else some n.dur) (if n.kind = .grace then grace || n.chord || nextIsChord es else false) es
  | .backup _ :: es => PlainChords base false es
  | _ :: es => PlainChords base grace es

/-- Two measures in which the same notes are heard at the same times (in any order of the document). -/
def SoundsLike (a b : List (Placed P)) : Prop := (a.map Placed.heard).Perm (b.map Placed.heard)

/-- A part of a file as it is needed: it has a measure, `<divisions>` come before the first note, durations are whole numbers of divisions, the staves of clefs exist, and chords are plain. -/
structure PlainPart (ms : List (List (Child P))) : Prop where
  nonempty : ms ≠ []
  declared : ∀ m ∈ (partElems ms).head?, declares m = true
  timed : ∃ N, IsStaffCount N ms ∧ PartTimed N 1 (partElems ms)
  chords : ∀ m ∈ partElems ms, PlainChords none false m

/-- Grace notes are no chords. -/
def NoGraceChords : List (Elem P) → Prop
  | [] => True
  | .note n :: es => (n.kind = .grace → n.chord = false ∧ nextIsChord es = false) ∧ NoGraceChords es
  | _ :: es => NoGraceChords es

end Spec
