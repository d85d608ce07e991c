import Verif.Model.PartStaves
import Verif.Spec.MeasureSettles

/-
Saving and loading whole scores again and again.
-/
namespace Spec
open Mx.Measure

variable {P : Type}

/-- A score. -/
structure Score (P : Type) where
  ticksPerQuarter : Int
  parts : List (PartData P)

/-- `s'` is what is loaded from the file that `s` is saved in.  What `s'` has besides measures and ids of parts (time signatures, transpositions, print elements) may be anything. -/
def SavedAndLoaded (s s' : Score P) : Prop :=
  rereadScore s.ticksPerQuarter s.parts = some (s'.ticksPerQuarter, s'.parts.map (fun p => p.measures.map (·.2))) ∧
  s'.parts.map (·.uniqueId) = (writeScore s.ticksPerQuarter s.parts).1

/-- `s'` is what becomes of `s` after some number of saves and loads. -/
inductive AfterSaves : Nat → Score P → Score P → Prop
  | none (s : Score P) : AfterSaves 0 s s
  | more {k : Nat} {s s' s'' : Score P} : AfterSaves k s s' → SavedAndLoaded s' s'' → AfterSaves (k + 1) s s''

/-- Ticks per quarter; of each part its id; of each of its measures, the notes with their voices and times, the directions with their times, and the clefs, staff by staff. -/
def scoreMusic (s : Score P) : Int × List (Mx.Str × List (List (List (Int × List (NoteData P))) × List (List (DirectionData P)) × List (List P))) :=
  (s.ticksPerQuarter, s.parts.map (fun p => (p.uniqueId, p.measures.map (fun x => (music x.2, directionsOf x.2, x.2.staves.map (fun st => st.clefs.map (·.content)))))))

/-- The notes of a score with everything they have, also the voice numbers that they carry. -/
def scoreVoices (s : Score P) : List (List (List (List (Int × List (NoteData P))))) := s.parts.map (fun p => p.measures.map (fun x => x.2.staves.map (·.voices)))

/-- Some measure is written for some part: the file says how long a quarter is. -/
def HasMeasure (parts : List (PartData P)) : Prop := ∃ p ∈ parts, p.measures ≠ [] ∨ p.transposition.isSome = true

/-- No measure of a part has more staves than the first one (if that has none, not more than one). -/
def StavesFit (ms : List (Extras × MeasureData P)) : Prop := ∀ x rest, ms = x :: rest → ∀ y ∈ rest, y.2.staves.length ≤ max 1 x.2.staves.length

end Spec
