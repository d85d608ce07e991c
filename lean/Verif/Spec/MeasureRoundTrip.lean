import Verif.Spec.MeasurePlan

/-
Which measures can be expected to survive writing and reading, in terms of the music only.
-/
namespace Spec
open Mx.Measure

variable {P : Type}

/-- `b` belongs to the same chord as `a`. -/
def SameChord (a b : NoteData P) : Prop := a.isChord = true ∧ b.isChord = true ∧ b.tick = a.tick

/-- Neighbours in a voice do not overlap: the second one begins after the end of the first one, or both are in one chord. -/
def NoOverlap (a b : NoteData P) : Prop := a.tick + a.ticks ≤ b.tick ∨ SameChord a b

/-- Each chord note has company: the note before or the note after belongs to the same chord.  `prev` is the note before. -/
def ChordsComplete : Option (NoteData P) → List (NoteData P) → Prop
  | _, [] => True
  | prev, n :: rest =>
    (n.isChord = true → (∃ p ∈ prev, SameChord p n) ∨ (∃ q ∈ rest.head?, SameChord n q)) ∧ ChordsComplete (some n) rest

/-- Time of the first note of a voice. -/
def voiceStart (ns : List (NoteData P)) : Int := match ns.head? with | some n => n.tick | none => 0

/-- End of the last note of a voice. -/
def voiceEnd (ns : List (NoteData P)) : Int := match ns.getLast? with | some n => n.tick + n.ticks | none => 0

/-- The voices of a staff that have notes. -/
def StaffData.sounding (s : StaffData P) : List (Int × List (NoteData P)) := s.voices.filter (fun v => !v.2.isEmpty)

/-- A staff that survives: voice numbers ascend from 0 or more (as in a map), notes in a voice do not overlap, chords have at least two
members, and each sounding voice begins before the end of the sounding voice before it. -/
structure StaffReadable (s : StaffData P) : Prop where
  keys : ∀ v ∈ s.voices, 0 ≤ v.1
  ascending : s.voices.Pairwise (fun a b => a.1 < b.1)
  noOverlap : ∀ v ∈ s.voices, v.2.IsChain NoOverlap
  chords : ∀ v ∈ s.voices, ChordsComplete none v.2
  overlap : (StaffData.sounding s).IsChain (fun v w => voiceStart w.2 < voiceEnd v.2)

/-- The voices of a staff as they should be read: voices without notes do not appear, and notes know the number of their voice. -/
def voicesExpected (s : StaffData P) : List (Int × List (NoteData P)) :=
  (StaffData.sounding s).map (fun v => (v.1, v.2.map (fun n => { n with userVoice := v.1 + 1 })))

end Spec
