import Verif.Spec.MusicXMLClock

/-
What a caller of the writer asks for: where each note of a measure is meant to be, and which measures are
meaningful requests.
-/
namespace Spec
open Mx.Measure

variable {P : Type}

/-- A note with a sensible time: not negative, and grace notes have no length while other notes have one. -/
def NoteOk (n : NoteData P) : Prop :=
  0 ≤ n.tick ∧ (n.kind = .grace → n.ticks = 0) ∧ (n.kind ≠ .grace → 0 < n.ticks)

/-- Neighbours in a voice: a chord note followed by a note at the same time is followed by a member of the same chord, of
the same length (or, for grace chords, of length zero, by a note outside the chord). -/
def PairOk (a b : NoteData P) : Prop :=
  a.isChord = true → b.tick = a.tick → if b.isChord then b.ticks = a.ticks else a.ticks = 0

/-- A voice whose notes can be placed. -/
def VoiceOk (ns : List (NoteData P)) : Prop := (∀ n ∈ ns, NoteOk n) ∧ ns.IsChain PairOk

/-- The place a caller expects for a note. -/
def expectedNote (G numStaves staffIndex voiceIndex : Int) (n : NoteData P) : Placed P :=
  { onset := (n.tick : ℚ) / G
    length := (n.ticks : ℚ) / G
    staff := if numStaves > 1 ∧ staffIndex ≥ 0 then some (staffIndex + 1) else none
    voice := if voiceIndex ≥ 0 then some (voiceIndex + 1) else none
    content := n.content }

/-- The notes of a measure as the caller gave them, in the order staves, voices, notes. -/
def expectedFrom (G numStaves : Int) : Int → List (StaffData P) → List (Placed P)
  | _, [] => []
  | i, s :: rest =>
    s.voices.flatMap (fun v => v.2.map (expectedNote G numStaves i v.1)) ++ expectedFrom G numStaves (i + 1) rest

/-- The notes of a measure as the caller gave them. -/
def expectedNotes (ticksPerQuarter numStaves : Int) (m : MeasureData P) : List (Placed P) :=
  expectedFrom ticksPerQuarter numStaves 0 m.staves

/-- Every voice of every staff is a meaningful request. -/
def MeasureOk (m : MeasureData P) : Prop := ∀ s ∈ m.staves, ∀ v ∈ s.voices, VoiceOk v.2

/-- Neighbours in a voice that the reader and the writer see alike: a chord note that has a length is not followed by a note outside the chord at the same time.  The notes of a chord may differ
in length. -/
def PairKept (a b : NoteData P) : Prop := a.isChord = true → b.tick = a.tick → b.isChord = false → a.ticks = 0

/-- A note whose time is not negative; grace notes have no length and other notes no negative one. -/
def NoteKept (n : NoteData P) : Prop := 0 ≤ n.tick ∧ (n.kind = .grace → n.ticks = 0) ∧ 0 ≤ n.ticks

/-- A voice whose notes keep their times. -/
def VoiceKept (ns : List (NoteData P)) : Prop := (∀ n ∈ ns, NoteKept n) ∧ ns.IsChain PairKept

/-- Every voice of every staff keeps the times of its notes. -/
def MeasureKept (m : MeasureData P) : Prop := ∀ s ∈ m.staves, ∀ v ∈ s.voices, VoiceKept v.2

end Spec
