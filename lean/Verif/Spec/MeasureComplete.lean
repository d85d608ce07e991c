import Verif.Model.MeasureWriter
import Verif.Model.MeasureReader

/-
What a measure contains, without regard to time: notes, directions, clefs, keys and barlines.
-/
namespace Spec
open Mx.Measure

variable {P : Type}

/-- A note without its time: its kind, its length (no grace note has one, no length is negative), the number of the voice as documents count them, and its content. -/
def noteGist (voice : Int) (n : NoteData P) : NoteKind × Int × Int × P :=
  (n.kind, (if n.kind = .grace then 0 else max 0 n.ticks), (if 0 ≤ voice then voice + 1 else -1), n.content)

/-- All notes of a staff. -/
def staffNotes (s : StaffData P) : List (NoteKind × Int × Int × P) := s.voices.flatMap fun v => v.2.map (noteGist v.1)

/-- All notes of a staff that was read; these carry the number of the voice themselves. -/
def readNotes (s : StaffData P) : List (NoteKind × Int × Int × P) := s.voices.flatMap fun v => v.2.map fun n => (n.kind, n.ticks, n.userVoice, n.content)

/-- The keys in a document. -/
def keysIn (es : List (Elem P)) : List (KeyElem P) := es.flatMap fun e => match e with | .attributes a => a.keys | _ => []

/-- The keys in a document that are for all staves, and those for one staff. -/
def wholeKeysIn (es : List (Elem P)) : List (Bool × P) := ((keysIn es).filter fun k => k.number.isNone).map fun k => (k.isTraditional, k.content)
def staffKeysIn (i : Int) (es : List (Elem P)) : List (Bool × P) := ((keysIn es).filter fun k => decide (k.number = some (i + 1))).map fun k => (k.isTraditional, k.content)

end Spec
