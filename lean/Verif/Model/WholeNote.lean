import Verif.Model.NotesThrough
import Verif.Model.NotationsThrough

namespace Mx
open Measure (NoteKind)

/-- A `<note>` of a document with its `<notations>`. -/
structure WholeNote where
  note : NoteXml
  notations : List (List AnyNotation)
deriving DecidableEq

/-- What the reader of tuplets looks at in the note, private/mx/impl/TupletReader.cpp 135-185. -/
def tupletNoteOf (x : NoteXml) : TupletNote := { timeModification := x.timeModification.map (fun t => (t.actualNotes, t.normalNotes, t.normal)), type := x.type }

/-- What a note gets from its measure when it is read and when it is written: ticks per quarter note, contents of `<duration>` and tick; the voice that is written and its place there. -/
structure NoteContext where
  readTicks : Int
  duration : ℚ
  tick : Int
  writtenTicks : Int
  siblings : List TupletSibling
  index : Nat

/-- A note is read (`NoteFunctions::parseNote`, private/mx/impl/NoteFunctions.cpp 81-190) and written (`NoteWriter::getNote`, private/mx/impl/NoteWriter.cpp 78-218). -/
def wholeNoteThrough (c : NoteContext) (x : WholeNote) : Option WholeNote := do
  let n ← readNote c.readTicks c.duration x.note
  let a ← readAttachments (tupletNoteOf x.note) c.tick x.notations
  let y ← writeNote (tupletNormal c.writtenTicks c.siblings c.index) n
  let ys ← writeAttachments n.noteType n.isTieStop n.isTieStart a
  return ⟨y, ys⟩

/-- The same several times, in whatever measures. -/
def wholeNoteThroughTimes : List NoteContext → WholeNote → Option WholeNote
  | [], x => some x
  | c :: cs, x => (wholeNoteThrough c x).bind (wholeNoteThroughTimes cs)

end Mx
