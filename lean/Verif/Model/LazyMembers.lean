import Verif.Spec.Regular

/-
Members of element objects that are created when they are first asked for, and any number of threads that call `const` functions of these objects and are interleaved in every possible way.
Simplifications: each step is one access to a member or to the mutex of an object (reading or writing a shared pointer is one access); a thread may call any `const` function of any object at any time, so that
every program that only calls such functions is covered; the `const` functions of all other element classes only read (no other class has a `mutable` member) and are left out;
making an object touches only memory that no other thread knows.
-/
namespace Mx.Lazy

/-- The five classes that have such members; `other` stands for all other classes of elements and attributes. -/
inductive LCls where
  | Note | PartwiseMeasure | MusicDataChoice | FullNoteGroup | FullNoteTypeChoice
  | other (t : Nat)
  deriving DecidableEq

/-- A step of a function of an object. `lock` and `unlock`: `MX_LOCK`, private/mx/utility/Lock.h 17 (the lock is released at the end of the block). `ensure`, `create` and `store`:
`MX_JIT_ALLOCATE` and `MX_JIT_ALLOCATE_ATTRIBUTES`, private/mx/utility/JitAllocate.h 7-17: the pointer is tested (`ensure`), and if it is null an object is made (`create`) and the pointer is set (`store`). `load`: a member is read. -/
inductive Instr where
  | lock
  | unlock
  | ensure (i : Nat)
  | create (i : Nat)
  | store (i : Nat) (a : Nat)
  | load (i : Nat)
  deriving DecidableEq

/-- The members of `Note`, private/mx/core/elements/Note.h 154-178: Attributes 0, NoteChoice 1, Instrument 2, HasInstrument 3, EditorialVoiceGroup 4, Type 5, HasType 6, DotSet 7, Accidental 8, HasAccidental 9, TimeModification 10, HasTimeModification 11, Stem 12, HasStem 13, Notehead 14, HasNotehead 15, NoteheadText 16, HasNoteheadText 17, Staff 18, HasStaff 19, BeamSet 20, NotationsSet 21, LyricSet 22, Play 23, HasPlay 24. Those that are created when they are first asked for (they are `mutable`), and their classes. -/
def lazyNote : List (Nat × LCls) := [
  (0, .other (nm! "NoteAttributes")), (1, .other (nm! "NoteChoice")), (2, .other (nm! "Instrument")), (4, .other (nm! "EditorialVoiceGroup")), (5, .other (nm! "Type")), (8, .other (nm! "Accidental")), (10, .other (nm! "TimeModification")), (12, .other (nm! "Stem")), (14, .other (nm! "Notehead")), (16, .other (nm! "NoteheadText")), (18, .other (nm! "Staff")), (23, .other (nm! "Play"))]

/-- The `const` functions of `Note` that access its members, private/mx/core/elements/Note.cpp, and these accesses in their order (each member once; the calls of other `const` functions are calls of their own). -/
def constNote : List (List Instr) := [
  -- `streamContents` 97-174
  [.load 3, .load 6, .load 7, .load 9, .load 11, .load 13, .load 15, .load 17, .load 19, .load 20, .load 21, .load 22, .load 24],
  -- `getAttributes` 177-182
  [.lock, .ensure 0, .load 0, .unlock],
  -- `getNoteChoice` 194-199
  [.lock, .ensure 1, .load 1, .unlock],
  -- `getInstrument` 211-216
  [.lock, .ensure 2, .load 2, .unlock],
  -- `getHasInstrument` 228-231
  [.load 3],
  -- `getEditorialVoiceGroup` 240-245
  [.lock, .ensure 4, .load 4, .unlock],
  -- `getType` 257-262
  [.lock, .ensure 5, .load 5, .unlock],
  -- `getHasType` 274-277
  [.load 6],
  -- `getDotSet` 286-289
  [.load 7],
  -- `getDot` 316-323
  [.load 7],
  -- `getAccidental` 326-331
  [.lock, .ensure 8, .load 8, .unlock],
  -- `getHasAccidental` 343-346
  [.load 9],
  -- `getTimeModification` 355-360
  [.lock, .ensure 10, .load 10, .unlock],
  -- `getHasTimeModification` 372-375
  [.load 11],
  -- `getStem` 384-389
  [.lock, .ensure 12, .load 12, .unlock],
  -- `getHasStem` 401-404
  [.load 13],
  -- `getNotehead` 413-418
  [.lock, .ensure 14, .load 14, .unlock],
  -- `getHasNotehead` 430-433
  [.load 15],
  -- `getNoteheadText` 442-447
  [.lock, .ensure 16, .load 16, .unlock],
  -- `getHasNoteheadText` 459-462
  [.load 17],
  -- `getStaff` 471-476
  [.lock, .ensure 18, .load 18, .unlock],
  -- `getHasStaff` 488-491
  [.load 19],
  -- `getBeamSet` 500-503
  [.load 20],
  -- `getBeam` 533-540
  [.load 20],
  -- `getNotationsSet` 543-546
  [.load 21],
  -- `getNotations` 573-580
  [.load 21],
  -- `getLyricSet` 583-586
  [.load 22],
  -- `getLyric` 613-620
  [.load 22],
  -- `getPlay` 623-628
  [.lock, .ensure 23, .load 23, .unlock],
  -- `getHasPlay` 640-643
  [.load 24]]

/-- The members of `PartwiseMeasure`, private/mx/core/elements/PartwiseMeasure.h 48-49: Attributes 0, MusicDataGroup 1. Those that are created when they are first asked for (they are `mutable`), and their classes. -/
def lazyPartwiseMeasure : List (Nat × LCls) := [
  (0, .other (nm! "MeasureAttributes"))]

/-- The `const` functions of `PartwiseMeasure` that access its members, private/mx/core/elements/PartwiseMeasure.cpp, and these accesses in their order (each member once; the calls of other `const` functions are calls of their own). -/
def constPartwiseMeasure : List (List Instr) := [
  -- `hasContents` 53-56
  [.load 1],
  -- `streamContents` 59-73
  [.load 1],
  -- `getAttributes` 76-81
  [.lock, .ensure 0, .load 0, .unlock],
  -- `getMusicDataGroup` 93-96
  [.load 1]]

/-- The members of `MusicDataChoice`, private/mx/core/elements/MusicDataChoice.h 124-137: Choice 0, Note 1, Backup 2, Forward 3, Direction 4, Properties 5, Harmony 6, FiguredBass 7, Print 8, Sound 9, Barline 10, Grouping 11, Link 12, Bookmark 13. Those that are created when they are first asked for (they are `mutable`), and their classes. -/
def lazyMusicDataChoice : List (Nat × LCls) := [
  (1, .Note), (2, .other (nm! "Backup")), (3, .other (nm! "Forward")), (4, .other (nm! "Direction")), (5, .other (nm! "Properties")), (6, .other (nm! "Harmony")), (7, .other (nm! "FiguredBass")), (8, .other (nm! "Print")), (9, .other (nm! "Sound")), (10, .other (nm! "Barline")), (11, .other (nm! "Grouping")), (12, .other (nm! "Link")), (13, .other (nm! "Bookmark"))]

/-- The `const` functions of `MusicDataChoice` that access its members, private/mx/core/elements/MusicDataChoice.cpp, and these accesses in their order (each member once; the calls of other `const` functions are calls of their own). -/
def constMusicDataChoice : List (List Instr) := [
  -- `streamContents` 69-117
  [.load 0],
  -- `getChoice` 120-123
  [.load 0],
  -- `getNote` 132-137
  [.lock, .ensure 1, .load 1, .unlock],
  -- `getBackup` 149-154
  [.lock, .ensure 2, .load 2, .unlock],
  -- `getForward` 166-171
  [.lock, .ensure 3, .load 3, .unlock],
  -- `getDirection` 183-188
  [.lock, .ensure 4, .load 4, .unlock],
  -- `getProperties` 200-205
  [.lock, .ensure 5, .load 5, .unlock],
  -- `getHarmony` 217-222
  [.lock, .ensure 6, .load 6, .unlock],
  -- `getFiguredBass` 234-239
  [.lock, .ensure 7, .load 7, .unlock],
  -- `getPrint` 251-256
  [.lock, .ensure 8, .load 8, .unlock],
  -- `getSound` 268-273
  [.lock, .ensure 9, .load 9, .unlock],
  -- `getBarline` 285-290
  [.lock, .ensure 10, .load 10, .unlock],
  -- `getGrouping` 302-307
  [.lock, .ensure 11, .load 11, .unlock],
  -- `getLink` 319-324
  [.lock, .ensure 12, .load 12, .unlock],
  -- `getBookmark` 336-341
  [.lock, .ensure 13, .load 13, .unlock]]

/-- The members of `FullNoteGroup`, private/mx/core/elements/FullNoteGroup.h 51-53: Chord 0, HasChord 1, FullNoteTypeChoice 2. Those that are created when they are first asked for (they are `mutable`), and their classes. -/
def lazyFullNoteGroup : List (Nat × LCls) := [
  (2, .FullNoteTypeChoice)]

/-- The `const` functions of `FullNoteGroup` that access its members, private/mx/core/elements/FullNoteGroup.cpp, and these accesses in their order (each member once; the calls of other `const` functions are calls of their own). -/
def constFullNoteGroup : List (List Instr) := [
  -- `streamContents` 46-56
  [.load 1, .load 0],
  -- `getChord` 59-62
  [.load 0],
  -- `getHasChord` 74-77
  [.load 1],
  -- `getFullNoteTypeChoice` 86-91
  [.lock, .ensure 2, .load 2, .unlock]]

/-- The members of `FullNoteTypeChoice`, private/mx/core/elements/FullNoteTypeChoice.h 64-67: Choice 0, Pitch 1, Unpitched 2, Rest 3. Those that are created when they are first asked for (they are `mutable`), and their classes. -/
def lazyFullNoteTypeChoice : List (Nat × LCls) := [
  (1, .other (nm! "Pitch")), (2, .other (nm! "Unpitched")), (3, .other (nm! "Rest"))]

/-- The `const` functions of `FullNoteTypeChoice` that access its members, private/mx/core/elements/FullNoteTypeChoice.cpp, and these accesses in their order (each member once; the calls of other `const` functions are calls of their own). -/
def constFullNoteTypeChoice : List (List Instr) := [
  -- `streamContents` 48-69
  [.load 0],
  -- `getChoice` 72-75
  [.load 0],
  -- `getPitch` 84-89
  [.lock, .ensure 1, .load 1, .unlock],
  -- `getUnpitched` 101-106
  [.lock, .ensure 2, .load 2, .unlock],
  -- `getRest` 118-123
  [.lock, .ensure 3, .load 3, .unlock]]

/-- The members that are created on first use. -/
def lazyOf : LCls → List (Nat × LCls)
  | .Note => lazyNote
  | .PartwiseMeasure => lazyPartwiseMeasure
  | .MusicDataChoice => lazyMusicDataChoice
  | .FullNoteGroup => lazyFullNoteGroup
  | .FullNoteTypeChoice => lazyFullNoteTypeChoice
  | .other _ => []

/-- The class of a member that is created on first use. -/
def target (c : LCls) (i : Nat) : Option LCls := ((lazyOf c).find? fun p => Nat.beq p.1 i).map (·.2)

/-- All `const` functions. -/
def constOf : LCls → List (List Instr)
  | .Note => constNote
  | .PartwiseMeasure => constPartwiseMeasure
  | .MusicDataChoice => constMusicDataChoice
  | .FullNoteGroup => constFullNoteGroup
  | .FullNoteTypeChoice => constFullNoteTypeChoice
  | .other _ => []

/-- `setInstrument`, `setNoteChoice` and so on: the pointer is set (not if it is null) without a lock, e.g. private/mx/core/elements/Note.cpp 202-208, 219-225. -/
def settersOf (c : LCls) (a : Nat) : List (List Instr) := (lazyOf c).map fun p => [.store p.1 a]

/-- A member: a null pointer, pointers to objects (one or, for a vector, several), or something else. -/
inductive Cell where
  | null
  | refs (as : List Nat)
  | val (v : Nat)
  deriving DecidableEq

structure Obj where
  cls : LCls
  cells : List Cell
  deriving DecidableEq

/-- The objects by their addresses. -/
abbrev Heap := List Obj

def Heap.cell? (h : Heap) (o i : Nat) : Option Cell := (h[o]?).bind fun x => x.cells[i]?

def Heap.put (h : Heap) (o i : Nat) (x : Cell) : Heap :=
  match h[o]? with
  | none => h
  | some y => h.set o ⟨y.cls, y.cells.set i x⟩

/-- The objects of a new object, as they are with the addresses from `base` on. -/
def Cell.shift (base : Nat) : Cell → Cell
  | .null => .null
  | .refs as => .refs (as.map (base + ·))
  | .val v => .val v

def Obj.shift (base : Nat) (x : Obj) : Obj := ⟨x.cls, x.cells.map (Cell.shift base)⟩

/-- What the constructors make: `makeNote()` etc. with everything the constructor makes in turn; the first one is the object itself. Any such choice will do (see `Spec/LazyMembers.lean` for what is demanded). -/
abbrev Protos := LCls → Heap

/-- A call that is being made: the object, the steps that are left, and what has been read so far. -/
structure Run where
  obj : Nat
  rest : List Instr
  got : List (Nat × Cell)

/-- The objects, the owner of the mutex of each object, the calls the threads are making, and what has been read by calls that have returned: object, member and what was found. -/
structure State where
  heap : Heap
  owner : Nat → Option Nat
  run : Nat → Option Run
  log : List (Nat × Nat × Cell)

/-- A function with one value changed. -/
def upd {α : Type} (f : Nat → α) (k : Nat) (v : α) : Nat → α := fun n => if n = k then v else f n

/-- Thread `t` makes its next step: `none` if it has none or must wait for a mutex. -/
def step (protos : Protos) (t : Nat) (s : State) : Option State :=
  match s.run t with
  | none => none
  | some ⟨o, [], got⟩ => some { s with run := upd s.run t none, log := s.log ++ got.map fun p => (o, p.1, p.2) }
  | some ⟨o, .lock :: rest, got⟩ =>
    if s.owner o = none then some { s with owner := upd s.owner o (some t), run := upd s.run t (some ⟨o, rest, got⟩) } else none
  | some ⟨o, .unlock :: rest, got⟩ => some { s with owner := upd s.owner o none, run := upd s.run t (some ⟨o, rest, got⟩) }
  | some ⟨o, .ensure i :: rest, got⟩ =>
    if s.heap.cell? o i = some .null then some { s with run := upd s.run t (some ⟨o, .create i :: rest, got⟩) }
    else some { s with run := upd s.run t (some ⟨o, rest, got⟩) }
  | some ⟨o, .create i :: rest, got⟩ =>
    match (s.heap[o]?).bind fun x => target x.cls i with
    | none => none
    | some c => some { s with heap := s.heap ++ (protos c).map (Obj.shift s.heap.length), run := upd s.run t (some ⟨o, .store i s.heap.length :: rest, got⟩) }
  | some ⟨o, .store i a :: rest, got⟩ => some { s with heap := s.heap.put o i (.refs [a]), run := upd s.run t (some ⟨o, rest, got⟩) }
  | some ⟨o, .load i :: rest, got⟩ =>
    match s.heap.cell? o i with
    | none => none
    | some x => some { s with run := upd s.run t (some ⟨o, rest, got ++ [(i, x)]⟩) }

/-- Thread `t` calls a function of object `o`: `code` are its steps. -/
def start (t o : Nat) (code : List Instr) (s : State) : State := { s with run := upd s.run t (some ⟨o, code, []⟩) }

end Mx.Lazy
