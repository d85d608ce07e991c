import Verif.Model.ContentTree

/-
How the children of an element are read: `fromXElementImpl` of the classes of private/mx/core/elements, as small programs (the table is in `ReaderTables`) and the
statements they are made of. The reader of a class walks over the children with an iterator and gives each child it knows by name to one of its members.

Simplifications. Attributes and values are read as a whole (`data`) and without failure; they are modelled elsewhere. Messages are left out; of an object whose
reader says failure nothing is used, since loading then ends with an exception (private/mx/api/DocumentManager.cpp 97-100 and 117-120). Processing instructions are left out.
-/
namespace Mx.Content

/-! ## Objects -/

/-- The value of `myChoice` after the constructor: the first one except for `CreditChoice` (private/mx/core/elements/CreditChoice.cpp 15) and
`NoteChoice` (private/mx/core/elements/NoteChoice.cpp 15). -/
def initialChoice : Cls → Nat
  | .CreditChoice => 1
  | .NoteChoice => 2
  | _ => 0

/-- The object a constructor makes. `fuel` bounds the depth; the constructors are not recursive, so that a small number is enough. -/
def create : Nat → Kind → Node
  | _, .leaf t h => .leaf t h []
  | 0, .comp c => .comp c [] (initialChoice c) []
  | f + 1, .comp c => .comp c [] (initialChoice c) (c.info.members.map fun m => .mk false (List.replicate m.mult.start (create f m.kind)))

/-- `makeX`. -/
def make (k : Kind) : Node := create 12 k

/-- A new object for the vector `i`. -/
def Node.newItem (i : Nat) : Node → Node
  | .leaf t h d => .leaf t h d
  | .comp c _ _ _ => match c.info.members[i]? with
    | some m => make m.kind
    | none => .leaf 0 false []

/-- The object of the member `i`. -/
def Node.kid? (i : Nat) : Node → Option Node
  | .leaf .. => none
  | .comp _ _ _ ss => ss[i]?.bind fun s => s.kids.head?

/-- The object of the member `i` has been changed to `x`, and the flag of the member has been set. -/
def Node.setKid (o : Node) (i : Nat) (x : Node) : Node :=
  match o with
  | .leaf t h d => .leaf t h d
  | .comp c d k ss => .comp c d k (changeSlot ss i fun s => .mk true (x :: s.kids.tail))

def Node.changeItems (i : Nat) (f : Slot → Slot) : Node → Node
  | .leaf t h d => .leaf t h d
  | .comp c d k ss => .comp c d k (changeSlot ss i f)

def Node.choose (k : Option Nat) : Node → Node
  | .leaf t h d => .leaf t h d
  | .comp c d k' ss => .comp c d (k.getD k') ss

/-- The flag of the member `i`. For a vector the model uses it for the local variable `isFirstXAdded` of the reader. -/
def Node.isOn (i : Nat) : Node → Bool
  | .leaf .. => false
  | .comp _ _ _ ss => (ss[i]?.map (·.on)).getD false

/-- A reader applied to the object of the member `i`. -/
def Node.inner (i : Nat) (f : Node → Node × Bool) (o : Node) : Node × Bool :=
  match o.kid? i with
  | none => (o, false)
  | some x => (o.setKid i (f x).1, (f x).2)

/-- A run of new items: the only item there was is replaced, `importElementSet` private/mx/core/FromXElement.h 61-94,
`checkSetGroupMemberSetAndIncrementIter` 154-196. -/
def Node.addRun (i : Nat) (new : List Node) (o : Node) : Node :=
  o.changeItems i fun s => .mk s.on ((if s.kids.length = 1 then [] else s.kids) ++ new)

/-- One new item: the only item there was is replaced if nothing has been added before (e.g. private/mx/core/elements/Note.cpp 696-707). -/
def Node.addItem (o : Node) (i : Nat) (new : Node) : Node :=
  o.changeItems i fun s => .mk true ((if s.kids.length = 1 ∧ s.on = false then [] else s.kids) ++ [new])

/-- `addX` and `push_back`. -/
def Node.push (o : Node) (i : Nat) (new : Node) : Node :=
  match o with
  | .leaf t h d => .leaf t h d
  | .comp c d k ss => .comp c d k (changeSlot ss i fun s => .mk s.on ((memberSet c i).add new s.kids))

/-! ## Children -/

/-- A child of the element that is read: its name, and what reading it into an object makes of the object. -/
structure Child where
  name : Nat
  read : Node → Node × Bool

/-- The outcome of a statement: the object, whether all went well, by how many children the iterator has moved on (not counting the `++it` at the end of the loop),
and whether the rest of the body of the loop is left out (`continue`, or a chain of `else if`). -/
structure Step where
  obj : Node
  ok : Bool
  adv : Nat
  next : Bool

def idle (o : Node) : Step := ⟨o, true, 0, false⟩

/-- What a group has taken: the group, whether all went well, the number of children. -/
structure Got where
  obj : Node
  ok : Bool
  used : Nat

/-- A field of a choice or a group: the name of the element, the member, the value for `myChoice`. -/
abbrev Field := Nat × Nat × Option Nat

def field (fs : List Field) (name : Nat) : Option (Nat × Option Nat) := (fs.find? fun f => Nat.beq f.1 name).map (·.2)

/-- `choice->setChoice( … ); choice->getX()->fromXElement( … )`. -/
def Node.readField (f : Nat × Option Nat) (x : Child) (g : Node) : Node × Bool :=
  ((g.inner f.1 x.read).1.choose f.2, (g.inner f.1 x.read).2)

/-- A part of a group: one element that may be there, or a run of elements. -/
inductive Part where
  | one (name slot : Nat)
  | run (name slot : Nat)

/-- The items read from a run of children of the same name. -/
def runItems (name : Nat) (l : List Child) : List Child := l.takeWhile fun x => Nat.beq x.name name

/-- One part after the other, `checkSetGroupMemberAndIncrementIter` private/mx/core/FromXElement.h 97-151, `checkSetGroupMemberSetAndIncrementIter` 154-196. -/
def readParts : List Part → Node → List Child → Got
  | [], g, _ => ⟨g, true, 0⟩
  | _, g, [] => ⟨g, true, 0⟩
  | .one name i :: ps, g, x :: xs =>
    if Nat.beq x.name name then
      ⟨(readParts ps (g.inner i x.read).1 xs).obj, (g.inner i x.read).2 && (readParts ps (g.inner i x.read).1 xs).ok,
        (readParts ps (g.inner i x.read).1 xs).used + 1⟩
    else readParts ps g (x :: xs)
  | .run name i :: ps, g, x :: xs =>
    let items := runItems name (x :: xs)
    let ns := items.map fun y => y.read (g.newItem i)
    let g' := if items.isEmpty then g else g.addRun i (ns.map (·.1))
    let r := readParts ps g' ((x :: xs).drop items.length)
    ⟨r.obj, ns.all (·.2) && r.ok, r.used + items.length⟩

/-- The iterator after a group, private/mx/core/FromXElement.cpp 88-282: some groups go back by one child at the end, some only at the end of the list. -/
def groupAdv (back : Bool) (used length : Nat) : Nat := if back || used == length then used - 1 else used

/-! ## Groups with a reader of their own -/

/-- `ScorePart::importMidiDeviceInstrumentGroupSet` private/mx/core/elements/ScorePart.cpp 401-444: a device and an instrument that follow each other make one group.
(`importGroup` for the instrument, private/mx/core/FromXElement.cpp 422-505, looks for children of the instrument among its siblings and finds none.) -/
def midiGroups (new : Node) : List Child → List Node × Bool × Nat
  | [] => ([], true, 0)
  | [x] =>
    if Nat.beq x.name (nm! "midi-device") then ([(new.inner 0 x.read).1], (new.inner 0 x.read).2, 1)
    else if Nat.beq x.name (nm! "midi-instrument") then ([(new.inner 1 x.read).1], (new.inner 1 x.read).2, 1)
    else ([], true, 0)
  | x :: y :: l =>
    if Nat.beq x.name (nm! "midi-device") then
      if Nat.beq y.name (nm! "midi-instrument") then
        let r := midiGroups new l
        let d := new.inner 0 x.read
        let i := d.1.inner 1 y.read
        (i.1 :: r.1, d.2 && i.2 && r.2.1, r.2.2 + 2)
      else
        let r := midiGroups new (y :: l)
        let d := new.inner 0 x.read
        (d.1 :: r.1, d.2 && r.2.1, r.2.2 + 1)
    else if Nat.beq x.name (nm! "midi-instrument") then
      let r := midiGroups new (y :: l)
      let i := new.inner 1 x.read
      (i.1 :: r.1, i.2 && r.2.1, r.2.2 + 1)
    else ([], true, 0)

def headIn (names : List Nat) : List Child → Bool
  | [] => false
  | x :: _ => names.any (Nat.beq x.name)

/-- Groups of the same parts one after the other, as long as the next child is one of the parts: `Key::importNonTraditionalKey` private/mx/core/elements/Key.cpp 230-269. -/
def readGroups (names : List Nat) (parts : List Part) (new : Node) : Nat → List Child → List Node × Bool × Nat
  | 0, _ => ([], true, 0)
  | f + 1, l =>
    if headIn names l then
      let g := readParts parts new l
      let r := readGroups names parts new f (l.drop g.used)
      (g.obj :: r.1, g.ok && r.2.1, r.2.2 + g.used)
    else ([], true, 0)

/-- `Note::parseFullNoteGroup` private/mx/core/elements/Note.cpp 901-951. Members of `FullNoteGroup`: the chord and the choice of pitch, unpitched and rest.
(`chord` has no attributes; only the flag is set.) -/
def fullNote (g : Node) (l : List Child) : Got :=
  match l with
  | [] => ⟨g, false, 0⟩
  | x :: xs =>
    let chord := Nat.beq x.name (nm! "chord")
    let g' := if chord then g.changeItems 0 (fun s => .mk true s.kids) else g
    match (if chord then xs else x :: xs) with
    | [] => ⟨g', false, 1⟩
    | y :: _ =>
      match field [(nm! "pitch", 0, some 0), (nm! "unpitched", 1, some 1), (nm! "rest", 2, some 2)] y.name with
      | some f =>
        let r := g'.inner 1 (fun c => c.readField f y)
        ⟨r.1, r.2, if chord then 2 else 1⟩
      | none => ⟨g', false, if chord then 2 else 1⟩

/-- The ties, private/mx/core/elements/Note.cpp 873-890. -/
def addTies (g : Node) (i : Nat) : List Child → Node × Bool
  | [] => (g, true)
  | x :: xs => let n := x.read (g.newItem i); let r := addTies (g.push i n.1) i xs; (r.1, n.2 && r.2)

/-- A grace note from the child after `grace`, private/mx/core/elements/Note.cpp 823-829, 844, 867-890. -/
def graceNote (x : Child) (l : List Child) (g : Node) : Got :=
  let a := g.inner 0 x.read
  match a.1.kid? 1 with
  | none => ⟨g, false, 0⟩
  | some full =>
    let r := fullNote full l
    let ties := runItems (nm! "tie") (l.drop r.used)
    let t := addTies (a.1.setKid 1 r.obj) 2 ties
    ⟨t.1, a.2 && r.ok && t.2, 1 + r.used + ties.length⟩

/-- The duration, private/mx/core/elements/Note.cpp 847-864; the success of reading it is not asked for. -/
def noteDuration (i : Nat) (g : Node) : List Child → Got
  | [] => ⟨g, false, 0⟩
  | x :: _ => if Nat.beq x.name (nm! "duration") then ⟨(g.inner i x.read).1, true, 1⟩ else ⟨g, false, 0⟩

/-- A cue note from the child after `cue`, private/mx/core/elements/Note.cpp 830-836, 844-864. -/
def cueNote (x : Child) (l : List Child) (g : Node) : Got :=
  let a := g.inner 0 x.read
  match a.1.kid? 1 with
  | none => ⟨g, false, 0⟩
  | some full =>
    let r := fullNote full l
    let d := noteDuration 2 (a.1.setKid 1 r.obj) (l.drop r.used)
    ⟨d.obj, a.2 && r.ok && d.ok, 1 + r.used + d.used⟩

/-- Any other note, private/mx/core/elements/Note.cpp 837-841, 844-890. -/
def normalNote (l : List Child) (g : Node) : Got :=
  match g.kid? 0 with
  | none => ⟨g, false, 0⟩
  | some full =>
    let r := fullNote full l
    let d := noteDuration 1 (g.setKid 0 r.obj) (l.drop r.used)
    let ties := runItems (nm! "tie") (l.drop (r.used + d.used))
    let t := addTies d.obj 2 ties
    ⟨t.1, r.ok && d.ok && t.2, r.used + d.used + ties.length⟩

/-- A reader of a group applied to the member `i`. -/
def Node.innerGot (i : Nat) (f : Node → Got) (o : Node) : Got :=
  match o.kid? i with
  | none => ⟨o, false, 0⟩
  | some x => ⟨o.setKid i (f x).obj, (f x).ok, (f x).used⟩

/-- `Note::parseNoteChoice` private/mx/core/elements/Note.cpp 810-898, on the choice object. -/
def noteChoice (l : List Child) (g : Node) : Got :=
  match l with
  | [] => ⟨g, false, 0⟩
  | x :: xs =>
    if Nat.beq x.name (nm! "grace") then (g.choose (some 0)).innerGot 0 (graceNote x xs)
    else if Nat.beq x.name (nm! "cue") then (g.choose (some 1)).innerGot 1 (cueNote x xs)
    else (g.choose (some 2)).innerGot 2 (normalNote (x :: xs))

/-- A chord of a harmony, private/mx/core/elements/Harmony.cpp 265-321: `root` or `function`, `kind`, then the parts that may be there. -/
def harmonyChord (new : Node) : List Child → Got
  | x :: y :: l =>
    let a := if Nat.beq x.name (nm! "root") then new.readField (0, some 0) x else new.readField (1, some 1) x
    if Nat.beq y.name (nm! "kind") then
      let b := a.1.inner 2 y.read
      let r := readParts [.one (nm! "inversion") 3, .one (nm! "bass") 4, .run (nm! "degree") 5] b.1 l
      ⟨r.obj, a.2 && b.2 && r.ok, r.used + 2⟩
    else ⟨a.1, false, 1⟩
  | _ => ⟨new, false, 1⟩

/-- The groups after the first text of a lyric, private/mx/core/FromXElement.cpp 314-347. `setHasSyllabic` is not called for the `syllabic` of such a group. -/
def elisionGroup (new : Node) (l : List Child) : Got :=
  let isSyllabic (x : Child) := Nat.beq x.name (nm! "syllabic")
  let a : Got := match l with
    | x :: _ => if Nat.beq x.name (nm! "elision") then
        let r := new.inner 0 (fun e => e.inner 0 x.read)
        ⟨r.1, r.2, 1⟩
      else ⟨new, true, 0⟩
    | [] => ⟨new, true, 0⟩
  let b : Got := match l.drop a.used with
    | x :: _ => if isSyllabic x then
        let r := a.obj.inner 0 (fun e => ((e.inner 1 x.read).1.changeItems 1 (fun s => .mk (e.isOn 1) s.kids), (e.inner 1 x.read).2))
        ⟨r.1, a.ok && r.2, a.used + 1⟩
      else a
    | [] => a
  match l.drop b.used with
  | x :: _ => if Nat.beq x.name (nm! "text") then
      let r := b.obj.inner 1 x.read
      ⟨r.1, b.ok && r.2, b.used + 1⟩
    else b
  | [] => b

def elisionGroups : Nat → Node → List Child → Got
  | 0, g, _ => ⟨g, true, 0⟩
  | f + 1, g, l =>
    if headIn [nm! "elision", nm! "syllabic", nm! "text"] l then
      let a := elisionGroup (g.newItem 2) l
      let r := elisionGroups f (g.push 2 a.obj) (l.drop a.used)
      ⟨r.obj, a.ok && r.ok, r.used + a.used⟩
    else ⟨g, true, 0⟩

/-- `importGroup` for `SyllabicTextGroup`, private/mx/core/FromXElement.cpp 285-358. -/
def syllabicText (g : Node) (l : List Child) : Got :=
  let a := readParts [.one (nm! "syllabic") 0] g l
  let l1 := l.drop a.used
  let b := readParts [.one (nm! "text") 1] a.obj l1
  let l2 := l1.drop b.used
  let missing := b.used == 0 && (match l2 with | x :: _ => !Nat.beq x.name (nm! "end-line") && !Nat.beq x.name (nm! "end-paragraph") | [] => false)
  let e := elisionGroups l2.length b.obj l2
  let x := readParts [.one (nm! "extend") 3] e.obj (l2.drop e.used)
  ⟨x.obj, a.ok && b.ok && !missing && e.ok && x.ok, a.used + b.used + e.used + x.used⟩

def beatUnitParts : List Part := [.one (nm! "beat-unit") 0, .run (nm! "beat-unit-dot") 1]

/-- What follows the first beat unit, private/mx/core/elements/Metronome.cpp 131-149 (on `PerMinuteOrBeatUnitChoice`); the success of reading `per-minute` is not asked for. -/
def perMinute (l : List Child) (g : Node) : Got :=
  match l with
  | [] => ⟨g, false, 0⟩
  | x :: xs =>
    if headIn [nm! "beat-unit", nm! "beat-unit-dot"] (x :: xs) then
      (g.choose (some 1)).innerGot 1 (fun u => readParts beatUnitParts u (x :: xs))
    else if Nat.beq x.name (nm! "per-minute") then ⟨((g.choose (some 0)).inner 0 x.read).1, true, 1⟩
    else ⟨g, true, 0⟩

/-- `BeatUnitPer`: private/mx/core/elements/Metronome.cpp 114-149. -/
def beatUnitPer (l : List Child) (g : Node) : Got :=
  match g.kid? 0 with
  | none => ⟨g, false, 0⟩
  | some u =>
    let a := readParts beatUnitParts u l
    let r := (g.setKid 0 a.obj).innerGot 1 (perMinute (l.drop a.used))
    ⟨r.obj, a.ok && r.ok, a.used + r.used⟩

/-- `NoteRelationNote`: private/mx/core/elements/Metronome.cpp 151-201. -/
def noteRelation (l : List Child) (g : Node) : Got :=
  let notes := runItems (nm! "metronome-note") l
  let ns := notes.map fun y => y.read (g.newItem 0)
  let g' := g.addRun 0 (ns.map (·.1))
  match l.drop notes.length with
  | [] => ⟨g', ns.all (·.2), notes.length⟩
  | x :: xs =>
    if Nat.beq x.name (nm! "metronome-relation") then
      let r := g'.inner 1 (fun q => q.inner 0 x.read)
      match xs with
      | [] => ⟨r.1, ns.all (·.2) && r.2, notes.length + 1⟩
      | y :: _ =>
        if Nat.beq y.name (nm! "metronome-note") then
          let s := r.1.inner 1 (fun q => q.inner 1 y.read)
          ⟨s.1, ns.all (·.2) && r.2 && s.2, notes.length + 2⟩
        else ⟨r.1, ns.all (·.2) && r.2, notes.length + 1⟩
    else ⟨g', ns.all (·.2), notes.length⟩

/-- The loop of private/mx/core/elements/Metronome.cpp 111-210, on the choice object. -/
def metronome (l : List Child) (g : Node) : Got :=
  if headIn [nm! "beat-unit", nm! "beat-unit-dot"] l then (g.choose (some 0)).innerGot 0 (beatUnitPer l)
  else if headIn [nm! "metronome-note"] l then (g.choose (some 1)).innerGot 1 (noteRelation l)
  else ⟨g, true, 0⟩

/-! ## Statements of the loop over the children -/

inductive RStmt where
  /-- `importElement`, private/mx/core/FromXElement.cpp 56-70, or a comparison with the name -/
  | elem (name slot : Nat) (next : Bool)
  /-- `importElementSet`, private/mx/core/FromXElement.h 61-94 -/
  | set (name slot : Nat) (next : Bool)
  /-- one item of a vector, e.g. private/mx/core/elements/Note.cpp 692-708 -/
  | item (name slot : Nat)
  /-- `importGroup`, private/mx/core/FromXElement.cpp 88-282 -/
  | group (slot : Nat) (parts : List Part) (back : Bool)
  /-- a field of a choice or a group, e.g. `checkSetChoiceMember` private/mx/core/FromXElement.h 315-336 -/
  | sub (slot : Nat) (fields : List Field) (next : Bool)
  /-- a new object for a vector of choices, e.g. private/mx/core/elements/Notations.cpp `fromXElementImpl` -/
  | each (slot : Nat) (fields : List Field)
  /-- the same for the vector within a group, private/mx/core/elements/PartwiseMeasure.cpp 108-221 -/
  | music (fields : List Field)
  /-- one item of a vector of a group, private/mx/core/elements/TimeModification.cpp 143-149 -/
  | subAdd (name slot j : Nat)
  /-- the item is read from the element itself, private/mx/core/elements/NoteheadText.cpp 92-139 -/
  | selfItem (name slot : Nat) (f : Nat × Option Nat)
  /-- nothing known, while the required member `slot` has not been read: private/mx/core/elements/ScoreHeaderGroup.cpp 375-382 -/
  | unless (slot : Nat)
  /-- the same and the end of the loop: private/mx/core/elements/ArrowGroup.cpp `fromXElementImpl` -/
  | stop (slot : Nat)
  /-- private/mx/core/elements/ScorePart.cpp 401-444 -/
  | midi (slot : Nat)
  /-- private/mx/core/elements/Key.cpp 166-212 -/
  | oldKey
  /-- private/mx/core/elements/Key.cpp 215-277 -/
  | newKey
  /-- private/mx/core/elements/Time.cpp 84-120 -/
  | times
  /-- private/mx/core/elements/Harmony.cpp 263-327 -/
  | chords
  /-- private/mx/core/elements/Note.cpp 664-674 -/
  | noteChoice
  /-- private/mx/core/elements/Lyric.cpp 208-213 -/
  | syllables
  /-- private/mx/core/elements/Metronome.cpp 111-210 -/
  | metronome
  /-- private/mx/core/elements/PartList.cpp 163-215 -/
  | partList
  /-- a field of the object itself, e.g. private/mx/core/elements/Direction.cpp 424-536 -/
  | own (fields : List Field)
  /-- all children into a vector, e.g. private/mx/core/elements/Direction.cpp 536-565 -/
  | ownSet (name slot choice : Nat)

/-- A group that makes use of a number of children ends on the last of them. -/
def Got.back (g : Got) (o : Node) (next : Bool) : Step := if g.used = 0 then ⟨o, g.ok, 0, next⟩ else ⟨g.obj, g.ok, g.used - 1, next⟩

def Got.step (g : Got) (next : Bool) : Step := ⟨g.obj, g.ok, g.used - 1, next⟩

def partNames : List Field := [(nm! "part-group", 0, some 0), (nm! "score-part", 1, some 1)]

/-- A statement at the child `x`, followed by `xs`. `self` is the element that is read. -/
def RStmt.at (self : Child) (o : Node) (x : Child) (xs : List Child) : RStmt → Step
  | .elem name i next => if Nat.beq x.name name then ⟨(o.inner i x.read).1, (o.inner i x.read).2, 0, next⟩ else idle o
  | .set name i next =>
    if Nat.beq x.name name then
      let items := runItems name (x :: xs)
      let ns := items.map fun y => y.read (o.newItem i)
      ⟨o.addRun i (ns.map (·.1)), ns.all (·.2), items.length - 1, next⟩
    else idle o
  | .item name i =>
    if Nat.beq x.name name then ⟨o.addItem i (x.read (o.newItem i)).1, (x.read (o.newItem i)).2, 0, true⟩ else idle o
  | .group i parts back =>
    match o.kid? i with
    | none => idle o
    | some g =>
      let r := readParts parts g (x :: xs)
      if r.used = 0 then idle o else ⟨o.setKid i r.obj, r.ok, groupAdv back r.used (xs.length + 1), false⟩
  | .sub i fs next =>
    match field fs x.name with
    | none => idle o
    | some f => ⟨(o.inner i (fun g => g.readField f x)).1, (o.inner i (fun g => g.readField f x)).2, 0, next⟩
  | .each i fs =>
    match field fs x.name with
    | none => idle o
    | some f => ⟨o.push i ((o.newItem i).readField f x).1, ((o.newItem i).readField f x).2, 0, true⟩
  | .music fs =>
    match field fs x.name with
    | none => idle o
    | some f =>
      let r := o.inner 0 (fun g => (g.addItem 0 ((g.newItem 0).readField f x).1, ((g.newItem 0).readField f x).2))
      ⟨r.1, r.2, 0, true⟩
  | .subAdd name i j =>
    if Nat.beq x.name name then
      let r := o.inner i (fun g => (g.push j (x.read (g.newItem j)).1, (x.read (g.newItem j)).2))
      ⟨r.1, r.2, 0, false⟩
    else idle o
  | .selfItem name i f =>
    if Nat.beq x.name name then ⟨o.addItem i ((o.newItem i).readField f self).1, ((o.newItem i).readField f self).2, 0, true⟩ else idle o
  | .unless i => ⟨o, o.isOn i, 0, true⟩
  | .stop i => ⟨o, o.isOn i, xs.length, true⟩
  | .midi i =>
    let r := midiGroups (o.newItem i) (x :: xs)
    if r.2.2 = 0 then idle o else ⟨o.changeItems i (fun s => .mk s.on (s.kids ++ r.1)), r.2.1, r.2.2 - 1, false⟩
  | .oldKey =>
    if headIn [nm! "cancel", nm! "fifths", nm! "mode"] (x :: xs) then
      (o.innerGot 0 (fun g => (g.choose (some 0)).innerGot 0 (fun t =>
        readParts [.one (nm! "cancel") 0, .one (nm! "fifths") 1, .one (nm! "mode") 2] t (x :: xs)))).step true
    else idle o
  | .newKey =>
    if headIn [nm! "key-step", nm! "key-alter", nm! "key-accidental"] (x :: xs) then
      (o.innerGot 0 (fun g =>
        let r := readGroups [nm! "key-step", nm! "key-alter", nm! "key-accidental"]
          [.one (nm! "key-step") 0, .one (nm! "key-alter") 1, .one (nm! "key-accidental") 2] (g.newItem 1) (xs.length + 1) (x :: xs)
        ⟨(g.addRun 1 r.1).choose (some 1), r.2.1, r.2.2⟩)).step true
    else idle o
  | .times =>
    (o.innerGot 0 (fun g =>
      let r := readParts [.one (nm! "beats") 0, .one (nm! "beat-type") 1, .one (nm! "interchangeable") 2] (g.newItem 0) (x :: xs)
      ⟨(g.addItem 0 r.obj).choose (some 0), r.ok && r.obj.isOn 0 && r.obj.isOn 1, r.used⟩)).step true
  | .chords =>
    if headIn [nm! "root", nm! "function"] (x :: xs) then
      let r := harmonyChord (o.newItem 0) (x :: xs)
      ⟨o.addItem 0 r.obj, r.ok, r.used - 1, true⟩
    else idle o
  | .noteChoice =>
    if headIn [nm! "pitch", nm! "unpitched", nm! "rest", nm! "chord", nm! "grace", nm! "cue"] (x :: xs) then
      (o.innerGot 0 (Content.noteChoice (x :: xs))).step true
    else idle o
  | .syllables => (o.innerGot 0 (fun g => (g.choose (some 0)).innerGot 0 (fun t => syllabicText t (x :: xs)))).step false
  | .metronome => (o.innerGot 0 (Content.metronome (x :: xs))).step true
  | .partList =>
    if o.isOn 1 then
      match field partNames x.name with
      | some f => ⟨o.push 2 ((o.newItem 2).readField f x).1, true, 0, true⟩
      | none => ⟨o.push 2 (o.newItem 2), true, 0, true⟩
    else if Nat.beq x.name (nm! "part-group") then ⟨o.push 0 (x.read (o.newItem 0)).1, (x.read (o.newItem 0)).2, 0, true⟩
    else if Nat.beq x.name (nm! "score-part") then ⟨(o.inner 1 x.read).1, (o.inner 1 x.read).2, 0, true⟩
    else idle o
  | .own fs =>
    match field fs x.name with
    | none => idle o
    | some f => ⟨(o.readField f x).1, (o.readField f x).2, xs.length, true⟩
  | .ownSet name i k =>
    if Nat.beq x.name name then
      let items := runItems name (x :: xs)
      let ns := items.map fun y => y.read (o.newItem i)
      ⟨(o.addRun i (ns.map (·.1))).choose (some k), ns.all (·.2) && items.length == xs.length + 1, xs.length, true⟩
    else idle o

/-- The body of the loop over the children, from the child the iterator points to. -/
def runBody (self : Child) : List RStmt → Node → List Child → Step
  | [], o, _ => idle o
  | _, o, [] => idle o
  | s :: ss, o, x :: xs =>
    let r := s.at self o x xs
    if r.next then r
    else
      let q := runBody self ss r.obj ((x :: xs).drop r.adv)
      ⟨q.obj, r.ok && q.ok, r.adv + q.adv, q.next⟩

/-- The loop. If `strict`, a child that no statement knows is a failure. The number of children is enough fuel, since each round takes at least one. -/
def readLoop (self : Child) (body : List RStmt) (strict : Bool) : Nat → Node → List Child → Node × Bool
  | _, o, [] => (o, true)
  | 0, o, _ :: _ => (o, false)
  | f + 1, o, x :: xs =>
    let r := runBody self body o (x :: xs)
    let q := readLoop self body strict f r.obj (xs.drop r.adv)
    (q.1, r.ok && (r.next || !strict) && q.2)

/-! ## Readers of the classes -/

inductive RProg where
  /-- The member `pre`, if given, is read from the element itself; then the loop over the children; then, if `need` is not empty, one of these names is demanded. -/
  | loop (pre : Option Nat) (body : List RStmt) (strict : Bool) (need : List Nat)
  /-- The name of the element itself decides, `MX_CHOICE_IF` private/mx/core/FromXElement.h 28-37 -/
  | pick (fields : List Field)
  /-- The body once, at the first child; a child is demanded if `need`. -/
  | once (body : List RStmt) (need : Bool)
  /-- private/mx/core/elements/Arrow.cpp 132-152 -/
  | arrow
  /-- private/mx/core/elements/Credit.cpp 241-337 -/
  | credit
  /-- The members of the class are read by its owner. -/
  | unused

/-- The groups after the first `credit-words`, private/mx/core/elements/Credit.cpp 300-331: the links and bookmarks are read from the `credit` element itself.
A group without words is dropped. -/
def creditWords (self : Child) : Nat → Node → Node → List Child → Node × Bool
  | 0, c, _, _ => (c, true)
  | f + 1, c, g, l =>
    if headIn [nm! "link", nm! "bookmark", nm! "credit-words"] l then
      let links := (runItems (nm! "link") l).map fun _ => self.read (g.newItem 0)
      let g1 := (links.map (·.1)).foldl (fun g x => g.push 0 x) g
      let l1 := l.drop links.length
      let marks := (runItems (nm! "bookmark") l1).map fun _ => self.read (g1.newItem 1)
      let g2 := (marks.map (·.1)).foldl (fun g x => g.push 1 x) g1
      let ok := links.all (·.2) && marks.all (·.2)
      match l1.drop marks.length with
      | [] => (c, ok)
      | x :: xs =>
        if Nat.beq x.name (nm! "credit-words") then
          let w := g2.inner 2 x.read
          let r := creditWords self f (c.push 2 w.1) (c.newItem 2) xs
          (r.1, ok && w.2 && r.2)
        else
          let r := creditWords self f c g2 (x :: xs)
          (r.1, ok && r.2)
    else (c, true)

/-- A run of children, each added to the vector, private/mx/core/elements/Credit.cpp 251-285. -/
def pushRun (name i : Nat) (o : Node) (l : List Child) : Got :=
  let items := runItems name l
  let ns := items.map fun y => y.read (o.newItem i)
  ⟨(ns.map (·.1)).foldl (fun o x => o.push i x) o, ns.all (·.2), items.length⟩

/-- `Credit::fromXElementImpl` private/mx/core/elements/Credit.cpp 241-337. -/
def readCredit (self : Child) (kids : List Child) (o : Node) : Node × Bool :=
  let a := pushRun (nm! "credit-type") 0 o kids
  let b := pushRun (nm! "link") 1 a.obj (kids.drop a.used)
  let c := pushRun (nm! "bookmark") 2 b.obj (kids.drop (a.used + b.used))
  match kids.drop (a.used + b.used + c.used) with
  | [] => (c.obj, false)
  | x :: xs =>
    let ok := a.ok && b.ok && c.ok
    if Nat.beq x.name (nm! "credit-image") then
      let r := c.obj.inner 3 (fun g => g.readField (0, some 0) x)
      (r.1, ok && r.2)
    else if Nat.beq x.name (nm! "credit-words") then
      let r := c.obj.inner 3 (fun g =>
        let w := g.readField (1, some 1) x
        let q := creditWords self xs.length w.1 (w.1.newItem 2) xs
        (q.1, w.2 && q.2))
      (r.1, ok && r.2)
    else (c.obj, ok)

/-- `Arrow::fromXElementImpl` private/mx/core/elements/Arrow.cpp 132-152: for each child the whole element is read as an arrow group, and only the last result counts. -/
def readArrow (self : Child) : List Child → Node → Bool → Node × Bool
  | [], o, ok => (o, ok)
  | x :: xs, o, _ =>
    let a := if Nat.beq x.name (nm! "circular-arrow") then ((o.choose (some 1)).inner 1 x.read).1 else o
    let r := (a.choose (some 0)).inner 0 self.read
    readArrow self xs r.1 r.2

def RProg.run (self : Child) (kids : List Child) (o : Node) : RProg → Node × Bool
  | .loop pre body strict need =>
    let a := (pre.map fun i => o.inner i self.read).getD (o, true)
    let r := readLoop self body strict kids.length a.1 kids
    (r.1, a.2 && r.2 && (need.isEmpty || kids.any fun x => need.any (Nat.beq x.name)))
  | .pick fs =>
    match field fs self.name with
    | none => (o, false)
    | some f => o.readField f self
  | .once body need =>
    match kids with
    | [] => (o, !need)
    | x :: xs => ((runBody self body o (x :: xs)).obj, (runBody self body o (x :: xs)).ok)
  | .arrow => readArrow self kids o true
  | .credit => readCredit self kids o
  | .unused => (o, false)

/-- `fromXElement` of an object (`ElementInterface::fromXElement` private/mx/core/ElementInterface.cpp 119-167 without the processing instructions).
`level` bounds the number of objects that read one and the same element one within the other, at most three. -/
def readInto (prog : Cls → RProg) (name : Nat) (data : Str) (kids : List Child) : Nat → Node → Node × Bool
  | _, .leaf t h _ => (.leaf t h data, true)
  | 0, .comp c d k ss => (.comp c d k ss, false)
  | l + 1, .comp c _ k ss => (prog c).run ⟨name, readInto prog name data kids l⟩ kids (.comp c data k ss)

mutual
/-- An element as something that can be read. -/
def Xml.child (prog : Cls → RProg) : Xml → Child
  | .elem name data kids => ⟨name, readInto prog name data (childList prog kids) 4⟩
def childList (prog : Cls → RProg) : List Xml → List Child
  | [] => []
  | x :: xs => x.child prog :: childList prog xs
end

end Mx.Content
