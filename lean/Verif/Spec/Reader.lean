import Verif.Model.ReaderTables
import Verif.Spec.Content

/-
What is read back.
-/
namespace Mx.Spec
open Content

def kidsAt (ss : List Slot) (i : Nat) : List Node := (ss[i]?.map (·.kids)).getD []
def onAt (ss : List Slot) (i : Nat) : Bool := (ss[i]?.map (·.on)).getD false

/-- The choice of the first object of the member `i`. -/
def choiceAt (ss : List Slot) (i : Nat) : Nat :=
  match kidsAt ss i with
  | .comp _ _ k _ :: _ => k
  | _ => 0

/-- The flag `j` of the first object of the member `i`. -/
def flagAt (ss : List Slot) (i j : Nat) : Bool :=
  match kidsAt ss i with
  | .comp _ _ _ ss' :: _ => onAt ss' j
  | _ => false

/-- The objects of the member `i` of an object. -/
def partsAt (n : Node) (i : Nat) : List Node :=
  match n with
  | .leaf .. => []
  | .comp _ _ _ ss => kidsAt ss i

/-- The member that is chosen. -/
def choiceOf : Node → Nat
  | .leaf .. => 0
  | .comp _ _ k _ => k

/-- A simple element with these attributes and this value. -/
def HasData (d : Str) (n : Node) : Prop := ∃ t h, n = .leaf t h d

/-- The situations that the readers of the classes do not cope with, left out one by one. -/
def ReadableHere (c : Cls) (d : Str) (k : Nat) (ss : List Slot) : Prop :=
  match c with
  -- these two are never read
  | .Play => False
  | .Percussion => False
  -- `display-text` and `accidental-text` are read with the attributes and the value of the `notehead-text` they are in
  | .NoteheadText => kidsAt ss 0 ≠ [] ∧ ∀ g ∈ kidsAt ss 0, ∀ n ∈ partsAt g (choiceOf g), HasData d n
  -- `other-notation`
  | .NotationsChoice => k ≠ 13
  -- `circular-arrow`
  | .Arrow => k = 0
  -- a key or a time signature without any
  | .KeyChoice => k = 1 → kidsAt ss 1 ≠ []
  | .TimeChoice => k = 0 → kidsAt ss 0 ≠ []
  | .TimewiseMeasure => kidsAt ss 0 ≠ []
  -- a footnote or level in a lyric; the end of a line or a paragraph after `extend`, `laughing` or `humming`
  | .Lyric => flagAt ss 3 0 = false ∧ flagAt ss 3 1 = false ∧ (choiceAt ss 0 ≠ 0 → onAt ss 1 = false ∧ onAt ss 2 = false)
  -- the `syllabic` after an elision
  | .ElisionSyllabicGroup => onAt ss 1 = false
  -- `normal-type` and `normal-dot` of a metronome tuplet
  | .MetronomeTuplet => onAt ss 2 = false
  -- links and bookmarks between the words of a credit are read with the attributes and the value of the `credit`
  | .Credit => ∀ q ∈ kidsAt ss 3, choiceOf q = 1 → ∀ g ∈ partsAt q 2, ∀ n ∈ partsAt g 0 ++ partsAt g 1, HasData d n
  -- `chord` has neither attributes nor a value
  | .FullNoteGroup => onAt ss 0 = true → ∀ n ∈ kidsAt ss 0, HasData [] n
  | _ => True

/-- None of them occurs anywhere in what is written of the object. -/
inductive Readable : Node → Prop where
  | leaf (t : Nat) (h : Bool) (d : Str) : Readable (.leaf t h d)
  | comp (c : Cls) (d : Str) (k : Nat) (ss : List Slot) : ReadableHere c d k ss →
      (∀ w ∈ c.info.stmts, inChoice k w = true → ∀ s, ss[w.slot]? = some s → inUse c.info.members[w.slot]? s.on = true → ∀ n ∈ s.kids, Readable n) →
      Readable (.comp c d k ss)

/-- What an object has written can be read into a new object of its class, without any complaint, and that object writes the same again. -/
def ReadsBack (n : Node) : Prop :=
  ∃ n', (n.xml.child prog).read (make n.kind) = (n', true) ∧ n'.kind = n.kind ∧ n'.xml = n.xml

end Mx.Spec
