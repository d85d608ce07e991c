import Verif.Model.ContentTree
import Verif.Spec.SchemaContent

/-
What it means that a written document keeps to the content models of the schema.
-/
namespace Mx.Spec
open Content

/-- The declaration of the schema for the elements written by the objects of a class. The schema declares `part` and `measure` twice. -/
def classDecl : Cls → Nat
  | .PartwisePart => nm! "part (partwise)"
  | .PartwiseMeasure => nm! "measure (partwise)"
  | .TimewisePart => nm! "part (timewise)"
  | .TimewiseMeasure => nm! "measure (timewise)"
  | c => c.info.name

def kindDecl : Kind → Nat
  | .leaf t _ => t
  | .comp c => classDecl c

/-- The element is valid as an element of the declaration `d`, as far as the names and the order of the elements go: its children have declarations which,
in their order, match the content model of `d`, and they are valid in turn. -/
inductive ValidFor : Nat → Xml → Prop where
  | mk (d : Nat) (data : Str) (kids : List Xml) (r : Re) (ds : List Nat) :
      (d, r) ∈ Schema.decls → ds.length = kids.length → r.Matches ds → (∀ p ∈ ds.zip kids, ValidFor p.1 p.2) →
      ValidFor d (.elem (Schema.declName d) data kids)

/-- The children of this one element are allowed: for some declaration of each. -/
def ChildrenAllowed (d : Nat) : Xml → Prop
  | .elem _ _ kids => ∃ r ds, (d, r) ∈ Schema.decls ∧ r.Matches ds ∧
      kids.map (fun | .elem n _ _ => n) = ds.map Schema.declName

/-- Five classes let a program leave their objects in a state that the schema does not allow:
a vector that must not be empty can be emptied (`notehead-text`, `time`, `measure` of a timewise score), an accidental mark can be given without an ornament,
a repeated time signature can have an `interchangeable` before another `beats`, and two of the choices of `percussion` are not in the schema. -/
def Careless : List Cls := [.NoteheadText, .Time, .TimewiseMeasure, .Ornaments, .Percussion]

/-- The flag of the member `i` is set. -/
def HasFlag (n : Node) (i : Nat) : Prop :=
  match n with
  | .leaf .. => False
  | .comp _ _ _ ss => ∃ s, ss[i]? = some s ∧ s.on = true

/-- What a program must keep to for the objects of these five classes (the vector of `time` and the choice of `percussion` are in a helper class of their own). -/
def CarefulHere (c : Cls) (choice : Nat) (slots : List Slot) : Prop :=
  match c with
  | .NoteheadText => ∀ s ∈ slots[0]?, s.kids ≠ []
  | .TimewiseMeasure => ∀ s ∈ slots[0]?, s.kids ≠ []
  | .Ornaments => ∀ s ∈ slots[0]?, s.kids = [] → ∀ s' ∈ slots[1]?, s'.kids = []
  | .TimeChoice => choice = 0 → ∀ s ∈ slots[0]?, s.kids ≠ [] ∧ ∀ g ∈ s.kids.dropLast, ¬ HasFlag g 2
  | .PercussionChoice => choice ≠ 9 ∧ choice ≠ 10
  | _ => True

/-- The program keeps to it everywhere. -/
inductive Careful : Node → Prop where
  | leaf (t : Nat) (h : Bool) (d : Str) : Careful (.leaf t h d)
  | comp (c : Cls) (d : Str) (k : Nat) (ss : List Slot) : CarefulHere c k ss → (∀ s ∈ ss, ∀ n ∈ s.kids, Careful n) → Careful (.comp c d k ss)

/-! ## What ought to be written -/

/-- The statement belongs to the choice `k` (or to none). -/
def inChoice (k : Nat) (s : Stmt) : Bool := s.conds.all fun | .choice j => Nat.beq k j | _ => true

/-- A member with a flag is in use when the flag is on, the others always are. -/
def inUse (m : Option Member) (on : Bool) : Bool :=
  match m with
  | some ⟨_, .opt⟩ => on
  | some _ => true
  | none => false

/-- The element and the contents that ought to be written for an object. -/
structure Whole where
  element : Xml
  kids : List Xml

/-- All members in use, in the order of the statements of the class: for a group its contents, for all other members the elements. -/
def wholeKids (c : Cls) (k : Nat) (slots : List (Bool × List Whole)) : List Xml :=
  c.info.stmts.flatMap fun s =>
    match slots[s.slot]? with
    | none => []
    | some (on, ws) => if inChoice k s && inUse (c.info.members[s.slot]?) on then
        ws.flatMap fun w => match s.how with | .element => [w.element] | _ => w.kids
      else []

mutual
/-- The element and the contents of an object without any regard to `hasContents`. -/
def whole : Node → Whole
  | .leaf t _ d => ⟨.elem t d [], []⟩
  | .comp c d k ss => ⟨.elem c.info.name d (wholeKids c k (wholeSlots ss)), wholeKids c k (wholeSlots ss)⟩
def wholeSlots : List Slot → List (Bool × List Whole)
  | [] => []
  | s :: ss => wholeSlot s :: wholeSlots ss
def wholeSlot : Slot → Bool × List Whole
  | .mk on ks => (on, wholeList ks)
def wholeList : List Node → List Whole
  | [] => []
  | k :: ks => whole k :: wholeList ks
end

/-- In every `sound` the flag of the midi instrument is on, or all three flags are off. -/
inductive SoundCareful : Node → Prop where
  | leaf (t : Nat) (h : Bool) (d : Str) : SoundCareful (.leaf t h d)
  | comp (c : Cls) (d : Str) (k : Nat) (ss : List Slot) :
      (c = .Sound → HasFlag (.comp c d k ss) 1 ∨ ¬ HasFlag (.comp c d k ss) 0 ∧ ¬ HasFlag (.comp c d k ss) 2) →
      (∀ s ∈ ss, ∀ n ∈ s.kids, SoundCareful n) → SoundCareful (.comp c d k ss)

/-- The objects of the class write an element of their own (the others are groups, whose contents are written into the element of their owner). -/
def HasElement (n : Node) : Prop :=
  match n with
  | .leaf .. => True
  | .comp c .. => c.info.name ≠ 0

/-- The lists of objects that are limited in number: the class, the member, the least and the greatest number. -/
def listLimits : List (Cls × Nat × Nat × Option Nat) :=
  [(.Barline, 5, 0, some 2), (.GraceNoteGroup, 2, 0, some 2), (.NormalNoteGroup, 2, 0, some 2), (.Note, 11, 0, some 8), (.PageLayout, 2, 0, some 2),
   (.Direction, 0, 1, none), (.DirectionType, 0, 1, none), (.DirectionType, 1, 1, none), (.DirectionType, 2, 1, none), (.DirectionType, 3, 1, none),
   (.DirectionType, 5, 1, none), (.DirectionType, 20, 1, none), (.FiguredBass, 0, 1, none), (.Frame, 3, 1, none), (.Harmony, 0, 1, none),
   (.HarpPedals, 0, 1, none), (.NoteRelationNote, 0, 1, none), (.PartwisePart, 0, 1, none), (.Scordatura, 0, 1, none), (.ScorePartwise, 1, 1, none),
   (.ScoreTimewise, 1, 1, none)]

end Mx.Spec
