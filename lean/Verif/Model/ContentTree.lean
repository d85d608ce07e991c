import Verif.Model.ContentTables

/-
Trees of element objects, how they are changed through the methods of their classes, and how they are written.
-/
namespace Mx.Content

mutual
/-- An object of an element class. A `leaf` is an element without children; `data` stands for the attributes and the value, which are modelled elsewhere.
`choice` is the value of `myChoice` (0 if the class has none). There is a slot for each member of the class.
Objects are shared pointers in the code; the model has trees, that is, no object is owned twice. -/
inductive Node where
  | leaf (tag : Nat) (hasContents : Bool) (data : Str)
  | comp (c : Cls) (data : Str) (choice : Nat) (slots : List Slot)
/-- A member: its flag (only used if the class has one) and the objects it points to, one for a pointer, any number for a vector. -/
inductive Slot where
  | mk (on : Bool) (kids : List Node)
end

def Slot.on : Slot → Bool | .mk b _ => b
def Slot.kids : Slot → List Node | .mk _ ks => ks

def Node.kind : Node → Kind
  | .leaf t h _ => .leaf t h
  | .comp c _ _ _ => .comp c

/-- An XML element as written: name, attributes and text, children. -/
inductive Xml where
  | elem (name : Nat) (data : Str) (kids : List Xml)

/-- A written element together with the kind of the object that wrote it (which is not part of the text). -/
structure Item where
  kind : Kind
  xml : Xml

/-- What an object can write: the element (`toStream`), whether it has contents (`hasContents`), and its contents (`streamContents`). -/
structure Written where
  element : Item
  has : Bool
  body : List Item

structure WrittenSlot where
  on : Bool
  kids : List Written

def HasAtom.eval (choice : Nat) (slots : List WrittenSlot) : HasAtom → Bool
  | .flag i => (slots[i]?.map (·.on)).getD false
  | .size i => (slots[i]?.map (fun s => !s.kids.isEmpty)).getD false
  | .kid i => (slots[i]?.map (fun s => s.kids.any (·.has))).getD false
  | .choice k => choice == k

/-- `hasContents` of the class. -/
def hasContents (ci : ClassInfo) (choice : Nat) (slots : List WrittenSlot) : Bool :=
  ci.has.any fun conj => conj.all (HasAtom.eval choice slots)

def Cond.eval (choice : Nat) (has : Bool) (slots : List WrittenSlot) : Cond → Bool
  | .flag i => (slots[i]?.map (·.on)).getD false
  | .choice k => choice == k
  | .self => has

/-- One object of a member, written as the statement says. -/
def How.write (w : Written) : How → List Item
  | .element => [w.element]
  | .body => w.body
  | .bodyIf => if w.has then w.body else []

def Stmt.write (choice : Nat) (has : Bool) (slots : List WrittenSlot) (s : Stmt) : List Item :=
  if s.conds.all (Cond.eval choice has slots) then
    ((slots[s.slot]?.map (·.kids)).getD []).flatMap (fun w => s.how.write w)
  else []

/-- `toStream` writes the contents only if `hasContents()` is true, `ElementInterface::streamWithoutProcessingInstructions`
private/mx/core/ElementInterface.cpp 257-277 (called by `toStream` 70-92). Processing instructions and white space are not modelled. -/
def assemble (c : Cls) (data : Str) (choice : Nat) (slots : List WrittenSlot) : Written :=
  { element := ⟨.comp c, .elem c.info.name data
      (if hasContents c.info choice slots then
        (c.info.stmts.flatMap (Stmt.write choice (hasContents c.info choice slots) slots)).map (·.xml) else [])⟩
    has := hasContents c.info choice slots
    body := c.info.stmts.flatMap (Stmt.write choice (hasContents c.info choice slots) slots) }

mutual
/-- What an object writes. -/
def Node.write : Node → Written
  | .leaf t h d => ⟨⟨.leaf t h, .elem t d []⟩, h, []⟩
  | .comp c d k ss => assemble c d k (writeSlots ss)
def writeSlots : List Slot → List WrittenSlot
  | [] => []
  | s :: ss => writeSlot s :: writeSlots ss
def writeSlot : Slot → WrittenSlot
  | .mk on ks => ⟨on, writeKids ks⟩
def writeKids : List Node → List Written
  | [] => []
  | k :: ks => k.write :: writeKids ks
end

/-- The element an object writes. -/
def Node.xml (n : Node) : Xml := n.write.element.xml

/-! ## Changes -/

/-- `addX`: private/mx/core/elements, e.g. Barline.cpp `addFermata`. -/
def SetCode.add (s : SetCode) (n : Node) (ks : List Node) : List Node :=
  match s.most with
  | none => ks ++ [n]
  | some m => if ks.length < m then ks ++ [n] else ks

/-- `removeX` with an iterator to the item `j` (an iterator at the end changes nothing). -/
def SetCode.remove (s : SetCode) (j : Nat) (ks : List Node) : List Node :=
  if j < ks.length ∧ s.least < ks.length then ks.eraseIdx j else ks

/-- The methods that change an object. The objects given as arguments are not null (a null pointer changes nothing). -/
inductive Op where
  /-- attributes and value -/
  | setData (d : Str)
  /-- `setHasX` -/
  | setHas (i : Nat) (b : Bool)
  | setChoice (k : Nat)
  /-- `setX` -/
  | setKid (i : Nat) (n : Node)
  /-- `addX` -/
  | add (i : Nat) (n : Node)
  /-- `removeX` -/
  | remove (i j : Nat)
  /-- `clearXSet`; `fresh` are the new objects made by the method -/
  | clear (i : Nat) (fresh : List Node)
  /-- a change of an object obtained from a getter: the object `j` of the member becomes `n` -/
  | change (i j : Nat) (n : Node)

def changeSlot (ss : List Slot) (i : Nat) (f : Slot → Slot) : List Slot :=
  match ss[i]? with
  | none => ss
  | some s => ss.set i (f s)

def memberSet (c : Cls) (i : Nat) : SetCode :=
  match c.info.members[i]? with
  | some ⟨_, .set s⟩ => s
  | _ => ⟨0, none, 0, 0⟩

/-- The effect of a method on the object. -/
def Op.apply : Op → Node → Node
  | _, .leaf t h d => .leaf t h d
  | .setData d, .comp c _ k ss => .comp c d k ss
  | .setHas i b, .comp c d k ss => .comp c d k (changeSlot ss i fun s => .mk b s.kids)
  | .setChoice k, .comp c d _ ss => .comp c d k ss
  | .setKid i n, .comp c d k ss => .comp c d k (changeSlot ss i fun s => .mk s.on [n])
  | .add i n, .comp c d k ss => .comp c d k (changeSlot ss i fun s => .mk s.on ((memberSet c i).add n s.kids))
  | .remove i j, .comp c d k ss => .comp c d k (changeSlot ss i fun s => .mk s.on ((memberSet c i).remove j s.kids))
  | .clear i fresh, .comp c d k ss => .comp c d k (changeSlot ss i fun s => .mk s.on (fresh.take (memberSet c i).clear))
  | .change i j n, .comp c d k ss => .comp c d k (changeSlot ss i fun s => .mk s.on (s.kids.set j n))

/-- A value `myChoice` can have. -/
def ChoiceOk (c : Cls) (k : Nat) : Prop := c.info.choices = 0 ∨ k < c.info.choices

/-- The member `i` of class `c` can point to `n`. -/
def Fits (c : Cls) (i : Nat) (n : Node) : Prop := ∃ m, c.info.members[i]? = some m ∧ n.kind = m.kind

def isSet (c : Cls) (i : Nat) : Prop := ∃ m s, c.info.members[i]? = some m ∧ m.mult = .set s

/-- The method exists in the class and its arguments have the types of its parameters. -/
def Op.Typed (c : Cls) : Op → Prop
  | .setData _ => True
  | .setHas _ _ => True
  | .setChoice k => ChoiceOk c k
  | .setKid i n => ¬ isSet c i ∧ Fits c i n
  | .add i n => isSet c i ∧ Fits c i n
  | .remove i _ => isSet c i
  | .clear i fresh => isSet c i ∧ fresh.length = (memberSet c i).clear ∧ ∀ n ∈ fresh, Fits c i n
  | .change i _ n => Fits c i n

/-- The objects among the arguments. -/
def Op.args : Op → List Node
  | .setKid _ n => [n]
  | .add _ n => [n]
  | .clear _ fresh => fresh
  | .change _ _ n => [n]
  | _ => []

/-- The number of objects of a member after the constructor. -/
def Mult.start : Mult → Nat
  | .one => 1
  | .opt => 1
  | .set s => s.start

/-- What a constructor makes, as far as the number and kind of the objects go. -/
def Fresh (c : Cls) (ss : List Slot) : Prop :=
  ss.length = c.info.members.length ∧
  ∀ (i : Nat) (m : Member) (s : Slot), c.info.members[i]? = some m → ss[i]? = some s →
    s.kids.length = m.mult.start ∧ ∀ k ∈ s.kids, k.kind = m.kind

/-- The objects a program can build: constructors, then any history of calls, with objects built in the same way as arguments. -/
inductive Built : Node → Prop where
  | leaf (t : Nat) (h : Bool) (d : Str) : t ∈ leafNames → Built (.leaf t h d)
  | make (c : Cls) (d : Str) (k : Nat) (ss : List Slot) : ChoiceOk c k → Fresh c ss → (∀ s ∈ ss, ∀ n ∈ s.kids, Built n) →
      Built (.comp c d k ss)
  | call (op : Op) (c : Cls) (d : Str) (k : Nat) (ss : List Slot) : Built (.comp c d k ss) → op.Typed c → (∀ n ∈ op.args, Built n) →
      Built (op.apply (.comp c d k ss))

end Mx.Content
