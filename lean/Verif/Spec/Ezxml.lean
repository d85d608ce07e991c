import Verif.Model.Ezxml

/-
A document as its user thinks of it: an element has a name, attributes, and either a value or children; processing instructions are among the children.
-/
namespace Mx.Spec
open Ezxml

inductive Inside where
  | kids (l : List Nat)
  | value (s : Str)

structure El where
  kind : NodeKind
  name : Str
  /-- of a processing instruction -/
  instruction : Str
  attrs : List (Nat × Str × Str)
  inside : Inside
  parent : Nat

structure Tree where
  el : Nat → Option El
  next : Nat

def Tree.put (t : Tree) (id : Nat) (x : El) : Tree := { t with el := fun n => if n = id then some x else t.el n }

def Tree.isElement (t : Tree) (id : Nat) : Bool := match t.el id with
  | some x => decide (x.kind ≠ .pi)
  | none => true

/-- `new` behind `e`. -/
def behind (e new : Nat) : List Nat → List Nat
  | [] => []
  | k :: r => if k = e then k :: new :: r else k :: behind e new r

/-- The list without the first child of the name, if there is one. -/
def without (t : Tree) (name : Str) : List Nat → Option (List Nat)
  | [] => none
  | k :: r => if (t.el k).map (·.name) = some name then some r else (without t name r).map fun l => k :: l

/-- The attribute is the first one of its name (in a proper document it is the only one). -/
def firstOfName (a : Nat) : List (Nat × Str × Str) → Bool
  | [] => false
  | (b, n, _) :: r => decide (b = a) || (firstOfName a r && r.all fun q => decide (q.1 = a → q.2.1 ≠ n))

def add (t : Tree) (p : Nat) (x : El) (name : Str) (l : List Nat) : Tree × Answer :=
  ({ (t.put p { x with inside := .kids l }).put t.next ⟨.element, name, [], [], .kids [], p⟩ with next := t.next + 1 }, .made t.next)

def changeAttr (a : Nat) (f : Str × Str → Str × Str) (l : List (Nat × Str × Str)) : List (Nat × Str × Str) :=
  l.map fun p => if p.1 = a then (p.1, f p.2) else p

/-- What each call should do. `none`: not said here. These are the calls with which children would be added to an element that has been given a value, a value would be given to a processing instruction or to an element
that has processing instructions, and an attribute would be removed in front of which there is another one of the same name. -/
def wanted (t : Tree) : Edit → Option (Tree × Answer)
  | .appendChild e name => match t.el e with
    | some x => if x.kind = .element then match x.inside with
        | .kids l => some (add t e x name (l ++ [t.next]))
        | .value _ => none
      else some (t, .exception)
    | none => none
  | .prependChild e name => match t.el e with
    | some x => if x.kind = .element then match x.inside with
        | .kids l => some (add t e x name (t.next :: l))
        | .value _ => none
      else some (t, .exception)
    | none => none
  | .insertSiblingAfter e name => match t.el e with
    | some x => if x.kind = .document then none else match t.el x.parent with
      | some p => match p.inside with
        | .kids l => some (add t x.parent p name (behind e t.next l))
        | .value _ => none
      | none => none
    | none => none
  | .removeChild e name => match t.el e with
    | some x => match x.inside with
      | .kids l => match without t name l with
        | some l' => some (t.put e { x with inside := .kids l' }, .removed true)
        | none => some (t, .removed false)
      | .value _ => some (t, .removed false)
    | none => none
  | .setName e name => match t.el e with
    | some x => if x.kind = .document then none else some (t.put e { x with name := name }, .nothing)
    | none => none
  | .setValue e v => match t.el e with
    | some x => if x.kind ≠ .element then none else match x.inside with
      | .value _ => some (t.put e { x with inside := .value v }, .nothing)
      | .kids [] => some (t.put e { x with inside := .value v }, .nothing)
      | .kids l => if l.any t.isElement then some (t, .exception) else none
    | none => none
  | .appendAttribute e name => match t.el e with
    | some x => if x.kind = .element then some ({ t.put e { x with attrs := x.attrs ++ [(t.next, name, [])] } with next := t.next + 1 }, .made t.next) else none
    | none => none
  | .prependAttribute e name => match t.el e with
    | some x => if x.kind = .element then some ({ t.put e { x with attrs := (t.next, name, []) :: x.attrs } with next := t.next + 1 }, .made t.next) else none
    | none => none
  | .removeAttribute e a => match t.el e with
    | some x => if firstOfName a x.attrs then some (t.put e { x with attrs := x.attrs.eraseP fun p => decide (p.1 = a) }, .nothing) else none
    | none => none
  | .setAttributeName e a n => match t.el e with
    | some x => some (t.put e { x with attrs := changeAttr a (fun p => (n, p.2)) x.attrs }, .nothing)
    | none => none
  | .setAttributeValue e a v => match t.el e with
    | some x => some (t.put e { x with attrs := changeAttr a (fun p => (p.1, v)) x.attrs }, .nothing)
    | none => none

def wantedAll (t : Tree) : List Edit → Option (Tree × List Answer)
  | [] => some (t, [])
  | e :: es => (wanted t e).bind fun r => (wantedAll r.1 es).map fun s => (s.1, r.2 :: s.2)

/-- `<root/>`. -/
def newTree : Tree :=
  { el := fun n => if n = 0 then some ⟨.document, [], [], [], .kids [1], 0⟩ else if n = 1 then some ⟨.element, chars "root", [], [], .kids [], 0⟩ else none
    next := 2 }

/-- The next one in a list. -/
def nextIn (e : Nat) : List Nat → Option Nat
  | [] => none
  | k :: r => if k = e then r.head? else nextIn e r

/-- All that can be seen of the element `id` in the document `m` is as in the tree `t`: name, value, attributes, type, the children one by one forwards, backwards and with processing instructions, the parent and the
next sibling. -/
structure Looks (m : Mem) (t : Tree) (id : Nat) (n : Node) (x : El) : Prop where
  kind : n.kind = x.kind
  name : n.name = x.name
  attrs : n.attrs = x.attrs
  value : getValue n = if x.kind = .pi then x.instruction else match x.inside with
    | .value s => s
    | .kids _ => []
  type : getType m n = match x.inside with
    | .value s => if s = [] then .empty else .text
    | .kids l => if l.any t.isElement then .element else .empty
  children : children m n = some (match x.inside with
    | .value _ => []
    | .kids l => l.filter t.isElement)
  backwards : childrenBackwards m n = some (match x.inside with
    | .value _ => []
    | .kids l => (l.filter t.isElement).reverse)
  all : childrenAndInstructions m n = some (match x.inside with
    | .value _ => []
    | .kids l => l)
  parent : getParent m n = match t.el x.parent with
    | some p => if p.kind = .document then none else some x.parent
    | none => none
  sibling : ∀ p l, t.el x.parent = some p → p.inside = .kids l → getNextSibling m id n = nextIn id l

/-- Every element holds either children or text: no child stands beside a text. -/
def Unmixed (m : Mem) : Prop := ∀ id n, m.node id = some n → (∃ l : List Nat, n.kids = l.map Kid.node) ∨ (∃ l : List Str, n.kids = l.map Kid.text) ∧ n.kind = .element

end Mx.Spec
