import Verif.Model.StringEnum

/-
The tree of a document as it is edited and walked through with the classes of ezxml (`XElement`, `XElementIterator`, `XAttribute`): private/mx/ezxml/src/private/private/PugiElement.cpp,
PugiElementIterImpl.cpp, PugiAttribute.cpp, PugiAttributeIterImpl.cpp, XElementIterator.cpp, XAttributeIterator.cpp, and the functions of pugixml.cpp that they call.
Simplifications: nodes and attributes have numbers instead of addresses; texts without characters of code 0; memory does not run out. An `XElement` or `XAttribute` of something that has been
removed must not be used any more (in C++ that is undefined; here the removed node is still there, but nothing leads to it). Comments are not kept by the parser, CDATA sections are
texts like others. An iterator is the position in the list of children; it is used while the list is not changed.
-/
namespace Mx.Ezxml

inductive NodeKind where
  | document | element | pi
  deriving DecidableEq

/-- A child: an element or a processing instruction, or a text. -/
inductive Kid where
  | node (id : Nat)
  | text (s : Str)
  deriving DecidableEq

/-- `value` is the value of a processing instruction. -/
structure Node where
  kind : NodeKind
  name : Str
  value : Str
  attrs : List (Nat × Str × Str)
  kids : List Kid
  parent : Nat

structure Mem where
  node : Nat → Option Node
  next : Nat

def Mem.put (m : Mem) (id : Nat) (x : Node) : Mem := { m with node := fun n => if n = id then some x else m.node n }

def Mem.isPi (m : Mem) (id : Nat) : Bool := match m.node id with
  | some x => decide (x.kind = .pi)
  | none => false

/-- The child is a processing instruction. -/
def piKid (m : Mem) : Kid → Bool
  | .node id => m.isPi id
  | .text _ => false

/-- `PugiElementIterImpl::getIsProcessingInstruction`, private/mx/ezxml/src/private/private/PugiElementIterImpl.cpp 112-132. -/
def piAt (m : Mem) (kids : List Kid) (p : Nat) : Bool := match kids[p]? with
  | some k => piKid m k
  | none => false

/-- The loop in `increment`, private/mx/ezxml/src/private/private/PugiElementIterImpl.cpp 207-218; at most `fuel` rounds. -/
def skipUp (m : Mem) (kids : List Kid) : Nat → Nat → Nat
  | 0, p => p
  | fuel + 1, p => if p ≠ kids.length ∧ piAt m kids p = true then skipUp m kids fuel (p + 1) else p

/-- `increment`, private/mx/ezxml/src/private/private/PugiElementIterImpl.cpp 202-220. -/
def increment (m : Mem) (kids : List Kid) (skip : Bool) (p : Nat) : Nat := if skip then skipUp m kids kids.length (p + 1) else p + 1

/-- The loop in `decrement`, private/mx/ezxml/src/private/private/PugiElementIterImpl.cpp 228-239: it stops at the first child whatever it is. -/
def skipDown (m : Mem) (kids : List Kid) : Nat → Nat
  | 0 => 0
  | p + 1 => if piAt m kids (p + 1) = true then skipDown m kids p else p + 1

/-- `decrement`, private/mx/ezxml/src/private/private/PugiElementIterImpl.cpp 223-241. -/
def decrement (m : Mem) (kids : List Kid) (p : Nat) : Nat := skipDown m kids (p - 1)

/-- `getRef`, private/mx/ezxml/src/private/private/PugiElementIterImpl.cpp 166-181, with the constructor of `PugiElement`, PugiElement.cpp 24-38: an exception (`none`) at the end and for a text. -/
def deref (kids : List Kid) (p : Nat) : Option Nat := match kids[p]? with
  | some (.node id) => some id
  | _ => none

/-- `beginWithProcessingInstructions`, private/mx/ezxml/src/private/private/PugiElement.cpp 234-257. -/
def beginAll (kids : List Kid) : Nat := match kids with
  | .node _ :: _ => 0
  | _ => kids.length

/-- `begin`, private/mx/ezxml/src/private/private/PugiElement.cpp 217-231. -/
def beginSkip (m : Mem) (kids : List Kid) : Nat :=
  if beginAll kids ≠ kids.length ∧ piAt m kids (beginAll kids) = true then increment m kids true (beginAll kids) else beginAll kids

/-- `for( auto it = begin(); it != end(); ++it )`: the elements that `*it` gives; at most `fuel` rounds. `none`: an exception. -/
def walkFrom (m : Mem) (kids : List Kid) (skip : Bool) : Nat → Nat → Option (List Nat)
  | 0, _ => some []
  | fuel + 1, p =>
    if p = kids.length then some []
    else (deref kids p).bind fun id => (walkFrom m kids skip fuel (increment m kids skip p)).map fun l => id :: l

/-- `for( auto it = end(); it != begin(); ) { --it; ... *it ... }`. -/
def walkDown (m : Mem) (kids : List Kid) : Nat → Nat → Option (List Nat)
  | 0, _ => some []
  | fuel + 1, p =>
    if p = beginSkip m kids then some []
    else (deref kids (decrement m kids p)).bind fun id => (walkDown m kids fuel (decrement m kids p)).map fun l => id :: l

def children (m : Mem) (e : Node) : Option (List Nat) := walkFrom m e.kids true (e.kids.length + 1) (beginSkip m e.kids)
def childrenAndInstructions (m : Mem) (e : Node) : Option (List Nat) := walkFrom m e.kids false (e.kids.length + 1) (beginAll e.kids)
def childrenBackwards (m : Mem) (e : Node) : Option (List Nat) := walkDown m e.kids (e.kids.length + 1) e.kids.length

/-- `xml_text::_data`, private/mx/ezxml/src/private/private/pugixml.cpp 6356-6369: the first text. -/
def textOf : List Kid → Str
  | [] => []
  | .text s :: _ => s
  | .node _ :: r => textOf r

/-- `XElementType`. -/
inductive XType where
  | text | empty | element
  deriving DecidableEq

/-- `PugiElement::getType`, private/mx/ezxml/src/private/private/PugiElement.cpp 48-67. -/
def getType (m : Mem) (e : Node) : XType :=
  if textOf e.kids ≠ [] then .text else if beginSkip m e.kids = e.kids.length then .empty else .element

/-- `PugiElement::getValue`, private/mx/ezxml/src/private/private/PugiElement.cpp 114-130. -/
def getValue (e : Node) : Str := if e.kind = .pi then e.value else textOf e.kids

/-- `PugiElement::getParent`, private/mx/ezxml/src/private/private/PugiElement.cpp 182-188: an exception for the root, whose parent is no element. -/
def getParent (m : Mem) (e : Node) : Option Nat := match m.node e.parent with
  | some x => if x.kind = .document then none else some e.parent
  | none => none

/-- The child after a child. -/
def kidAfter (id : Nat) : List Kid → Option Kid
  | [] => none
  | k :: r => if k = .node id then r.head? else kidAfter id r

/-- `PugiElement::getNextSibling`, private/mx/ezxml/src/private/private/PugiElement.cpp 191-214. -/
def getNextSibling (m : Mem) (id : Nat) (e : Node) : Option Nat := match m.node e.parent with
  | some x => match kidAfter id x.kids with
    | some (.node k) => some k
    | _ => none
  | none => none

/-! ## Editing -/

inductive Edit where
  | appendChild (e : Nat) (name : Str)
  | prependChild (e : Nat) (name : Str)
  | insertSiblingAfter (e : Nat) (name : Str)
  | removeChild (e : Nat) (name : Str)
  | setName (e : Nat) (name : Str)
  | setValue (e : Nat) (value : Str)
  | appendAttribute (e : Nat) (name : Str)
  | prependAttribute (e : Nat) (name : Str)
  | removeAttribute (e : Nat) (a : Nat)
  | setAttributeName (e : Nat) (a : Nat) (name : Str)
  | setAttributeValue (e : Nat) (a : Nat) (value : Str)

/-- What a call returns: `made` is a new element or attribute. -/
inductive Answer where
  | nothing
  | made (id : Nat)
  | removed (b : Bool)
  | exception
  deriving DecidableEq

/-- A new element `name` is made and put among the children of `p`, whose new children are `kids`. -/
def addNode (m : Mem) (p : Nat) (x : Node) (name : Str) (kids : List Kid) : Mem × Answer :=
  ({ (m.put p { x with kids := kids }).put m.next { kind := .element, name := name, value := [], attrs := [], kids := [], parent := p } with next := m.next + 1 }, .made m.next)

def insertAfterKid (e new : Nat) : List Kid → List Kid
  | [] => []
  | k :: r => if k = .node e then k :: .node new :: r else k :: insertAfterKid e new r

/-- `xml_node::child` and `remove_node`, called by `remove_child`, private/mx/ezxml/src/private/private/pugixml.cpp 6062-6078: the first child of the name (element or processing instruction) is taken out. -/
def removeNamed (m : Mem) (name : Str) : List Kid → Option (List Kid)
  | [] => none
  | .text s :: r => (removeNamed m name r).map fun l => .text s :: l
  | .node id :: r => if (m.node id).map (·.name) = some name then some r else (removeNamed m name r).map fun l => .node id :: l

/-- The attribute of number `a`. -/
def attrName? (a : Nat) : List (Nat × Str × Str) → Option Str
  | [] => none
  | (b, n, _) :: r => if b = a then some n else attrName? a r

/-- The loop of `removeAttribute`, private/mx/ezxml/src/private/private/PugiElement.cpp 354-368: the first attribute that has the name of the given one. -/
def removeNamedAttr (name : Str) : List (Nat × Str × Str) → List (Nat × Str × Str)
  | [] => []
  | (b, n, v) :: r => if n = name then r else (b, n, v) :: removeNamedAttr name r

/-- The attribute of number `a` (it is the only one of the number, as with addresses) is changed. -/
def mapAttr (a : Nat) (f : Str × Str → Str × Str) : List (Nat × Str × Str) → List (Nat × Str × Str)
  | [] => []
  | (b, n, v) :: r => (if b = a then (b, f (n, v)) else (b, n, v)) :: mapAttr a f r

/-- `PugiElement::setValue`, private/mx/ezxml/src/private/private/PugiElement.cpp 145-172; `set_value`, pugixml.cpp 5649-5657. A processing instruction has no children, so that nothing can be put into
it; if an element has a text, the first child, whatever it is, gets the value. -/
def setValue (m : Mem) (e : Nat) (x : Node) (v : Str) : Mem × Answer :=
  match getType m x with
  | .element => (m, .exception)
  | .empty => if x.kind = .pi then (m, .nothing) else (m.put e { x with kids := .text v :: x.kids }, .nothing)
  | .text => match x.kids with
    | .text _ :: r => (m.put e { x with kids := .text v :: r }, .nothing)
    | .node id :: _ => match m.node id with
      | some y => if y.kind = .pi then (m.put id { y with value := v }, .nothing) else (m, .nothing)
      | none => (m, .nothing)
    | [] => (m, .nothing)

/-- The calls of `PugiElement` (private/mx/ezxml/src/private/private/PugiElement.cpp 133-172, 287-368) and `PugiAttribute` (PugiAttribute.cpp 60-71). A processing instruction can have neither children nor attributes: `append_child` then
fails and the constructor of `PugiElement` throws, `append_attribute` fails and an attribute is returned that belongs to nothing. There is no `XElement` of the document node (or of no node). -/
def edit (m : Mem) : Edit → Mem × Answer
  | .appendChild e name => match m.node e with
    | some x => if x.kind = .element then addNode m e x name (x.kids ++ [.node m.next]) else (m, .exception)
    | none => (m, .exception)
  | .prependChild e name => match m.node e with
    | some x => if x.kind = .element then addNode m e x name (.node m.next :: x.kids) else (m, .exception)
    | none => (m, .exception)
  | .insertSiblingAfter e name => match m.node e with
    | some x => match m.node x.parent with
      | some p => if x.kind = .document then (m, .exception) else addNode m x.parent p name (insertAfterKid e m.next p.kids)
      | none => (m, .exception)
    | none => (m, .exception)
  | .removeChild e name => match m.node e with
    | some x => match removeNamed m name x.kids with
      | some kids => (m.put e { x with kids := kids }, .removed true)
      | none => (m, .removed false)
    | none => (m, .exception)
  | .setName e name => match m.node e with
    | some x => if x.kind = .document then (m, .exception) else (m.put e { x with name := name }, .nothing)
    | none => (m, .exception)
  | .setValue e v => match m.node e with
    | some x => if x.kind = .document then (m, .exception) else setValue m e x v
    | none => (m, .exception)
  | .appendAttribute e name => match m.node e with
    | some x => if x.kind = .element then ({ m.put e { x with attrs := x.attrs ++ [(m.next, name, [])] } with next := m.next + 1 }, .made m.next) else (m, .nothing)
    | none => (m, .exception)
  | .prependAttribute e name => match m.node e with
    | some x => if x.kind = .element then ({ m.put e { x with attrs := (m.next, name, []) :: x.attrs } with next := m.next + 1 }, .made m.next) else (m, .nothing)
    | none => (m, .exception)
  | .removeAttribute e a => match m.node e with
    | some x => match attrName? a x.attrs with
      | some n => (m.put e { x with attrs := removeNamedAttr n x.attrs }, .nothing)
      | none => (m, .exception)
    | none => (m, .exception)
  | .setAttributeName e a n => match m.node e with
    | some x => (m.put e { x with attrs := mapAttr a (fun p => (n, p.2)) x.attrs }, .nothing)
    | none => (m, .exception)
  | .setAttributeValue e a v => match m.node e with
    | some x => (m.put e { x with attrs := mapAttr a (fun p => (p.1, v)) x.attrs }, .nothing)
    | none => (m, .exception)

def edits (m : Mem) : List Edit → Mem × List Answer
  | [] => (m, [])
  | e :: es => let r := edit m e; let s := edits r.1 es; (s.1, r.2 :: s.2)

/-- A new document: `<root/>`, private/mx/ezxml/src/private/private/PugiDoc.cpp 17-27. -/
def newDocument : Mem :=
  { node := fun n => if n = 0 then some ⟨.document, [], [], [], [.node 1], 0⟩ else if n = 1 then some ⟨.element, chars "root", [], [], [], 0⟩ else none
    next := 2 }

end Mx.Ezxml
