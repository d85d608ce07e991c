import Verif.Model.XmlPrinter
import Verif.Model.Strings

/-
Saving and loading a document as text: `ElementInterface::toStream`, `Document::toStream`, `Document::toXDoc`, `PugiDoc::loadStream`, `PugiDoc::saveStream` and `ElementInterface::fromXElement`.

The classes of the elements differ in the line ends and the indentation they write between their children; the model has any white space there, as part of the written element (`CElem`).  Which children
an object writes and reads is the subject of Verif/Model/ContentTree.lean and ContentReader.lean; here an element is what is written: name, attributes, processing instructions, text or children.
-/
namespace Mx.XmlDoc
open Mx.Pugi

/-- `ProcessingInstruction`: name, data and `mIsChild`, private/mx/core/ProcessingInstruction.h. -/
structure Instr where
  name : Str
  data : Str
  isChild : Bool
deriving DecidableEq

mutual
/-- An element as its object writes it: an element with a text (`value`, any text; attributes are given by their values before escaping), or an element with children.  `full`: the class writes a start and an end
tag even if there are no contents (its `hasContents` is `true`). -/
inductive CElem where
  | text (name : Str) (attrs : List (Str × Str)) (pis : List Instr) (value : Str) (full : Bool)
  | node (name : Str) (attrs : List (Str × Str)) (pis : List Instr) (kids : CKids) (oneLine full : Bool)
/-- The children, with the line ends in front of each of them and behind the last one. -/
inductive CKids where
  | nil (last : Str)
  | cons (gap : Str) (e : CElem) (rest : CKids)
end

/-- `indent`, private/mx/core/ElementInterface.cpp 15 and 103-110. -/
def indent (level : Nat) : Str := (List.replicate level [' ', ' ', ' ']).flatten

/-- `streamAttribute` for each attribute that is there, private/mx/core/AttributesInterface.h 38-53; a value is written with the escapes of `XsString` (XsString.cpp 49-80).  The values of other types
contain no character that has to be escaped. -/
def writeAttrs (l : List (Str × Str)) : Str := l.flatMap fun a => ' ' :: a.1 ++ '=' :: '"' :: escapeXml a.2 ++ ['"']

/-- `ProcessingInstruction::toStream`, private/mx/core/ProcessingInstruction.cpp 66-74. -/
def writeInstr (p : Instr) : Str := '<' :: '?' :: p.name ++ ' ' :: p.data ++ ['?', '>']

/-- The loops of `writeChildProcessingInstructions`, `writeSiblingProcessingInstructions` and `writeAllProcessingInstructions`, private/mx/core/ElementInterface.cpp 194-254: each on a line of its own. -/
def writeInstrs (level : Nat) : List Instr → Str
  | [] => []
  | [p] => indent level ++ writeInstr p
  | p :: q :: r => indent level ++ writeInstr p ++ '\n' :: writeInstrs level (q :: r)

/-- The value of an attribute by its name; `attribute( name )` gives the first one. -/
def attr (name : Str) (l : List (Str × Str)) : Option Str := (l.find? fun a => a.1 = name).map (·.2)

/-- `attr.set_value` on the first attribute of a name. -/
def setAttr (name value : Str) : List (Str × Str) → List (Str × Str)
  | [] => []
  | a :: r => if a.1 = name then (a.1, value) :: r else a :: setAttr name value r

/-- `compareCaseInsensitive`, private/mx/ezxml/src/private/private/Parse.h 27-38. -/
def sameLetters (a b : Str) : Bool := decide (a.map Char.toLower = b.map Char.toLower)

/-- The attribute `version` in front, private/mx/ezxml/src/private/private/PugiDoc.cpp 133-137. -/
def addVersion (l : List (Str × Str)) : List (Str × Str) :=
  match l with
  | [] => []
  | a :: r => if sameLetters (chars "version") a.1 then a :: r else (chars "version", chars "1.0") :: a :: r

/-- The attribute `encoding` behind the first one, private/mx/ezxml/src/private/private/PugiDoc.cpp 138-145. -/
def addEncoding (l : List (Str × Str)) : List (Str × Str) :=
  match l with
  | [] => []
  | [a] => [a, (chars "encoding", chars "UTF-8")]
  | a :: b :: r => if sameLetters (chars "encoding") b.1 then a :: b :: r else a :: (chars "encoding", chars "UTF-8") :: b :: r

/-- A version without a value becomes 1.0: `parseXmlVersionFromDoc` and `setXmlVersion`, private/mx/ezxml/src/private/private/PugiDoc.cpp 488-507, 233-267 (the first attribute is called `version` up to case). -/
def fixVersion (l : List (Str × Str)) : List (Str × Str) :=
  if (attr (chars "version") l).getD [] = [] then
    match l with
    | [] => []
    | a :: r => (a.1, chars "1.0") :: r
  else l

/-- The attributes of the declaration after `loadStream`, private/mx/ezxml/src/private/private/PugiDoc.cpp 119-168, 479-539: the encoding becomes UTF-8; an exception is thrown if there is none. -/
def fixDeclaration (l : List (Str × Str)) : Option (List (Str × Str)) :=
  if l = [] then some [(chars "version", chars "1.0"), (chars "encoding", chars "UTF-8")]
  else
    if (attr (chars "encoding") (fixVersion (addEncoding (addVersion l)))).isSome then
      some (setAttr (chars "encoding") (chars "UTF-8") (fixVersion (addEncoding (addVersion l))))
    else none

/-- `PugiDoc::loadStream`, private/mx/ezxml/src/private/private/PugiDoc.cpp 31-168, for a text that is not in UTF-16, UTF-32 or Latin-1; `none`: an exception. -/
def loadStream (s : Str) : Option (List XNode) :=
  (parse s).bind fun nodes =>
    match nodes with
    | .decl n a :: r => (fixDeclaration a).map fun a' => .decl n a' :: r
    | _ => some (.decl (chars "xml") [(chars "version", chars "1.0"), (chars "encoding", chars "UTF-8")] :: nodes)

/-- `PugiDoc::getRoot`, private/mx/ezxml/src/private/private/PugiDoc.cpp 464-476: the first element, and the nodes behind it. -/
def root : List XNode → Option (XNode × List XNode)
  | [] => none
  | x :: r => if x.isElem then some (x, r) else root r

/-- `xml_text::_data` and `as_string` of an element, private/mx/ezxml/src/private/private/pugixml.cpp 6356-6369: the first child that is a text. -/
def textOf : List XNode → Str
  | [] => []
  | .pcdata s :: _ => s
  | .cdata s :: _ => s
  | _ :: r => textOf r

def XNode.isPi : XNode → Bool
  | .pi .. => true
  | _ => false

/-- `PugiElement::begin`, private/mx/ezxml/src/private/private/PugiElement.cpp 217-257 (and `increment`, PugiElementIterImpl.cpp 202-220): the children from the first one on that is no processing instruction; none
if the first child is a text. -/
def begin : List XNode → List XNode
  | .elem n a k :: r => .elem n a k :: r
  | .pi n v :: r => (XNode.pi n v :: r).dropWhile XNode.isPi
  | _ => []

/-- `PugiElement::getType`, private/mx/ezxml/src/private/private/PugiElement.cpp 48-67. -/
inductive XType where
  | text | empty | element
deriving DecidableEq

def typeOf (kids : List XNode) : XType :=
  if textOf kids ≠ [] then .text else if (begin kids).isEmpty then .empty else .element

/-- `root->getType() == XElementType::element && root->begin() != root->end()`, private/mx/core/ElementInterface.cpp 87. -/
def hasChildren (s : Str) : Option Bool :=
  (loadStream s).bind fun nodes => (root nodes).bind fun x =>
    match x.1 with
    | .elem _ _ kids => some (decide (typeOf kids = .element) && !(begin kids).isEmpty)
    | _ => none

/-- A start tag, private/mx/core/ElementInterface.cpp 28-38. -/
def openTag (name : Str) (attrs : List (Str × Str)) : Str := '<' :: name ++ writeAttrs attrs ++ ['>']
/-- An end tag, private/mx/core/ElementInterface.cpp 41-47. -/
def closeTag (name : Str) : Str := '<' :: '/' :: name ++ ['>']
/-- An empty element, private/mx/core/ElementInterface.cpp 50-60. -/
def selfCloseTag (name : Str) (attrs : List (Str × Str)) : Str := '<' :: name ++ writeAttrs attrs ++ ['/', '>']

/-- The contents of an element (`streamContents`): the text, `isOneLineOnly`, and whether `hasContents` is true. -/
structure Contents where
  body : Str
  oneLine : Bool
  full : Bool

def Contents.selfClosing (c : Contents) : Bool := c.body.isEmpty && !c.full

/-- `streamWithoutProcessingInstructions`, private/mx/core/ElementInterface.cpp 257-277. -/
def streamWithout (level : Nat) (name : Str) (attrs : List (Str × Str)) (c : Contents) : Str :=
  if c.selfClosing then selfCloseTag name attrs
  else openTag name attrs ++ c.body ++ (if c.oneLine then [] else indent level) ++ closeTag name

/-- `streamWithProcessingInstructions`, private/mx/core/ElementInterface.cpp 280-320. -/
def streamWith (level : Nat) (name : Str) (attrs : List (Str × Str)) (pis : List Instr) (has : Bool) (c : Contents) : Str :=
  if c.selfClosing then selfCloseTag name attrs ++ '\n' :: writeInstrs level pis
  else
    openTag name attrs ++ (if has then writeInstrs (level + 1) (pis.filter (·.isChild)) else []) ++ c.body ++ (if c.oneLine then [] else indent level) ++ closeTag name
      ++ '\n' :: (if has then writeInstrs level (pis.filter (fun p => !p.isChild)) else writeInstrs level pis)

/-- `ElementInterface::toStream`, private/mx/core/ElementInterface.cpp 70-92: an element with processing instructions is written and parsed first, to find out whether it has children.  `c0` are the contents
written with indentation 0. -/
def assemble (level : Nat) (name : Str) (attrs : List (Str × Str)) (pis : List Instr) (c c0 : Option Contents) : Option Str :=
  if pis = [] then c.map fun c => indent level ++ streamWithout level name attrs c
  else c0.bind fun c0 => (hasChildren (streamWithout 0 name attrs c0)).bind fun has => c.map fun c => indent level ++ streamWith level name attrs pis has c

mutual
/-- `ElementInterface::toStream`, private/mx/core/ElementInterface.cpp 70-92, with the contents of the element. -/
def toStream (level : Nat) : CElem → Option Str
  | .text n a p v full => assemble level n a p (some ⟨escapeXml v, true, full⟩) (some ⟨escapeXml v, true, full⟩)
  | .node n a p ks o full =>
    assemble level n a p ((kidsToStream level ks).map fun b => ⟨b, o, full⟩) ((kidsToStream 0 ks).map fun b => ⟨b, o, full⟩)
/-- `streamContents` of an element with children, such as private/mx/core/elements/Pitch.cpp 49-63: the children are written one level deeper, with line ends around them. -/
def kidsToStream (level : Nat) : CKids → Option Str
  | .nil last => some last
  | .cons gap e rest => (toStream (level + 1) e).bind fun a => (kidsToStream level rest).map fun b => gap ++ a ++ b
end

/-- `core::Document`: `myChoice` and the score. -/
structure CDoc where
  timewise : Bool
  root : CElem

/-- The values of the document types, private/mx/core/Document.h 38-39. -/
def doctypeValue (timewise : Bool) : Str :=
  if timewise then chars "score-timewise PUBLIC \"-//Recordare//DTD MusicXML 3.0 Timewise//EN\" \"http://www.musicxml.org/dtds/timewise.dtd\""
  else chars "score-partwise PUBLIC \"-//Recordare//DTD MusicXML 3.0 Partwise//EN\" \"http://www.musicxml.org/dtds/partwise.dtd\""

/-- `Document::toStream`, private/mx/core/Document.cpp 113-134 and Document.h 37. -/
def documentToStream (d : CDoc) : Option Str :=
  (toStream 0 d.root).map fun s =>
    chars "<?xml version=\"1.0\" encoding=\"UTF-8\" standalone=\"no\"?>" ++ '\n' :: (chars "<!DOCTYPE " ++ doctypeValue d.timewise ++ ['>', '\n'] ++ s)

/-- `setDoctypeValue`, private/mx/ezxml/src/private/private/PugiDoc.cpp 403-461, 542-568: behind the declaration, which is always the first node. -/
def setDoctype (v : Str) : List XNode → List XNode
  | d :: .doctype _ :: r => d :: .doctype v :: r
  | d :: r => d :: .doctype v :: r
  | [] => []

/-- `DocumentManager::writeToStream`: `Document::toXDoc` and `saveStream`, private/mx/core/Document.cpp 137-159, private/mx/api/DocumentManager.cpp 164-178; `none`: an exception. -/
def save (d : CDoc) : Option Str :=
  (documentToStream d).bind fun s => (loadStream s).map fun nodes => print (setDoctype (doctypeValue d.timewise) nodes)

/-- What the objects of a document hold: name, attributes, processing instructions, text and children of an element. -/
inductive Elem where
  | mk (name : Str) (attrs : List (Str × Str)) (pis : List Instr) (value : Str) (kids : List Elem)

/-- The processing instructions at the start of a list of nodes, private/mx/core/ElementInterface.cpp 137-153 and 156-164; a name is never empty. -/
def leadingInstrs (isChild : Bool) : List XNode → List Instr
  | .pi n v :: r => ⟨n, v.getD [], isChild⟩ :: leadingInstrs isChild r
  | _ => []

mutual
/-- `ElementInterface::fromXElement`, private/mx/core/ElementInterface.cpp 119-167, on an element and the nodes behind it.  Each child is read into an object (which child the classes read, and in what order, is
the subject of ContentReader.lean); `none`: a text between elements, at which `PugiElement` throws (private/mx/ezxml/src/private/private/PugiElement.cpp 24-38). -/
def fromNode (after : List XNode) : XNode → Option Elem
  | .elem n a kids =>
    match typeOf kids with
    | .text => some (.mk n a (leadingInstrs false after) (textOf kids) [])
    | .empty => some (.mk n a (leadingInstrs false after) [] [])
    | .element => (fromNodes kids).map fun ks => .mk n a (leadingInstrs true kids ++ leadingInstrs false after) [] ks
  | _ => none
def fromNodes : List XNode → Option (List Elem)
  | [] => some []
  | .pi _ _ :: r => fromNodes r
  | x :: r => (fromNode r x).bind fun e => (fromNodes r).map fun es => e :: es
end

/-- `DocumentManager::createFromStream`: `loadStream` and `Document::fromXDoc`, private/mx/core/Document.cpp 162-181, private/mx/api/DocumentManager.cpp 108-125; `none`: an exception. -/
def load (s : Str) : Option (Bool × Elem) :=
  (loadStream s).bind fun nodes => (root nodes).bind fun x => (fromNode x.2 x.1).bind fun e =>
    match e with
    | .mk n _ _ _ _ => if n = chars "score-partwise" then some (false, e) else if n = chars "score-timewise" then some (true, e) else none

end Mx.XmlDoc
