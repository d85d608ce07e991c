import Verif.Spec.XmlFile
import Verif.Model.XmlDocument

/-
What is kept of a document that is saved as text and loaded again.
-/
namespace Spec
open Mx.XmlDoc

mutual
/-- What an element holds, whatever the line ends and the indentation are. -/
def contents : CElem → Elem
  | .text n a p v _ => .mk n a p v []
  | .node n a p ks _ _ => .mk n a p [] (contentsAll ks)
def contentsAll : CKids → List Elem
  | .nil _ => []
  | .cons _ e r => contents e :: contentsAll r
end

/-- In attribute values tabs and line ends become spaces (3.3.3). -/
def blanks : List Char → List Char
  | [] => []
  | '\r' :: '\n' :: r => ' ' :: blanks r
  | c :: r => (if XmlSpace c then ' ' else c) :: blanks r

/-- A processing instruction without the white space in front of its data, behind an element or (`child`) at the start of its contents. -/
def keptInstr (child : Bool) (i : Instr) : Instr := ⟨i.name, i.data.dropWhile (fun c => decide (XmlSpace c)), child⟩

/-- Texts of nothing but white space are dropped. -/
def keptText (v : List Char) : List Char := if ∀ c ∈ v, XmlSpace c then [] else lineEnds v

/-- Only elements with children keep processing instructions at the start of their contents; in all others the instructions end up behind the element. -/
def keptInstrs (hasKids : Bool) (p : List Instr) : List Instr :=
  if hasKids then (p.filter (·.isChild)).map (keptInstr true) ++ (p.filter (fun i => !i.isChild)).map (keptInstr false) else p.map (keptInstr false)

mutual
/-- What is kept of an element. -/
def kept : Elem → Elem
  | .mk n a p v ks => .mk n (a.map fun x => (x.1, blanks x.2)) (keptInstrs (!ks.isEmpty) p) (keptText v) (keptAll ks)
def keptAll : List Elem → List Elem
  | [] => []
  | e :: es => kept e :: keptAll es
end

/-- Attributes that can be written: XML names, no double quotes (which are not escaped) and no zero bytes. -/
def AttrOk (x : List Char × List Char) : Prop := XmlName x.1 ∧ '"' ∉ x.2 ∧ '\x00' ∉ x.2

/-- Processing instructions that can be written: a name other than `xml`, no `?>` in the data and no zero bytes. -/
def InstrOk (i : Instr) : Prop := XmlName i.name ∧ i.name.map Char.toLower ≠ "xml".toList ∧ ¬ ("?>".toList <:+: i.data) ∧ '\x00' ∉ i.data

mutual
/-- Elements that can be written: XML names, no zero bytes, no double quotes in attributes. -/
def Writable : Elem → Prop
  | .mk n a p v ks => XmlName n ∧ (∀ x ∈ a, AttrOk x) ∧ (∀ i ∈ p, InstrOk i) ∧ '\x00' ∉ v ∧ WritableAll ks
def WritableAll : List Elem → Prop
  | [] => True
  | e :: es => Writable e ∧ WritableAll es
end

mutual
/-- Between the children of an element there is nothing but white space. -/
def Laid : CElem → Prop
  | .text .. => True
  | .node _ _ _ ks _ _ => LaidKids ks
def LaidKids : CKids → Prop
  | .nil l => ∀ c ∈ l, XmlSpace c
  | .cons g e r => (∀ c ∈ g, XmlSpace c) ∧ Laid e ∧ LaidKids r
end

/-- The root element of a document. -/
def rootName (timewise : Bool) : List Char := if timewise then "score-timewise".toList else "score-partwise".toList

/-- Documents that can be written. -/
def DocOk (d : CDoc) : Prop := Writable (contents d.root) ∧ Laid d.root ∧ ∃ a p v ks, contents d.root = .mk (rootName d.timewise) a p v ks

/-- Values without tabs and line ends. -/
def OneLine (v : List Char) : Prop := '\t' ∉ v ∧ '\n' ∉ v ∧ '\r' ∉ v

mutual
/-- Elements of which nothing is changed: no tabs or line ends in attributes, no carriage returns and no mere white space as text, no white space in front of the data of instructions, the instructions in order, and none inside
an element without children. -/
def Unchanged : Elem → Prop
  | .mk _ a p v ks =>
    (∀ x ∈ a, OneLine x.2) ∧ (∀ i ∈ p, ∀ c r, i.data = c :: r → ¬ XmlSpace c) ∧ (p = p.filter (·.isChild) ++ p.filter fun i => !i.isChild) ∧ (ks = [] → ∀ i ∈ p, i.isChild = false)
      ∧ '\r' ∉ v ∧ (v = [] ∨ ∃ c ∈ v, ¬ XmlSpace c) ∧ UnchangedAll ks
def UnchangedAll : List Elem → Prop
  | [] => True
  | e :: es => Unchanged e ∧ UnchangedAll es
end

/-- The instructions in front of the next element; white space and comments do not count. -/
def nextInstructions (child : Bool) : List XmlPiece → List Instr
  | .space _ :: r => nextInstructions child r
  | .comment _ :: r => nextInstructions child r
  | .instruction n _ d :: r => ⟨n, d, child⟩ :: nextInstructions child r
  | .bare n :: r => ⟨n, [], child⟩ :: nextInstructions child r
  | _ => []

mutual
/-- The element a piece stands for, if it is one, with the instructions behind it (among the pieces `after`). -/
def pieceElem (after : List XmlPiece) : XmlPiece → List Elem
  | .space _ => []
  | .comment _ => []
  | .instruction .. => []
  | .bare _ => []
  | .empty n a _ => [.mk n (attrValues a) (nextInstructions false after) [] []]
  | .text n a _ _ v _ => [.mk n (attrValues a) (nextInstructions false after) v []]
  | .cdata n a _ s _ => [.mk n (attrValues a) (nextInstructions false after) (lineEnds s) []]
  | .node n a _ ks _ => [.mk n (attrValues a) ((if (pieceElems ks).isEmpty then [] else nextInstructions true ks) ++ nextInstructions false after) [] (pieceElems ks)]
/-- The elements that pieces stand for. -/
def pieceElems : List XmlPiece → List Elem
  | [] => []
  | p :: ps => pieceElem ps p ++ pieceElems ps
end

/-- An XML declaration as it has to be (2.8): version, perhaps encoding, perhaps standalone, in this order; the encoding is UTF-8. -/
def DeclarationOk (a : List AttrText) : Prop :=
  (∃ v s, a.map (·.name) = "version".toList :: (v ++ s) ∧ (v = [] ∨ v = ["encoding".toList]) ∧ (s = [] ∨ s = ["standalone".toList]))
    ∧ ∀ x ∈ a, x.name = "encoding".toList → x.value.map Char.toLower = "utf-8".toList

end Spec
