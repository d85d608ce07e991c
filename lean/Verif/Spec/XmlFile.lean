import Verif.Spec.XmlText
import Verif.Model.XmlParser

/-
The text of an XML document (https://www.w3.org/TR/xml/), for documents whose elements have either a text or children, and what the text stands for.  A text is a list of bytes (UTF-8).
-/
namespace Spec
open Mx.Pugi (XNode)

/-- White space (2.3). -/
@[reducible] def XmlSpace (c : Char) : Prop := c = ' ' ∨ c = '\t' ∨ c = '\n' ∨ c = '\r'

/-- The first character of a name (2.3); bytes above 127 belong to characters of other scripts. -/
@[reducible] def XmlNameStart (c : Char) : Prop := 'a' ≤ c ∧ c ≤ 'z' ∨ 'A' ≤ c ∧ c ≤ 'Z' ∨ c = '_' ∨ c = ':' ∨ 127 < c.toNat

/-- The other characters of a name (2.3). -/
@[reducible] def XmlNameChar (c : Char) : Prop := XmlNameStart c ∨ '0' ≤ c ∧ c ≤ '9' ∨ c = '-' ∨ c = '.'

/-- A name (2.3). -/
def XmlName (s : List Char) : Prop := (∃ c r, s = c :: r ∧ XmlNameStart c) ∧ ∀ c ∈ s, XmlNameChar c

/-- The bytes of a character in UTF-8. -/
def utf8 (n : Nat) : List Char :=
  if n < 128 then [Char.ofNat n]
  else if n < 2048 then [Char.ofNat (192 + n / 64), Char.ofNat (128 + n % 64)]
  else if n < 65536 then [Char.ofNat (224 + n / 4096), Char.ofNat (128 + n / 64 % 64), Char.ofNat (128 + n % 64)]
  else [Char.ofNat (240 + n / 262144), Char.ofNat (128 + n / 4096 % 64), Char.ofNat (128 + n / 64 % 64), Char.ofNat (128 + n % 64)]

/-- The number that digits stand for. -/
def numberOf (base : Nat) (ds : List Nat) : Nat := ds.foldl (fun acc d => base * acc + d) 0

/-- A decimal digit. -/
def decimalDigit (d : Nat) : Char := Char.ofNat (48 + d)

/-- A hexadecimal digit, with an upper or a lower case letter. -/
def hexadecimalDigit (upper : Bool) (d : Nat) : Char := Char.ofNat (if d < 10 then 48 + d else if upper then 55 + d else 87 + d)

/-- A character reference (4.1), without the ampersand, and its character. -/
inductive Reference : List Char → Nat → Prop
  | decimal {ds : List Nat} : ds ≠ [] → (∀ d ∈ ds, d < 10) → 0 < numberOf 10 ds → numberOf 10 ds < 0x110000 →
      Reference ('#' :: (ds.map decimalDigit ++ [';'])) (numberOf 10 ds)
  | hexadecimal {ds : List (Bool × Nat)} : ds ≠ [] → (∀ d ∈ ds, d.2 < 16) → 0 < numberOf 16 (ds.map (·.2)) → numberOf 16 (ds.map (·.2)) < 0x110000 →
      Reference ('#' :: 'x' :: (ds.map (fun d => hexadecimalDigit d.1 d.2) ++ [';'])) (numberOf 16 (ds.map (·.2)))

/-- `e`, between a start tag and an end tag, stands for the text `v`: references are replaced, line ends become `\n`. -/
inductive TextSpells : List Char → List Char → Prop
  | nil : TextSpells [] []
  | char {c e v} : c ≠ '<' → c ≠ '&' → c ≠ '\r' → c ≠ '\x00' → TextSpells e v → TextSpells (c :: e) (c :: v)
  | entity {r c e v} : (r, c) ∈ entities → TextSpells e v → TextSpells ('&' :: (r ++ e)) (c :: v)
  | reference {r n e v} : Reference r n → TextSpells e v → TextSpells ('&' :: (r ++ e)) (utf8 n ++ v)
  | crlf {e v} : TextSpells e v → TextSpells ('\r' :: '\n' :: e) ('\n' :: v)
  | cr {e v} : e.head? ≠ some '\n' → TextSpells e v → TextSpells ('\r' :: e) ('\n' :: v)

/-- `e`, between two quotes `q`, stands for the attribute value `v`: references are replaced, tabs and line ends become spaces. -/
inductive ValueSpells (q : Char) : List Char → List Char → Prop
  | nil : ValueSpells q [] []
  | char {c e v} : c ≠ q → c ≠ '&' → ¬ XmlSpace c → c ≠ '\x00' → ValueSpells q e v → ValueSpells q (c :: e) (c :: v)
  | entity {r c e v} : (r, c) ∈ entities → ValueSpells q e v → ValueSpells q ('&' :: (r ++ e)) (c :: v)
  | reference {r n e v} : Reference r n → ValueSpells q e v → ValueSpells q ('&' :: (r ++ e)) (utf8 n ++ v)
  | crlf {e v} : ValueSpells q e v → ValueSpells q ('\r' :: '\n' :: e) (' ' :: v)
  | space {c e v} : XmlSpace c → (c = '\r' → e.head? ≠ some '\n') → ValueSpells q e v → ValueSpells q (c :: e) (' ' :: v)

/-- An attribute: white space, name, white space, `=`, white space, the value between quotes. -/
structure AttrText where
  gap : List Char
  name : List Char
  before : List Char := []
  behind : List Char := []
  quote : Char := '"'
  spelt : List Char
  value : List Char

def AttrText.text (a : AttrText) : List Char := a.gap ++ a.name ++ a.before ++ '=' :: a.behind ++ a.quote :: a.spelt ++ [a.quote]

def AttrText.Ok (a : AttrText) : Prop :=
  a.gap ≠ [] ∧ (∀ c ∈ a.gap ++ a.before ++ a.behind, XmlSpace c) ∧ XmlName a.name ∧ (a.quote = '"' ∨ a.quote = '\'') ∧ ValueSpells a.quote a.spelt a.value

/-- Line ends become `\n` (2.11). -/
def lineEnds : List Char → List Char
  | [] => []
  | '\r' :: '\n' :: r => '\n' :: lineEnds r
  | '\r' :: r => '\n' :: lineEnds r
  | c :: r => c :: lineEnds r

/-- A piece of a document: white space, a comment, a processing instruction with or without data, an empty element `<n …/>`, an element with a text, an element with a CDATA section, an element with children. -/
inductive XmlPiece where
  | space (s : List Char)
  | comment (s : List Char)
  | instruction (name gap data : List Char)
  | bare (name : List Char)
  | empty (name : List Char) (attrs : List AttrText) (gap : List Char)
  | text (name : List Char) (attrs : List AttrText) (gap : List Char) (spelt value : List Char) (endGap : List Char)
  | cdata (name : List Char) (attrs : List AttrText) (gap : List Char) (section_ : List Char) (endGap : List Char)
  | node (name : List Char) (attrs : List AttrText) (gap : List Char) (kids : List XmlPiece) (endGap : List Char)

/-- Start tag without its end. -/
def tagText (name : List Char) (attrs : List AttrText) (gap : List Char) : List Char := '<' :: name ++ attrs.flatMap AttrText.text ++ gap

def endTagText (name : List Char) (gap : List Char) : List Char := '<' :: '/' :: name ++ gap ++ ['>']

mutual
def XmlPiece.text' : XmlPiece → List Char
  | .space s => s
  | .comment s => '<' :: '!' :: '-' :: '-' :: s ++ ['-', '-', '>']
  | .instruction n g d => '<' :: '?' :: n ++ g ++ d ++ ['?', '>']
  | .bare n => '<' :: '?' :: n ++ ['?', '>']
  | .empty n a g => tagText n a g ++ ['/', '>']
  | .text n a g e _ g' => tagText n a g ++ '>' :: e ++ endTagText n g'
  | .cdata n a g s g' => tagText n a g ++ '>' :: '<' :: '!' :: '[' :: 'C' :: 'D' :: 'A' :: 'T' :: 'A' :: '[' :: s ++ [']', ']', '>'] ++ endTagText n g'
  | .node n a g ks g' => tagText n a g ++ '>' :: piecesText ks ++ endTagText n g'
/-- The text of pieces one after the other. -/
def piecesText : List XmlPiece → List Char
  | [] => []
  | p :: ps => p.text' ++ piecesText ps
end

def attrValues (l : List AttrText) : List (List Char × List Char) := l.map fun a => (a.name, a.value)

mutual
/-- The node a piece stands for; none for white space and comments. -/
def XmlPiece.nodes : XmlPiece → List XNode
  | .space _ => []
  | .comment _ => []
  | .instruction n _ d => [.pi n (some d)]
  | .bare n => [.pi n none]
  | .empty n a _ => [.elem n (attrValues a) []]
  | .text n a _ _ v _ => [.elem n (attrValues a) [.pcdata v]]
  | .cdata n a _ s _ => [.elem n (attrValues a) [.cdata (lineEnds s)]]
  | .node n a _ ks _ => [.elem n (attrValues a) (piecesNodes ks)]
def piecesNodes : List XmlPiece → List XNode
  | [] => []
  | p :: ps => p.nodes ++ piecesNodes ps
end

/-- Start tags: a name, attributes, white space. -/
def TagOk (n : List Char) (a : List AttrText) (g : List Char) : Prop := XmlName n ∧ (∀ x ∈ a, x.Ok) ∧ ∀ c ∈ g, XmlSpace c

/-- Instructions: a name other than `xml`, white space, data without `?>` that do not begin with white space. -/
def InstructionOk (n g d : List Char) : Prop :=
  XmlName n ∧ n.map Char.toLower ≠ "xml".toList ∧ g ≠ [] ∧ (∀ c ∈ g, XmlSpace c) ∧ ¬ ("?>".toList <:+: d) ∧ (∀ c r, d = c :: r → ¬ XmlSpace c) ∧ '\x00' ∉ d

mutual
/-- Well formed pieces.  A text that consists of white space only would be no text for the parser. -/
def XmlPiece.Ok : XmlPiece → Prop
  | .space s => ∀ c ∈ s, XmlSpace c
  | .comment s => ¬ ("--".toList <:+: s) ∧ s.getLast? ≠ some '-' ∧ '\x00' ∉ s
  | .instruction n g d => InstructionOk n g d
  | .bare n => XmlName n ∧ n.map Char.toLower ≠ "xml".toList
  | .empty n a g => TagOk n a g
  | .text n a g e v g' => TagOk n a g ∧ (∀ c ∈ g', XmlSpace c) ∧ TextSpells e v ∧ ∃ c ∈ e, ¬ XmlSpace c
  | .cdata n a g s g' => TagOk n a g ∧ (∀ c ∈ g', XmlSpace c) ∧ ¬ ("]]>".toList <:+: s) ∧ '\x00' ∉ s
  | .node n a g ks g' => TagOk n a g ∧ (∀ c ∈ g', XmlSpace c) ∧ PiecesOk ks
def PiecesOk : List XmlPiece → Prop
  | [] => True
  | p :: ps => p.Ok ∧ PiecesOk ps
end

/-- The text of a document type declaration (2.8) behind `DOCTYPE`, without markup declarations: quoted literals and other characters. -/
inductive DoctypeText : List Char → Prop
  | nil : DoctypeText []
  | char {c s} : c ≠ '<' → c ≠ '>' → c ≠ '"' → c ≠ '\'' → c ≠ '\x00' → DoctypeText s → DoctypeText (c :: s)
  | literal {q l s} : q = '"' ∨ q = '\'' → q ∉ l → '\x00' ∉ l → DoctypeText s → DoctypeText (q :: (l ++ q :: s))

/-- A document (2.1, 2.8): perhaps a byte order mark, perhaps an XML declaration, instructions and comments, perhaps a document type declaration, instructions and comments, the root element, instructions and comments. -/
structure XmlText where
  mark : Bool := false
  declaration : Option (List AttrText × List Char) := none
  before : List XmlPiece := []
  doctype : Option (List Char) := none
  between : List XmlPiece := []
  root : XmlPiece
  after : List XmlPiece := []

def declarationText : Option (List AttrText × List Char) → List Char
  | none => []
  | some (a, g) => ['<', '?', 'x', 'm', 'l'] ++ a.flatMap AttrText.text ++ g ++ ['?', '>']

def doctypeText : Option (List Char) → List Char
  | none => []
  | some d => ['<', '!', 'D', 'O', 'C', 'T', 'Y', 'P', 'E'] ++ d ++ ['>']

/-- The text of a document. -/
def XmlText.text (d : XmlText) : List Char :=
  (if d.mark then ['\xef', '\xbb', '\xbf'] else []) ++ declarationText d.declaration ++ piecesText d.before ++ doctypeText d.doctype ++ piecesText d.between ++ d.root.text' ++ piecesText d.after

/-- White space, comments and instructions. -/
def XmlPiece.isMisc : XmlPiece → Bool
  | .space _ => true
  | .comment _ => true
  | .instruction .. => true
  | .bare _ => true
  | _ => false

/-- Well formed documents. -/
structure XmlText.Ok (d : XmlText) : Prop where
  declaration : ∀ a g, d.declaration = some (a, g) → (∀ x ∈ a, x.Ok) ∧ (∀ c ∈ g, XmlSpace c) ∧ ¬ ("?>".toList <:+: a.flatMap AttrText.text ++ g)
  before : PiecesOk d.before ∧ ∀ p ∈ d.before, p.isMisc = true
  doctype : ∀ t, d.doctype = some t → DoctypeText t
  between : PiecesOk d.between ∧ ∀ p ∈ d.between, p.isMisc = true
  root : d.root.Ok ∧ d.root.isMisc = false
  after : PiecesOk d.after ∧ ∀ p ∈ d.after, p.isMisc = true

end Spec
