import Verif.Spec.XmlFile

/-
Files that are not well formed: a well formed beginning, and a place at which the tags do not fit together or a tag is not spelt right.
-/
namespace Spec

/-- An element that has been begun: its start tag and complete pieces of its contents. -/
structure Begun where
  name : List Char
  attrs : List AttrText := []
  gap : List Char := []
  kids : List XmlPiece := []

def Begun.text (b : Begun) : List Char := tagText b.name b.attrs b.gap ++ '>' :: piecesText b.kids

def Begun.Ok (b : Begun) : Prop := TagOk b.name b.attrs b.gap ∧ PiecesOk b.kids

/-- The beginning of a file: perhaps a byte order mark, a declaration, a document type; complete pieces in front of and behind it; elements that have been begun, one in the other, the outermost first. -/
structure Beginning where
  mark : Bool := false
  declaration : Option (List AttrText × List Char) := none
  before : List XmlPiece := []
  doctype : Option (List Char) := none
  between : List XmlPiece := []
  begun : List Begun := []

def Beginning.text (d : Beginning) : List Char :=
  (if d.mark then ['\xef', '\xbb', '\xbf'] else []) ++ (declarationText d.declaration ++ (piecesText d.before ++ (doctypeText d.doctype ++ (piecesText d.between ++ d.begun.flatMap Begun.text))))

structure Beginning.Ok (d : Beginning) : Prop where
  declaration : ∀ a g, d.declaration = some (a, g) → (∀ x ∈ a, x.Ok) ∧ (∀ c ∈ g, XmlSpace c) ∧ ¬ ("?>".toList <:+: a.flatMap AttrText.text ++ g)
  before : PiecesOk d.before
  doctype : ∀ t, d.doctype = some t → DoctypeText t
  between : PiecesOk d.between
  begun : ∀ b ∈ d.begun, b.Ok

/-- The name of the element that has to be ended next. -/
def Beginning.current (d : Beginning) : Option (List Char) := d.begun.getLast?.map (·.name)

/-- What is wrong in a start tag, behind attributes that are right. -/
inductive BrokenAttr : List Char → Prop
  /-- An attribute without a value. -/
  | noEquals {g m w c s} : g ≠ [] → (∀ c ∈ g ++ w, XmlSpace c) → XmlName m → ¬ XmlSpace c → c ≠ '=' → (w = [] → ¬ XmlNameChar c) → BrokenAttr (g ++ (m ++ (w ++ c :: s)))
  /-- A value without quotes. -/
  | noQuote {g m w w' c s} : g ≠ [] → (∀ c ∈ g ++ w ++ w', XmlSpace c) → XmlName m → ¬ XmlSpace c → c ≠ '"' → c ≠ '\'' → BrokenAttr (g ++ (m ++ (w ++ '=' :: (w' ++ c :: s))))
  /-- A value that does not end. -/
  | openValue {g m w w' q s} : g ≠ [] → (∀ c ∈ g ++ w ++ w', XmlSpace c) → XmlName m → q = '"' ∨ q = '\'' → q ∉ s → BrokenAttr (g ++ (m ++ (w ++ '=' :: (w' ++ q :: s))))
  /-- A character that has no place in a start tag. -/
  | strange {g c s} : (∀ c ∈ g, XmlSpace c) → ¬ XmlSpace c → ¬ XmlNameChar c → c ≠ '>' → c ≠ '/' → BrokenAttr (g ++ c :: s)
  /-- A slash that is not followed by `>`. -/
  | slash {g s} : (∀ c ∈ g, XmlSpace c) → s.head? ≠ some '>' → BrokenAttr (g ++ '/' :: s)
  /-- The file ends in the tag. -/
  | unfinished {g} : (∀ c ∈ g, XmlSpace c) → BrokenAttr g

/-- What is wrong with the rest of a file, behind a well formed beginning; `current` is the name of the element that has to be ended next. -/
inductive Broken : Option (List Char) → List Char → Prop
  /-- The file ends inside of an element. -/
  | unfinished {n} : Broken (some n) []
  /-- An end tag where no element has been begun. -/
  | lonelyEnd {s} : Broken none ('<' :: '/' :: s)
  /-- An end tag with another name, or without one. -/
  | wrongEnd {n m s} : (∀ c ∈ m, XmlNameChar c) → m ≠ n → (∀ c r, s = c :: r → ¬ XmlNameChar c) → Broken (some n) ('<' :: '/' :: (m ++ s))
  /-- An end tag with something in it that is not white space. -/
  | crookedEnd {n g c s} : XmlName n → (∀ c ∈ g, XmlSpace c) → ¬ XmlSpace c → ¬ XmlNameChar c → c ≠ '>' → Broken (some n) ('<' :: '/' :: (n ++ (g ++ c :: s)))
  /-- The file ends in an end tag. -/
  | unfinishedEnd {n g} : XmlName n → (∀ c ∈ g, XmlSpace c) → Broken (some n) ('<' :: '/' :: (n ++ g))
  /-- Neither a name nor `/`, `?` or `!` behind `<`. -/
  | noTag {o c s} : ¬ XmlNameStart c → c ≠ '/' → c ≠ '?' → c ≠ '!' → Broken o ('<' :: c :: s)
  | lastTag {o} : Broken o ['<']
  /-- `<!` that is no comment, CDATA section or document type. -/
  | noMarkup {o s} : ¬ ("--".toList <+: s) → ¬ ("[CDATA[".toList <+: s) → ¬ ("DOCTYPE".toList <+: s) → Broken o ('<' :: '!' :: s)
  /-- A comment, a CDATA section, a processing instruction that does not end. -/
  | openComment {o s} : ¬ ("-->".toList <:+: s) → Broken o ('<' :: '!' :: '-' :: '-' :: s)
  | openSection {o s} : ¬ ("]]>".toList <:+: s) → Broken o ('<' :: '!' :: '[' :: 'C' :: 'D' :: 'A' :: 'T' :: 'A' :: '[' :: s)
  | openInstruction {o n s} : XmlName n → (∀ c r, s = c :: r → XmlSpace c) → ¬ ("?>".toList <:+: s) → Broken o ('<' :: '?' :: (n ++ s))
  /-- `<?` without a name, or with something behind the name that is neither white space nor `?>`. -/
  | noInstruction {o s} : (∀ c r, s = c :: r → ¬ XmlNameStart c) → Broken o ('<' :: '?' :: s)
  | crookedInstruction {o n c s} : XmlName n → ¬ XmlNameChar c → ¬ XmlSpace c → (c = '?' → s.head? ≠ some '>') → Broken o ('<' :: '?' :: (n ++ c :: s))
  /-- A document type that does not end, also because of a quote. -/
  | openDoctype {o t} : DoctypeText t → Broken o ('<' :: '!' :: 'D' :: 'O' :: 'C' :: 'T' :: 'Y' :: 'P' :: 'E' :: t)
  | openLiteral {o t q s} : DoctypeText t → q = '"' ∨ q = '\'' → q ∉ s → Broken o ('<' :: '!' :: 'D' :: 'O' :: 'C' :: 'T' :: 'Y' :: 'P' :: 'E' :: (t ++ q :: s))
  /-- A declaration or a document type inside of an element. -/
  | lateDeclaration {m n s} : XmlName n → n.map Char.toLower = "xml".toList → (∀ c r, s = c :: r → ¬ XmlNameChar c) → Broken (some m) ('<' :: '?' :: (n ++ s))
  | lateDoctype {m s} : Broken (some m) ('<' :: '!' :: 'D' :: 'O' :: 'C' :: 'T' :: 'Y' :: 'P' :: 'E' :: s)
  /-- A start tag that is not spelt right. -/
  | tag {o n as t} : TagOk n as [] → BrokenAttr t → Broken o ('<' :: (n ++ (as.flatMap AttrText.text ++ t)))
  /-- Attributes without white space between them. -/
  | crowded {o n as c s} : TagOk n as [] → as ≠ [] → XmlNameStart c → Broken o ('<' :: (n ++ (as.flatMap AttrText.text ++ c :: s)))

end Spec
