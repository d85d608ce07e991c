import Verif.Model.Basic

/-
The XML parser of the program, pugixml as it is used by `PugiDoc::loadStream`: private/mx/ezxml/src/private/private/pugixml.cpp with the options `parse_cdata`, `parse_escapes`,
`parse_wconv_attribute`, `parse_eol`, `parse_declaration`, `parse_doctype` and `parse_pi` (PugiDoc.cpp 13-14 in the same directory).

A text is a list of bytes, each given as the character of the same code.  The parser works in place on a buffer that ends with a zero byte; the model is a function of the text in front
of the first zero byte, and the end of the list stands for the zero byte.  As the buffer of a stream has a zero byte added to it (`zero_terminate_buffer`, 4765-4787), `endch` is zero
in `parse` (3518), so that no last character has to be put back.  Not modelled: texts in UTF-16, UTF-32 and Latin-1 (`guess_buffer_encoding`, 1972-2018), want of memory, and the
different error codes: every error is `none`, as `PugiDoc::loadStream` throws an exception for each of them.
-/
namespace Mx.Pugi

/-- A node of the document: `xml_node_struct`, private/mx/ezxml/src/private/private/pugixml.cpp; the types `node_element`, `node_pcdata`, `node_cdata`, `node_pi`,
`node_declaration`, `node_doctype`.  A processing instruction may have no value at all. -/
inductive XNode where
  | elem (name : Str) (attrs : List (Str × Str)) (kids : List XNode)
  | pcdata (text : Str)
  | cdata (text : Str)
  | pi (name : Str) (value : Option Str)
  | decl (name : Str) (attrs : List (Str × Str))
  | doctype (value : Str)

/-! ### Characters -/

/-- `chartype_table`, private/mx/ezxml/src/private/private/pugixml.cpp 1840-1859, the first half; all entries of the second half are 192. -/
def charTable : List Nat := [
  55,  0,   0,   0,   0,   0,   0,   0,      0,   12,  12,  0,   0,   63,  0,   0,
  0,   0,   0,   0,   0,   0,   0,   0,      0,   0,   0,   0,   0,   0,   0,   0,
  8,   0,   6,   0,   0,   0,   7,   6,      0,   0,   0,   0,   0,   96,  64,  0,
  64,  64,  64,  64,  64,  64,  64,  64,     64,  64,  192, 0,   1,   0,   48,  0,
  0,   192, 192, 192, 192, 192, 192, 192,    192, 192, 192, 192, 192, 192, 192, 192,
  192, 192, 192, 192, 192, 192, 192, 192,    192, 192, 192, 0,   0,   16,  0,   192,
  0,   192, 192, 192, 192, 192, 192, 192,    192, 192, 192, 192, 192, 192, 192, 192,
  192, 192, 192, 192, 192, 192, 192, 192,    192, 192, 192, 0, 0, 0, 0, 0]

/-- `PUGI__IS_CHARTYPE( c, 1 << bit )`, private/mx/ezxml/src/private/private/pugixml.cpp 1895-1898.  A character that is no byte counts as one above 127. -/
def charType (bit : Nat) (c : Char) : Bool := ((charTable[c.toNat]?).getD 192).testBit bit

/-- `ct_space`, private/mx/ezxml/src/private/private/pugixml.cpp 1833. -/
def isSpace (c : Char) : Bool := charType 3 c
/-- `ct_symbol`, private/mx/ezxml/src/private/private/pugixml.cpp 1836. -/
def isSymbol (c : Char) : Bool := charType 6 c
/-- `ct_start_symbol`, private/mx/ezxml/src/private/private/pugixml.cpp 1837. -/
def isStart (c : Char) : Bool := charType 7 c

/-- `PUGI__SKIPWS`, private/mx/ezxml/src/private/private/pugixml.cpp 2588. -/
def skipWs (s : Str) : Str := s.dropWhile isSpace

/-- The next character begins a name. -/
def startsName (s : Str) : Bool := (s.head?.map isStart).getD false

/-! ### Entities -/

/-- `utf8_writer::any`, private/mx/ezxml/src/private/private/pugixml.cpp 1473-1511. -/
def utf8Bytes (n : Nat) : Str :=
  if n < 0x10000 then
    if n < 0x80 then [Char.ofNat n]
    else if n < 0x800 then [Char.ofNat (0xC0 ||| (n >>> 6)), Char.ofNat (0x80 ||| (n &&& 0x3F))]
    else [Char.ofNat (0xE0 ||| (n >>> 12)), Char.ofNat (0x80 ||| ((n >>> 6) &&& 0x3F)), Char.ofNat (0x80 ||| (n &&& 0x3F))]
  else [Char.ofNat ((0xF0 ||| (n >>> 18)) % 256), Char.ofNat (0x80 ||| ((n >>> 12) &&& 0x3F)), Char.ofNat (0x80 ||| ((n >>> 6) &&& 0x3F)), Char.ofNat (0x80 ||| (n &&& 0x3F))]

/-- The decimal digit of a code, private/mx/ezxml/src/private/private/pugixml.cpp 2488-2489. -/
def decDigit (c : Char) : Option Nat := if '0' ≤ c ∧ c ≤ '9' then some (c.toNat - 48) else none

/-- The hexadecimal digit of a code, private/mx/ezxml/src/private/private/pugixml.cpp 2466-2469. -/
def hexDigit (c : Char) : Option Nat :=
  if '0' ≤ c ∧ c ≤ '9' then some (c.toNat - 48)
  else if 'a' ≤ c ∧ c ≤ 'f' then some (c.toNat - 87)
  else if 'A' ≤ c ∧ c ≤ 'F' then some (c.toNat - 55)
  else none

/-- The loops over the digits, private/mx/ezxml/src/private/private/pugixml.cpp 2464-2478 and 2486-2498: an `unsigned int` of 32 bits. -/
def digits (base : Nat) (digit : Char → Option Nat) : Nat → Str → Option (Nat × Str)
  | _, [] => none
  | acc, c :: r =>
    match digit c with
    | some d => digits base digit ((base * acc + d) % 2 ^ 32) r
    | none => if c = ';' then some (acc, r) else none

/-- A code without digits is left as it is, private/mx/ezxml/src/private/private/pugixml.cpp 2462 and 2484. -/
def code (base : Nat) (digit : Char → Option Nat) (r : Str) : Option (Str × Str) :=
  if r.head? = some ';' then none else (digits base digit 0 r).map fun x => (utf8Bytes x.1, x.2)

/-- `strconv_escape`, private/mx/ezxml/src/private/private/pugixml.cpp 2446-2584, on the text behind `&`: what the entity stands for, and the text behind it.  `none`: no known entity;
the code then goes on behind the characters it has looked at, which are all ordinary ones, the model goes on behind the `&`. -/
def entity : Str → Option (Str × Str)
  | '#' :: 'x' :: r => code 16 hexDigit r
  | '#' :: r => code 10 decDigit r
  | 'a' :: 'm' :: 'p' :: ';' :: r => some (['&'], r)
  | 'a' :: 'p' :: 'o' :: 's' :: ';' :: r => some (['\''], r)
  | 'g' :: 't' :: ';' :: r => some (['>'], r)
  | 'l' :: 't' :: ';' :: r => some (['<'], r)
  | 'q' :: 'u' :: 'o' :: 't' :: ';' :: r => some (['"'], r)
  | _ => none

/-- A value is a text that ends with a zero byte: what is behind a `&#0;` is lost. -/
def cString (s : Str) : Str := s.takeWhile (fun c => c ≠ '\x00')

/-- `strconv_pcdata_impl< opt_false, opt_true, opt_true >::parse`, private/mx/ezxml/src/private/private/pugixml.cpp 2657-2706: the text up to the next `<`, and the rest (with the `<`).
The first argument is a bound on the number of steps. -/
def pcdata : Nat → Str → Str × Str
  | 0, s => ([], s)
  | _ + 1, [] => ([], [])
  | n + 1, c :: r =>
    if c = '<' then ([], c :: r)
    else if c = '\r' then
      if r.head? = some '\n' then ('\n' :: (pcdata n r.tail).1, (pcdata n r.tail).2) else ('\n' :: (pcdata n r).1, (pcdata n r).2)
    else if c = '&' then
      match entity r with
      | some (o, r') => (o ++ (pcdata n r').1, (pcdata n r').2)
      | none => (c :: (pcdata n r).1, (pcdata n r).2)
    else (c :: (pcdata n r).1, (pcdata n r).2)

/-- `strconv_attribute_impl< opt_true >::parse_wconv`, private/mx/ezxml/src/private/private/pugixml.cpp 2782-2816: the value up to the quote, and the text behind the quote. -/
def attrValue (quote : Char) : Nat → Str → Option (Str × Str)
  | 0, _ => none
  | _ + 1, [] => none
  | n + 1, c :: r =>
    if c = quote then some ([], r)
    else if isSpace c then
      if c = '\r' ∧ r.head? = some '\n' then (attrValue quote n r.tail).map fun x => (' ' :: x.1, x.2)
      else (attrValue quote n r).map fun x => (' ' :: x.1, x.2)
    else if c = '&' then
      match entity r with
      | some (o, r') => (attrValue quote n r').map fun x => (o ++ x.1, x.2)
      | none => (attrValue quote n r).map fun x => (c :: x.1, x.2)
    else (attrValue quote n r).map fun x => (c :: x.1, x.2)

/-- `strconv_cdata`, private/mx/ezxml/src/private/private/pugixml.cpp 2627-2653, and 3114: the text up to `]]>`, and the rest behind it. -/
def cdataText : Str → Option (Str × Str)
  | [] => none
  | ']' :: ']' :: '>' :: r => some ([], r)
  | '\r' :: '\n' :: r => (cdataText r).map fun x => ('\n' :: x.1, x.2)
  | '\r' :: r => (cdataText r).map fun x => ('\n' :: x.1, x.2)
  | c :: r => (cdataText r).map fun x => (c :: x.1, x.2)

/-! ### Document type -/

/-- Behind the next quote: private/mx/ezxml/src/private/private/pugixml.cpp 2934-2938. -/
def behindQuote (quote : Char) : Str → Option Str
  | [] => none
  | c :: r => if c = quote then some r else behindQuote quote r

/-- Behind the next `?>`: private/mx/ezxml/src/private/private/pugixml.cpp 2943-2947. -/
def behindQuestion : Str → Option Str
  | [] => none
  | '?' :: '>' :: r => some r
  | _ :: r => behindQuestion r

/-- Behind the next `-->`: private/mx/ezxml/src/private/private/pugixml.cpp 2951-2955 and, for comments, 3067-3073. -/
def behindComment : Str → Option Str
  | [] => none
  | '-' :: '-' :: '>' :: r => some r
  | _ :: r => behindComment r

/-- `parse_doctype_primitive`, private/mx/ezxml/src/private/private/pugixml.cpp 2929-2960. -/
def doctypePrimitive : Str → Option Str
  | '"' :: r => behindQuote '"' r
  | '\'' :: r => behindQuote '\'' r
  | '<' :: '?' :: r => behindQuestion r
  | '<' :: '!' :: '-' :: '-' :: r => behindComment r
  | _ => none

/-- `parse_doctype_ignore`, private/mx/ezxml/src/private/private/pugixml.cpp 2962-2991, behind `<![`. -/
def doctypeIgnore : Nat → Str → Option Str
  | _, [] => none
  | depth, '<' :: '!' :: '[' :: r => doctypeIgnore (depth + 1) r
  | depth, ']' :: ']' :: '>' :: r => match depth with | 0 => some r | d + 1 => doctypeIgnore d r
  | depth, _ :: r => doctypeIgnore depth r

/-- The loop of `parse_doctype_group`, private/mx/ezxml/src/private/private/pugixml.cpp 3000-3037: the text from the `>` on that ends the declaration.  The first argument is a bound on the
number of steps. -/
def doctypeGroup : Nat → Nat → Str → Option Str
  | 0, _, _ => none
  | _ + 1, _, [] => none
  | n + 1, depth, '<' :: '!' :: c :: r =>
    if c = '-' then (doctypePrimitive ('<' :: '!' :: c :: r)).bind (doctypeGroup n depth)
    else if c = '[' then (doctypeIgnore 0 r).bind (doctypeGroup n depth)
    else doctypeGroup n (depth + 1) (c :: r)
  | n + 1, depth, c :: r =>
    if c = '<' ∧ r = ['!'] then none
    else if c = '<' ∨ c = '"' ∨ c = '\'' then (doctypePrimitive (c :: r)).bind (doctypeGroup n depth)
    else if c = '>' then match depth with | 0 => some (c :: r) | d + 1 => doctypeGroup n d r
    else doctypeGroup n depth r

/-! ### The tree -/

/-- The node `cursor` points to, with the children it has so far (the last one first). -/
structure Frame where
  isDecl : Bool := false
  name : Str
  attrs : List (Str × Str)
  kids : List XNode := []

/-- `cursor` and the nodes above it up to the document, and the children of the document so far (the last one first). -/
structure St where
  stack : List Frame := []
  top : List XNode := []

/-- A finished node; children of a declaration (which arise if it is not ended by `?>`) are never looked at or written. -/
def Frame.node (f : Frame) : XNode := if f.isDecl then .decl f.name f.attrs else .elem f.name f.attrs f.kids.reverse

/-- `append_new_node`: a node without children of its own is appended to `cursor`. -/
def St.add (x : XNode) (st : St) : St :=
  match st.stack with
  | [] => { st with top := x :: st.top }
  | f :: fs => { st with stack := { f with kids := x :: f.kids } :: fs }

/-- `PUGI__PUSHNODE`, private/mx/ezxml/src/private/private/pugixml.cpp 2590. -/
def St.push (f : Frame) (st : St) : St := { st with stack := f :: st.stack }

/-- The attributes of a start tag, private/mx/ezxml/src/private/private/pugixml.cpp 3273-3347: the attributes, whether the tag ends with `/>`, and the rest behind the tag. -/
def attributes : Nat → Str → Option (List (Str × Str) × Bool × Str)
  | 0, _ => none
  | n + 1, s =>
    let r := skipWs s
    if startsName r then
      match skipWs (r.dropWhile isSymbol) with
      | '=' :: r1 =>
        match skipWs r1 with
        | q :: r2 =>
          if q = '"' ∨ q = '\'' then
            match attrValue q (r2.length + 1) r2 with
            | some (v, r3) =>
              if startsName r3 then none
              else (attributes n r3).map fun x => ((r.takeWhile isSymbol, cString v) :: x.1, x.2)
            | none => none
          else none
        | [] => none
      | _ => none
    else
      match r with
      | '/' :: '>' :: r1 => some ([], true, r1)
      | '>' :: r1 => some ([], false, r1)
      | _ => none

/-- Behind the attributes: the node is finished, or it becomes the one that `cursor` points to. -/
def opened (isDecl : Bool) (name : Str) (st : St) (x : List (Str × Str) × Bool × Str) : Str × St :=
  (x.2.2, if x.2.1 then st.add (Frame.node ⟨isDecl, name, x.1, []⟩) else st.push ⟨isDecl, name, x.1, []⟩)

/-- A start tag, private/mx/ezxml/src/private/private/pugixml.cpp 3258-3367, behind the `<`. -/
def startTag (s : Str) (st : St) : Option (Str × St) :=
  match s.dropWhile isSymbol with
  | [] => none
  | c :: r =>
    if c = '>' then some (r, st.push ⟨false, s.takeWhile isSymbol, [], []⟩)
    else if isSpace c then (attributes (r.length + 1) r).map (opened false (s.takeWhile isSymbol) st)
    else if c = '/' ∧ r.head? = some '>' then some (r.tail, st.add (.elem (s.takeWhile isSymbol) [] []))
    else none

/-- An end tag, private/mx/ezxml/src/private/private/pugixml.cpp 3368-3401, behind the `</`. -/
def endTag (s : Str) (st : St) : Option (Str × St) :=
  match st.stack with
  | [] => none
  | f :: fs =>
    if s.takeWhile isSymbol = f.name then
      match skipWs (s.dropWhile isSymbol) with
      | '>' :: r => some (r, St.add f.node { st with stack := fs })
      | _ => none
    else none

/-- `declaration`, private/mx/ezxml/src/private/private/pugixml.cpp 3166. -/
def isXml (name : Str) : Bool := decide (name.map Char.toLower = ['x', 'm', 'l'])

/-- The text up to the next `?>`, and the rest from it on: private/mx/ezxml/src/private/private/pugixml.cpp 3202-3203. -/
def uptoQuestion : Str → Option (Str × Str)
  | [] => none
  | '?' :: '>' :: r => some ([], '?' :: '>' :: r)
  | c :: r => (uptoQuestion r).map fun x => (c :: x.1, x.2)

/-- `parse_question`, private/mx/ezxml/src/private/private/pugixml.cpp 3148-3240, behind the `<?`, and for a declaration its attributes (3408): the `?` of its end has been replaced by `/`. -/
def question (s : Str) (st : St) : Option (Str × St) :=
  if startsName s then
    match s.dropWhile isSymbol with
    | [] => none
    | c :: r =>
      if isXml (s.takeWhile isSymbol) ∧ st.stack ≠ [] then none
      else if c = '?' then
        if r.head? = some '>' then
          some (r.tail, st.add (if isXml (s.takeWhile isSymbol) then .decl (s.takeWhile isSymbol) [] else .pi (s.takeWhile isSymbol) none))
        else none
      else if isSpace c then
        match uptoQuestion (skipWs r) with
        | none => none
        | some (value, rest) =>
          if isXml (s.takeWhile isSymbol) then
            (attributes (value.length + rest.length + 1) (value ++ '/' :: rest.tail)).map (opened true (s.takeWhile isSymbol) st)
          else some (rest.tail.tail, st.add (.pi (s.takeWhile isSymbol) (some value)))
      else none
  else none

/-- The document type, private/mx/ezxml/src/private/private/pugixml.cpp 3118-3140, behind `<!`.  The value is the text between `DOCTYPE` and `>`. -/
def doctypeTag (s : Str) (st : St) : Option (Str × St) :=
  if st.stack ≠ [] then none
  else (doctypeGroup (s.length + 1) 0 s).map fun r => (r.tail, st.add (.doctype (skipWs ((s.take (s.length - r.length)).drop 7))))

/-- `parse_exclamation`, private/mx/ezxml/src/private/private/pugixml.cpp 3039-3146, behind the `<!`; without `parse_comments` comments are skipped. -/
def exclamation (s : Str) (st : St) : Option (Str × St) :=
  match s with
  | '-' :: '-' :: r => (behindComment r).map fun r' => (r', st)
  | '[' :: 'C' :: 'D' :: 'A' :: 'T' :: 'A' :: '[' :: r => (cdataText r).map fun x => (x.2, st.add (.cdata x.1))
  | 'D' :: 'O' :: 'C' :: 'T' :: 'Y' :: 'P' :: 'E' :: _ => doctypeTag s st
  | _ => none

/-- `LOC_TAG`, private/mx/ezxml/src/private/private/pugixml.cpp 3257-3416, behind the `<`. -/
def tag (s : Str) (st : St) : Option (Str × St) :=
  match s with
  | [] => none
  | c :: r =>
    if isStart c then startTag (c :: r) st
    else if c = '/' then endTag r st
    else if c = '?' then question r st
    else if c = '!' then exclamation r st
    else none

/-- Text, private/mx/ezxml/src/private/private/pugixml.cpp 3418-3471: white space in front of a tag is skipped, text outside of elements too; other text becomes a node.  The code goes on
with the tag without testing for the end again; both ways a `<` at the end is an error. -/
def text (s : Str) (st : St) : Str × St :=
  match skipWs s with
  | [] => ([], st)
  | c :: r =>
    if c = '<' then (c :: r, st)
    else if st.stack ≠ [] then ((pcdata (s.length + 1) s).2, st.add (.pcdata (cString (pcdata (s.length + 1) s).1)))
    else (s.dropWhile (fun c => c ≠ '<'), st)

/-- `parse_tree`, private/mx/ezxml/src/private/private/pugixml.cpp 3242-3478.  The first argument is a bound on the number of turns; each turn consumes a character. -/
def parseTree : Nat → Str → St → Option St
  | 0, _, _ => none
  | n + 1, s, st =>
    match s with
    | [] => if st.stack.isEmpty then some st else none
    | c :: r =>
      if c = '<' then (tag r st).bind fun x => parseTree n x.1 x.2
      else parseTree n (text (c :: r) st).1 (text (c :: r) st).2

/-- `parse_skip_bom`, private/mx/ezxml/src/private/private/pugixml.cpp 3487-3490. -/
def skipBom (s : Str) : Str := if s.take 3 = ['\xef', '\xbb', '\xbf'] then s.drop 3 else s

def XNode.isElem : XNode → Bool
  | .elem .. => true
  | _ => false

/-- `xml_parser::parse`, private/mx/ezxml/src/private/private/pugixml.cpp 3505-3550, for a text with a zero byte added to it: the children of the document, among which there has to be an element. -/
def parse (s : Str) : Option (List XNode) :=
  match parseTree (s.length + 1) (skipBom (cString s)) {} with
  | none => none
  | some st => if st.top.any XNode.isElem then some st.top.reverse else none

end Mx.Pugi
