import Verif.Model.XmlParser

/-
How pugixml writes a document, as it is used by `PugiDoc::saveStream`: `format_indent` with two blanks (private/mx/ezxml/src/private/private/PugiDoc.cpp 171-193, without a byte order mark),
private/mx/ezxml/src/private/private/pugixml.cpp 3906-4327.
-/
namespace Mx.Pugi

/-- `chartypex_table`, private/mx/ezxml/src/private/private/pugixml.cpp 1870-1880, the first half; all entries of the second half are 20. -/
def charTablex : List Nat := [
  3,  3,  3,  3,  3,  3,  3,  3,     3,  2,  2,  3,  3,  2,  3,  3,
  3,  3,  3,  3,  3,  3,  3,  3,     3,  3,  3,  3,  3,  3,  3,  3,
  0,  0,  2,  0,  0,  0,  3,  2,     0,  0,  0,  0,  0, 16, 16,  0,
  24, 24, 24, 24, 24, 24, 24, 24,    24, 24, 0,  0,  3,  0,  1,  0,
  0,  20, 20, 20, 20, 20, 20, 20,    20, 20, 20, 20, 20, 20, 20, 20,
  20, 20, 20, 20, 20, 20, 20, 20,    20, 20, 20, 0,  0,  0,  0,  20,
  0,  20, 20, 20, 20, 20, 20, 20,    20, 20, 20, 20, 20, 20, 20, 20,
  20, 20, 20, 20, 20, 20, 20, 20,    20, 20, 20, 0,  0,  0,  0,  0]

/-- `PUGI__IS_CHARTYPEX( c, 1 << bit )`, private/mx/ezxml/src/private/private/pugixml.cpp 1895-1899. -/
def charTypex (bit : Nat) (c : Char) : Bool := ((charTablex[c.toNat]?).getD 20).testBit bit

/-- One turn of `text_output_escaped`, private/mx/ezxml/src/private/private/pugixml.cpp 3906-3956, with the special characters of the given type (0: `ctx_special_pcdata`, 1: `ctx_special_attr`,
1863-1864), without `format_attribute_single_quote` and `format_skip_control_chars`. -/
def escapeChar (type : Nat) (c : Char) : Str :=
  if charTypex type c then
    if c = '&' then ['&', 'a', 'm', 'p', ';']
    else if c = '<' then ['&', 'l', 't', ';']
    else if c = '>' then ['&', 'g', 't', ';']
    else if c = '"' then ['&', 'q', 'u', 'o', 't', ';']
    else if c = '\'' then ['\'']
    else ['&', '#', Char.ofNat (c.toNat / 10 + 48), Char.ofNat (c.toNat % 10 + 48), ';']
  else [c]

/-- `text_output_escaped`, private/mx/ezxml/src/private/private/pugixml.cpp 3906-3956.  Values never have a zero byte. -/
def outEscaped (type : Nat) (s : Str) : Str := s.flatMap (escapeChar type)

/-- The loop of `text_output_cdata`, private/mx/ezxml/src/private/private/pugixml.cpp 3966-3986, behind the first `<![CDATA[`. -/
def outCdata : Str → Str
  | [] => [']', ']', '>']
  | ']' :: ']' :: '>' :: r => [']', ']', ']', ']', '>', '<', '!', '[', 'C', 'D', 'A', 'T', 'A', '['] ++ '>' :: outCdata r
  | c :: r => c :: outCdata r

/-- `node_output_pi_value`, private/mx/ezxml/src/private/private/pugixml.cpp 4053-4072. -/
def outPiValue : Str → Str
  | [] => []
  | '?' :: '>' :: r => '?' :: ' ' :: '>' :: outPiValue r
  | c :: r => c :: outPiValue r

/-- `node_output_attributes`, private/mx/ezxml/src/private/private/pugixml.cpp 4074-4100. -/
def outAttrs (l : List (Str × Str)) : Str := l.flatMap fun a => ' ' :: a.1 ++ '=' :: '"' :: outEscaped 1 a.2 ++ ['"']

/-- `indent_flags`, private/mx/ezxml/src/private/private/pugixml.cpp 4230-4234 and 4239: indentation only, line end and indentation, nothing. -/
inductive Flags where
  | start | line | none

/-- `text_output_indent`, private/mx/ezxml/src/private/private/pugixml.cpp 3988-4026, after a line end if there has to be one: 4256-4260, 4311-4315. -/
def outIndent (f : Flags) (depth : Nat) : Str :=
  match f with
  | .none => []
  | .start => (List.replicate depth [' ', ' ']).flatten
  | .line => '\n' :: (List.replicate depth [' ', ' ']).flatten

mutual
/-- A node with its children, `node_output`, private/mx/ezxml/src/private/private/pugixml.cpp 4236-4327, and `node_output_start`, `node_output_end`, `node_output_simple` 4102-4228: the text, and
`indent_flags` behind it.  The loop of the code goes through the tree with pointers; the model is recursive. -/
def outNode (f : Flags) (depth : Nat) : XNode → Str × Flags
  | .pcdata s => (outEscaped 0 s, .none)
  | .cdata s => (['<', '!', '[', 'C', 'D', 'A', 'T', 'A', '['] ++ outCdata s, .none)
  | .pi n v => (outIndent f depth ++ '<' :: '?' :: n ++ (match v with | some v => ' ' :: outPiValue v | none => []) ++ ['?', '>'], .line)
  | .decl n a => (outIndent f depth ++ '<' :: '?' :: n ++ outAttrs a ++ ['?', '>'], .line)
  | .doctype v => (outIndent f depth ++ ['<', '!', 'D', 'O', 'C', 'T', 'Y', 'P', 'E', ' '] ++ v ++ ['>'], .line)
  | .elem n a [] => (outIndent f depth ++ '<' :: n ++ outAttrs a ++ [' ', '/', '>'], .line)
  | .elem n a (k :: ks) =>
    (outIndent f depth ++ '<' :: n ++ outAttrs a ++ '>' :: (outNodes .line (depth + 1) (k :: ks)).1
      ++ outIndent (outNodes .line (depth + 1) (k :: ks)).2 depth ++ '<' :: '/' :: n ++ ['>'], .line)
/-- A node after the other. -/
def outNodes (f : Flags) (depth : Nat) : List XNode → Str × Flags
  | [] => ([], f)
  | k :: ks => ((outNode f depth k).1 ++ (outNodes (outNode f depth k).2 depth ks).1, (outNodes (outNode f depth k).2 depth ks).2)
end

/-- `xml_document::save` on a document that has a declaration: `node_output` from the document on, private/mx/ezxml/src/private/private/pugixml.cpp 4236-4327. -/
def print (nodes : List XNode) : Str :=
  (outNodes .start 0 nodes).1 ++ (match (outNodes .start 0 nodes).2 with | .line => ['\n'] | _ => [])

end Mx.Pugi
