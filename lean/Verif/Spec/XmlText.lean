import Verif.Spec.Text

/-
How an XML 1.0 processor reads text (https://www.w3.org/TR/xml/ 2.2, 2.4, 2.11, 3.3.3, 4.6).
-/
namespace Spec

/-- The five predefined entities (without the ampersand) and the characters they stand for. -/
def entities : List (List Char × Char) :=
  [("lt;".toList, '<'), ("gt;".toList, '>'), ("amp;".toList, '&'), ("quot;".toList, '"'), ("apos;".toList, '\'')]

/-- Characters that may occur in a document (2.2; the few noncharacters above the surrogates are not excluded). -/
@[reducible] def XmlChar (c : Char) : Prop := c = '\t' ∨ c = '\n' ∨ c = '\r' ∨ ' ' ≤ c

/-- Replacement of entities only: the text `t` denotes the string `v`. -/
inductive Denotes : List Char → List Char → Prop
  | nil : Denotes [] []
  | char {c t v} : c ≠ '<' → c ≠ '&' → Denotes t v → Denotes (c :: t) (c :: v)
  | entity {e c t v} : (e, c) ∈ entities → Denotes t v → Denotes ('&' :: (e ++ t)) (c :: v)

/-- `t`, between a start tag and an end tag, is read as the string `v`: entities are replaced, line ends become `\n`. -/
inductive ContentReads : List Char → List Char → Prop
  | nil : ContentReads [] []
  | char {c t v} : XmlChar c → c ≠ '<' → c ≠ '&' → c ≠ '\r' → ContentReads t v → ContentReads (c :: t) (c :: v)
  | entity {e c t v} : (e, c) ∈ entities → ContentReads t v → ContentReads ('&' :: (e ++ t)) (c :: v)
  | crlf {t v} : ContentReads t v → ContentReads ('\r' :: '\n' :: t) ('\n' :: v)
  | cr {t v} : t.head? ≠ some '\n' → ContentReads t v → ContentReads ('\r' :: t) ('\n' :: v)

/-- `t`, between double quotes after `name=`, is read as the attribute value `v`: entities are replaced, tabs and line ends become spaces; the
text may not contain a double quote, as it would end the value. -/
inductive AttributeReads : List Char → List Char → Prop
  | nil : AttributeReads [] []
  | char {c t v} : ' ' ≤ c → c ≠ '<' → c ≠ '&' → c ≠ '"' → AttributeReads t v → AttributeReads (c :: t) (c :: v)
  | entity {e c t v} : (e, c) ∈ entities → AttributeReads t v → AttributeReads ('&' :: (e ++ t)) (c :: v)
  | tab {t v} : AttributeReads t v → AttributeReads ('\t' :: t) (' ' :: v)
  | newline {t v} : AttributeReads t v → AttributeReads ('\n' :: t) (' ' :: v)
  | crlf {t v} : AttributeReads t v → AttributeReads ('\r' :: '\n' :: t) (' ' :: v)
  | cr {t v} : t.head? ≠ some '\n' → AttributeReads t v → AttributeReads ('\r' :: t) (' ' :: v)

end Spec
