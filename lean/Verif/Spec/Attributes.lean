import Verif.Spec.XmlText
import Verif.Spec.Tokens
import Verif.Spec.DecimalRanges
import Verif.Model.Attributes

/-
Attributes in XML, and what it means that an attribute object was read back.
-/
namespace Spec

/-- Names of attributes: a letter, then letters, digits, `-`, `:`, `_`, `.`  (the part of https://www.w3.org/TR/xml/ 2.3 used by MusicXML). -/
def isAttributeName : List Char → Bool
  | [] => false
  | c :: t => decide (Letter c) && t.all (fun x => decide (Letter x ∨ Digit x ∨ x = '-' ∨ x = ':' ∨ x = '_' ∨ x = '.'))

/-- `t`, after the name of the element in a start tag, is read as a list of attributes (https://www.w3.org/TR/xml/ 3.1): no name may occur twice. -/
inductive TagReads : List Char → List (List Char × List Char) → Prop
  | nil : TagReads [] []
  | cons {name raw value t attributes} : isAttributeName name → AttributeReads raw value → name ∉ attributes.map Prod.fst → TagReads t attributes →
      TagReads (' ' :: (name ++ ['=', '"'] ++ raw ++ '"' :: t)) ((name, value) :: attributes)

end Spec

namespace Mx
open Spec

/-- Characters that an attribute value can have (no control characters, no double quote: see C52). -/
def PlainText (s : Str) : Prop := ∀ c ∈ s, ' ' ≤ c ∧ c ≠ '"'

/-- A `Decimal` (or a range class) made from a number within its 19 digits, with a value in the range of the class. -/
def DecimalOk (k : DecimalKind) (d : DecimalRange) : Prop :=
  ∃ v : ℚ, DecimalRange.make k v = some d ∧ |k.minClamp (k.maxClamp v)| ≤ 9999999999999999999 ∧ InRange k d.getValue

/-- A `Decimal` object in any state that its public interface can lead to. -/
def DecimalReachable (k : DecimalKind) (d : DecimalRange) : Prop :=
  ∃ (v : ℚ) (d0 : DecimalRange) (ops : List DecimalRange.Op), DecimalRange.make k v = some d0 ∧ d0.run ops = some d

/-- A `Color` object in any state that its public interface can lead to. -/
def ColorOk (c : Color) : Prop := ∃ (k : Color.Ctor) (ops : List Color.Op), c = ops.foldl Color.step (Color.construct k)

/-- The values of a class that XML can carry: every value of enumerations, integers, colours, identifiers; decimals within 19 digits; texts without control
characters and double quotes; tokens also with normalised white space; lists of tokens without commas and not ending with an empty token; `DistanceType`
and `LineWidthType`, which are written without escapes, also without `<`, `&`, and not the text "other". -/
def Carried : AttrType → AttrValue → Prop
  | .enum n, .enum m _ => n = m
  | .int k, .int r => ∃ v, InInt v ∧ r = IntRange.ofKind k v
  | .decimal k, .decimal d => DecimalOk k d
  | .color, .color c => ColorOk c
  | .fontSize, .fontSize (.css _) => True
  | .fontSize, .fontSize (.decimal d) => DecimalOk .Decimal d
  | .numberOrNormal, .numberOrNormal n => n.isNormal = true ∨ DecimalOk .Decimal n.decimal
  | .yesNoNumber, .yesNoNumber (.yesNo _) => True
  | .yesNoNumber, .yesNoNumber (.decimal d) => DecimalOk .Decimal d
  | .commaText, .commaText l => (∀ x ∈ l, PlainText x ∧ Normalised x ∧ ',' ∉ x) ∧ l.getLast? ≠ some []
  | .commaInts, .commaInts c => c.values.Pairwise (· < ·) ∧ ∀ v ∈ c.values, 0 < v ∧ v ≤ INT_MAX
  | .string, .string s => PlainText s
  | .token, .token s => PlainText s ∧ Normalised s
  | .id, .id s => ∃ t, s = xsID t
  | .distanceType, .distanceType v => ∃ s, v = OpenValue.ofText s ∧ PlainText s ∧ '<' ∉ s ∧ '&' ∉ s ∧ s ≠ "other".toList
  | .lineWidthType, .lineWidthType v => ∃ s, v = OpenValue.ofText s ∧ PlainText s ∧ '<' ∉ s ∧ '&' ∉ s ∧ s ≠ "other".toList
  | _, _ => False

/-- Any object of a class. -/
def Instance : AttrType → AttrValue → Prop
  | .enum n, .enum m _ => n = m
  | .int k, .int r => ∃ v, r = IntRange.ofKind k v
  | .decimal k, .decimal d => DecimalReachable k d
  | .color, .color _ => True
  | .fontSize, .fontSize _ => True
  | .numberOrNormal, .numberOrNormal n => DecimalReachable .Decimal n.decimal
  | .yesNoNumber, .yesNoNumber _ => True
  | .commaText, .commaText _ => True
  | .commaInts, .commaInts _ => True
  | .string, .string _ => True
  | .token, .token _ => True
  | .id, .id _ => True
  | .distanceType, .distanceType _ => True
  | .lineWidthType, .lineWidthType _ => True
  | _, _ => False

/-- Two values are the same for the user: equal, for decimals equal as numbers and in text, for lists of integers equal as lists. -/
def SameValue : AttrValue → AttrValue → Prop
  | .enum n x, .enum m y => (⟨n, x⟩ : (n : EnumName) × n.Carrier) = ⟨m, y⟩
  | .int a, .int b => a = b
  | .decimal a, .decimal b => a.getValue = b.getValue ∧ a.toStr = b.toStr
  | .color a, .color b => a = b
  | .fontSize (.css a), .fontSize (.css b) => a = b
  | .fontSize (.decimal a), .fontSize (.decimal b) => a.getValue = b.getValue ∧ a.toStr = b.toStr
  | .numberOrNormal a, .numberOrNormal b =>
    a.isNormal = b.isNormal ∧ (a.isNormal = false → a.decimal.getValue = b.decimal.getValue ∧ a.decimal.toStr = b.decimal.toStr)
  | .yesNoNumber (.yesNo a), .yesNoNumber (.yesNo b) => a = b
  | .yesNoNumber (.decimal a), .yesNoNumber (.decimal b) => a.getValue = b.getValue ∧ a.toStr = b.toStr
  | .commaText a, .commaText b => a = b
  | .commaInts a, .commaInts b => a.values = b.values
  | .string a, .string b => a = b
  | .token a, .token b => a = b
  | .id a, .id b => a = b
  | .distanceType a, .distanceType b => a.valueString = b.valueString
  | .lineWidthType a, .lineWidthType b => a.valueString = b.valueString
  | _, _ => False

/-- An object to be written: the attributes with constant flag are present, those present have values that XML can carry, and none of the given members is present. -/
def WritableObject (c : AttrClass) (absent : List Nat) (o : AttrObject) : Prop :=
  o.length = c.members.length ∧ ∀ (i : Nat) (m : AttrMember) (f : AttrField), c.members[i]? = some m → o[i]? = some f →
    (m.required = true → f.present = true) ∧ (f.present = true → Carried m.type f.value) ∧ (i ∈ absent → f.present = false)

/-- An object fresh from its constructor: only the required attributes are present. -/
def FreshObject (c : AttrClass) (o : AttrObject) : Prop :=
  o.length = c.members.length ∧ ∀ (i : Nat) (m : AttrMember) (f : AttrField), c.members[i]? = some m → o[i]? = some f → f.present = m.required ∧ Instance m.type f.value

/-- The same attributes are present, with the same values. -/
def SameObject (o r : AttrObject) : Prop :=
  o.length = r.length ∧ ∀ (i : Nat) (f g : AttrField), o[i]? = some f → r[i]? = some g → f.present = g.present ∧ (f.present = true → SameValue f.value g.value)

end Mx
