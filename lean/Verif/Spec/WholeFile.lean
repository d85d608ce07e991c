import Verif.Spec.XmlSaved
import Verif.Spec.Supported

/-
A whole file: its text, the elements the text stands for, and the tree of element objects that is made of them.
-/
namespace Spec
open Mx Mx.XmlDoc

mutual
/-- An element as something element objects are read from and write.  The tree has one text for the attributes and the value together: `join` says how it is put together.  Processing instructions have no part in it. -/
def tree (join : List (Str × Str) → Str → Str) : Elem → Content.Xml
  | .mk n a _ v ks => .elem (nameCode n) (join a v) (trees join ks)
def trees (join : List (Str × Str) → Str → Str) : List Elem → List Content.Xml
  | [] => []
  | e :: es => tree join e :: trees join es
end

/-- Different attributes or values give different texts, and only where there is neither, there is no text. -/
def Faithful (join : List (Str × Str) → Str → Str) : Prop := (∀ a v a' v', join a v = join a' v' → a = a' ∧ v = v') ∧ join [] [] = []

mutual
/-- Elements without processing instructions, whose names are made of bytes. -/
def Plain : Elem → Prop
  | .mk n _ p _ ks => (∀ c ∈ n, c ≠ '\x00' ∧ c.toNat < 256) ∧ p = [] ∧ PlainAll ks
def PlainAll : List Elem → Prop
  | [] => True
  | e :: es => Plain e ∧ PlainAll es
end

/-- Elements that survive as text: neither their attributes nor their texts hold anything that cannot be written or is changed. -/
def Lasting (e : Elem) : Prop := Plain e ∧ Writable e ∧ Unchanged e

/-- The document, when written, has the elements of the tree `t`. -/
def Writes (join : List (Str × Str) → Str → Str) (d : CDoc) (timewise : Bool) (t : Content.Xml) : Prop :=
  d.timewise = timewise ∧ tree join (contents d.root) = t ∧ Plain (contents d.root) ∧ Laid d.root

end Spec
