import Verif.Model.XmlSettings
import Verif.Spec.XmlSaved

/-
The settings of an XML document as its user thinks of them.
-/
open Spec
namespace Mx.XmlDoc
open Mx.Pugi

structure Settings where
  version : XmlVersion
  encoding : Encoding
  /-- `none`: not mentioned -/
  standalone : Option Bool
  doctype : Option Str

/-- What each call should do; `none`: it is refused. -/
def Settings.after (s : Settings) : SettingCall → Option Settings
  | .xmlVersion v => if v = .unknown then none else some { s with version := v }
  | .encoding e => if e = .unknown then none else some { s with encoding := e }
  | .hasStandalone true => some { s with standalone := some (s.standalone.getD false) }
  | .hasStandalone false => some { s with standalone := none }
  | .isStandalone b => some { s with standalone := some b }
  | .hasDoctype true => some { s with doctype := some (s.doctype.getD []) }
  | .hasDoctype false => some { s with doctype := none }
  | .doctypeValue v => some { s with doctype := some v }

def Settings.afterAll (s : Settings) : List SettingCall → Settings × List Bool
  | [] => (s, [])
  | c :: cs => match s.after c with
    | some s' => ((s'.afterAll cs).1, true :: (s'.afterAll cs).2)
    | none => ((s.afterAll cs).1, false :: (s.afterAll cs).2)

def versionText : XmlVersion → Str
  | .onePointOne => "1.1".toList
  | _ => "1.0".toList

def encodingText : Encoding → Str
  | .utfSixteen => "UTF-16".toList
  | _ => "UTF-8".toList

def standaloneAttribute : Option Bool → List (Str × Str)
  | none => []
  | some true => [("standalone".toList, "yes".toList)]
  | some false => [("standalone".toList, "no".toList)]

/-- The attributes of the XML declaration that says this (XML 2.8). -/
def Settings.attributes (s : Settings) : List (Str × Str) :=
  ("version".toList, versionText s.version) :: ("encoding".toList, encodingText s.encoding) :: standaloneAttribute s.standalone

/-- The document has these settings: the functions of the document say so, the document that is written out begins with an XML declaration that says so and the document type, and the rest of the document is `rest`. -/
structure Declares (d : DocState) (s : Settings) (rest : List XNode) : Prop where
  version : d.version = s.version
  encoding : d.encoding = s.encoding
  hasStandalone : hasStandalone d = s.standalone.isSome
  standalone : d.standalone = s.standalone.getD false
  hasDoctype : (doctypeOf d.nodes).isSome = s.doctype.isSome
  doctype : doctypeText d = s.doctype.getD []
  nodes : d.nodes = .decl "xml".toList s.attributes :: ((match s.doctype with
    | none => []
    | some v => [.doctype v]) ++ rest)

/-- The settings that a well formed XML declaration stands for: version 1.0 or 1.1, perhaps an encoding, perhaps `standalone`. -/
inductive DeclarationSays : List (Str × Str) → XmlVersion → Option Bool → Prop
  | bare (v : XmlVersion) (b : Option Bool) : v ≠ .unknown → DeclarationSays (("version".toList, versionText v) :: standaloneAttribute b) v b
  | full (v : XmlVersion) (e : Str) (b : Option Bool) : v ≠ .unknown → DeclarationSays (("version".toList, versionText v) :: ("encoding".toList, e) :: standaloneAttribute b) v b

/-- A document type that can stand in a document. -/
def DoctypeFits (v : Str) : Prop := DoctypeText v ∧ ∃ c r, v = c :: r ∧ ¬ XmlSpace c

end Mx.XmlDoc
