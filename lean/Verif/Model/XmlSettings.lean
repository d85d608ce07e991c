import Verif.Model.XmlDocument

/-
The settings of an XML document: version, encoding and `standalone` of the declaration, and the document type.  private/mx/ezxml/src/private/private/PugiDoc.cpp and
private/mx/ezxml/src/include/ezxml/XDocSpec.h.  A document is the list of its top nodes, with the three members `myXmlVersion`, `myEncoding`, `myIsStandalone` (PugiDoc.h).  Texts are in UTF-8 (see XmlParser.lean).
-/
namespace Mx.XmlDoc
open Mx.Pugi

/-- private/mx/ezxml/src/include/ezxml/XDocSpec.h 12-17. -/
inductive XmlVersion where
  | unknown | onePointZero | onePointOne
  deriving DecidableEq

/-- `toString`, private/mx/ezxml/src/include/ezxml/XDocSpec.h 22-46. -/
def XmlVersion.text : XmlVersion → Str
  | .unknown => chars "unknown"
  | .onePointZero => chars "1.0"
  | .onePointOne => chars "1.1"

/-- `parseXmlVersion`, private/mx/ezxml/src/include/ezxml/XDocSpec.h 49-63. -/
def parseXmlVersion (s : Str) : XmlVersion :=
  if s = chars "1.0" then .onePointZero else if s = chars "1.1" then .onePointOne else .onePointZero

/-- private/mx/ezxml/src/include/ezxml/XDocSpec.h 66-71. -/
inductive Encoding where
  | unknown | utfEight | utfSixteen
  deriving DecidableEq

/-- `toString`, private/mx/ezxml/src/include/ezxml/XDocSpec.h 76-100. -/
def Encoding.text : Encoding → Str
  | .unknown => chars "unknown"
  | .utfEight => chars "UTF-8"
  | .utfSixteen => chars "UTF-16"

/-- `parseEncoding`, private/mx/ezxml/src/include/ezxml/XDocSpec.h 103-118. -/
def parseEncoding (s : Str) : Encoding :=
  if s.map Char.toLower = chars "utf-8" then .utfEight else if s.map Char.toLower = chars "utf-16" then .utfSixteen else .utfEight

/-- `PugiDoc` without the byte order mark. -/
structure DocState where
  nodes : List XNode
  version : XmlVersion
  encoding : Encoding
  standalone : Bool

/-- The constructor, private/mx/ezxml/src/private/private/PugiDoc.cpp 17-27. -/
def newDocState : DocState :=
  { nodes := [.decl (chars "xml") [(chars "version", chars "1.0"), (chars "encoding", chars "UTF-8")], .elem (chars "root") [] []]
    version := .onePointZero, encoding := .utfEight, standalone := false }

/-- `getXmlDeclarationNode`, private/mx/ezxml/src/private/private/PugiDoc.cpp 571-592: the attributes. -/
def declarationOf : List XNode → Option (List (Str × Str))
  | .decl n a :: _ => if sameLetters n (chars "xml") then some a else none
  | _ => none

/-- Other attributes for the declaration, which is the first node. -/
def withDeclaration (a : List (Str × Str)) : List XNode → List XNode
  | .decl n _ :: r => .decl n a :: r
  | l => l

/-- `getXmlDeclarationAttribute`, private/mx/ezxml/src/private/private/PugiDoc.cpp 595-604. -/
def declarationAttr (name : Str) (nodes : List XNode) : Option Str := (declarationOf nodes).bind (attr name)

/-- The version of the declaration is set, private/mx/ezxml/src/private/private/PugiDoc.cpp 250-264; `none`: an exception. -/
def putVersion (v : XmlVersion) (a : List (Str × Str)) : Option (List (Str × Str)) :=
  match a with
  | [] => some [(chars "version", v.text)]
  | x :: r => if sameLetters (chars "version") x.1 then some ((x.1, v.text) :: r) else none

/-- `setXmlVersion`, private/mx/ezxml/src/private/private/PugiDoc.cpp 233-267; `none`: an exception. -/
def setXmlVersion (v : XmlVersion) (d : DocState) : Option DocState :=
  if v = .unknown then none
  else match d.nodes with
    | .decl n a :: r => (putVersion v a).map fun a' => { d with nodes := .decl n a' :: r, version := v }
    | _ => none

/-- `setEncoding`, private/mx/ezxml/src/private/private/PugiDoc.cpp 277-291. -/
def setEncoding (e : Encoding) (d : DocState) : Option DocState :=
  if e = .unknown then none
  else (declarationOf d.nodes).bind fun a =>
    if (attr (chars "encoding") a).isSome then some { d with nodes := withDeclaration (setAttr (chars "encoding") e.text a) d.nodes, encoding := e } else none

/-- `getHasStandaloneAttribute`, private/mx/ezxml/src/private/private/PugiDoc.cpp 294-303. -/
def hasStandalone (d : DocState) : Bool := (declarationAttr (chars "standalone") d.nodes).isSome

/-- The first attribute of the name, up to case, is taken out: private/mx/ezxml/src/private/private/PugiDoc.cpp 353-362. -/
def removeLetters (name : Str) : List (Str × Str) → List (Str × Str)
  | [] => []
  | x :: r => if sameLetters name x.1 then r else x :: removeLetters name r

def yesNo (b : Bool) : Str := if b then chars "yes" else chars "no"

/-- The attribute is put behind version and encoding, private/mx/ezxml/src/private/private/PugiDoc.cpp 320-347; `none`: an exception. -/
def addStandalone (b : Bool) : List (Str × Str) → Option (List (Str × Str))
  | x :: y :: r => if sameLetters (chars "version") x.1 ∧ sameLetters (chars "encoding") y.1 then some (x :: y :: (chars "standalone", yesNo b) :: r) else none
  | _ => none

/-- `setHasStandaloneAttribute`, private/mx/ezxml/src/private/private/PugiDoc.cpp 306-364. -/
def setHasStandalone (value : Bool) (d : DocState) : Option DocState :=
  if hasStandalone d = value then some d
  else if value then
    ((declarationOf d.nodes).bind (addStandalone d.standalone)).map fun a => { d with nodes := withDeclaration a d.nodes }
  else
    (declarationOf d.nodes).map fun a => { d with nodes := withDeclaration (removeLetters (chars "standalone") a) d.nodes, standalone := false }

/-- `setIsStandalone`, private/mx/ezxml/src/private/private/PugiDoc.cpp 374-388. -/
def setIsStandalone (value : Bool) (d : DocState) : Option DocState :=
  (setHasStandalone true d).bind fun d' =>
    (declarationOf d'.nodes).map fun a => { d' with nodes := withDeclaration (setAttr (chars "standalone") (yesNo value) a) d'.nodes, standalone := value }

/-- `getDoctypeNode` and its value, private/mx/ezxml/src/private/private/PugiDoc.cpp 542-568. -/
def doctypeOf : List XNode → Option Str
  | .decl _ _ :: .doctype v :: _ => some v
  | .doctype v :: _ => some v
  | _ => none

/-- `getDoctypeValue`, private/mx/ezxml/src/private/private/PugiDoc.cpp 447-452: empty if there is none. -/
def doctypeText (d : DocState) : Str := (doctypeOf d.nodes).getD []

/-- The loop that deletes the document type, private/mx/ezxml/src/private/private/PugiDoc.cpp 435-442. -/
def removeDoctype : List XNode → List XNode
  | [] => []
  | .doctype _ :: r => r
  | x :: r => x :: removeDoctype r

/-- `setHasDoctypeDeclaration`, private/mx/ezxml/src/private/private/PugiDoc.cpp 403-444. -/
def setHasDoctype (value : Bool) (d : DocState) : Option DocState :=
  if (doctypeOf d.nodes).isSome = value then some d
  else if value then
    match d.nodes with
    | .decl n a :: r => some { d with nodes := .decl n a :: .doctype [] :: r }
    | _ => none
  else some { d with nodes := removeDoctype d.nodes }

/-- The value of the document type is set, private/mx/ezxml/src/private/private/PugiDoc.cpp 459-460. -/
def putDoctype (v : Str) : List XNode → List XNode
  | .decl n a :: .doctype _ :: r => .decl n a :: .doctype v :: r
  | .doctype _ :: r => .doctype v :: r
  | l => l

/-- `setDoctypeValue`, private/mx/ezxml/src/private/private/PugiDoc.cpp 455-461. -/
def setDoctypeValue (v : Str) (d : DocState) : Option DocState := (setHasDoctype true d).map fun d' => { d' with nodes := putDoctype v d'.nodes }

/-- The calls that change the settings. -/
inductive SettingCall where
  | xmlVersion (v : XmlVersion)
  | encoding (e : Encoding)
  | hasStandalone (b : Bool)
  | isStandalone (b : Bool)
  | hasDoctype (b : Bool)
  | doctypeValue (v : Str)

def callSetting (d : DocState) : SettingCall → Option DocState
  | .xmlVersion v => setXmlVersion v d
  | .encoding e => setEncoding e d
  | .hasStandalone b => setHasStandalone b d
  | .isStandalone b => setIsStandalone b d
  | .hasDoctype b => setHasDoctype b d
  | .doctypeValue v => setDoctypeValue v d

/-- One call after the other; a call that throws has changed nothing, and the caller goes on.  The answers are `false` for an exception. -/
def callSettings (d : DocState) : List SettingCall → DocState × List Bool
  | [] => (d, [])
  | c :: cs => match callSetting d c with
    | some d' => ((callSettings d' cs).1, true :: (callSettings d' cs).2)
    | none => ((callSettings d cs).1, false :: (callSettings d cs).2)

/-! ### Loading -/

/-- The declaration after the parser has run, private/mx/ezxml/src/private/private/PugiDoc.cpp 110-147. -/
def completeDeclaration : List XNode → List XNode
  | .decl n a :: r => if a = [] then .decl n [(chars "version", chars "1.0"), (chars "encoding", chars "UTF-8")] :: r else .decl n (addEncoding (addVersion a)) :: r
  | l => .decl (chars "xml") [(chars "version", chars "1.0"), (chars "encoding", chars "UTF-8")] :: l

/-- `parseXmlVersionFromDoc`, private/mx/ezxml/src/private/private/PugiDoc.cpp 488-507. -/
def readVersion (d : DocState) : Option DocState :=
  (declarationOf d.nodes).bind fun a =>
    if (attr (chars "version") a).getD [] = [] then setXmlVersion .onePointZero d
    else some { d with version := parseXmlVersion ((attr (chars "version") a).getD []) }

/-- `parseEncodingFromDoc`, private/mx/ezxml/src/private/private/PugiDoc.cpp 510-520. -/
def readEncoding (d : DocState) : Option DocState :=
  (declarationOf d.nodes).bind fun a => (attr (chars "encoding") a).map fun v =>
    { d with nodes := withDeclaration (setAttr (chars "encoding") (parseEncoding v).text a) d.nodes, encoding := parseEncoding v }

/-- `parseStandalone`, private/mx/ezxml/src/private/private/PugiDoc.cpp 523-539. -/
def readStandalone (d : DocState) : DocState := { d with standalone := decide (declarationAttr (chars "standalone") d.nodes = some (chars "yes")) }

/-- `loadStream`, private/mx/ezxml/src/private/private/PugiDoc.cpp 31-168, on a document in the state `d`, for a text in UTF-8; `none`: an exception. -/
def loadInto (d : DocState) (s : Str) : Option DocState :=
  (parse s).bind fun nodes =>
    (readVersion { d with nodes := completeDeclaration nodes }).bind fun d1 =>
      (readEncoding d1).bind fun d2 => setEncoding .utfEight (readStandalone d2)

end Mx.XmlDoc
