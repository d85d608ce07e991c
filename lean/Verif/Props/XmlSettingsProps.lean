import Verif.Proofs.XmlSettings

/-
C79: the settings of an XML document.
-/
open Spec Mx.XmlDoc
namespace Mx.Props
open Mx.Pugi

/-- **C79.** A new document has its settings. -/
theorem C79_new : Declares newDocState ⟨.onePointZero, .utfEight, none, none⟩ [.elem (chars "root") [] []] :=
  declares_mk (fun _ _ h => nomatch h) rfl rfl rfl rfl

/-- **C79.** Whatever calls are made, in whatever order: what the document says of itself and what will be written is what the calls have set, calls with `unknown` are refused, and the rest of the document is untouched. -/
theorem C79_calls (d : DocState) (s : Settings) (rest : List XNode) (hr : ∀ v r, rest ≠ .doctype v :: r) (h : Declares d s rest) (cs : List SettingCall) :
    (callSettings d cs).2 = (s.afterAll cs).2 ∧ Declares (callSettings d cs).1 (s.afterAll cs).1 rest := calls_declare hr cs h

/-- **C79.** A document that is loaded from a well formed text has the settings that its declaration and its document type say (the encoding is UTF-8 after loading), whatever the settings were before.  In front of the
document type there are only white space and comments; white space at the start of the document type is dropped (`skipWs`). -/
theorem C79_load (d : DocState) (x : XmlText) (h : x.Ok) (hb : piecesNodes x.before = []) (v : XmlVersion) (b : Option Bool)
    (hd : match x.declaration with
      | none => v = .onePointZero ∧ b = none
      | some (a, _) => DeclarationSays (attrValues a) v b) :
    ∃ d', loadInto d x.text = some d' ∧ Declares d' ⟨v, .utfEight, b, x.doctype.map Pugi.skipWs⟩ (piecesNodes (x.between ++ x.root :: x.after)) := load_text d h hb hd

/-- **C79.** Settings survive saving and loading: the text that is written is loaded as a document with the same settings and the same contents. -/
theorem C79_save_load (d d' : DocState) (s : Settings) (e : Elem) (hn : Normal e) (h : Declares d s (Elem.nodes [e])) (hv : s.version ≠ .unknown) (he : s.encoding = .utfEight)
    (hd : ∀ v, s.doctype = some v → DoctypeFits v) : ∃ d'', loadInto d' (print d.nodes) = some d'' ∧ Declares d'' s (Elem.nodes [e]) := save_load_settings d d' hn h hv he hd

/-- **C79.** The document that is loaded is the one that C72 and C73 speak of. -/
theorem C79_same_document (d : DocState) (s : Str) (hx : ∀ n a r, parse s = some (.decl n a :: r) → sameLetters n (chars "xml") = true) : (loadInto d s).map (·.nodes) = loadStream s := loadInto_nodes d s hx

/-- A loaded document always claims to be in UTF-8, also if its declaration says something else. -/
theorem C79_always_utf8 (d d' : DocState) (text : Str) (h : loadInto d text = some d') : d'.encoding = .utfEight := loadInto_utf8 d d' text h

/-! ### Cases -/

/-- All the calls in a history, two of which are refused. -/
def settingHistory : List SettingCall :=
  [.xmlVersion .onePointOne, .hasStandalone true, .encoding .utfSixteen, .xmlVersion .unknown, .isStandalone true, .doctypeValue (chars "a"), .encoding .unknown, .hasStandalone false, .hasDoctype true, .isStandalone false,
    .encoding .utfEight]

example : (callSettings newDocState settingHistory).2 = [true, true, true, false, true, true, false, true, true, true, true] ∧
    print (callSettings newDocState settingHistory).1.nodes = chars "<?xml version=\"1.1\" encoding=\"UTF-8\" standalone=\"no\"?>\n<!DOCTYPE a>\n<root />\n" := by decide +kernel

example : Settings.afterAll ⟨.onePointZero, .utfEight, none, none⟩ settingHistory = (⟨.onePointOne, .utfEight, some false, some (chars "a")⟩, [true, true, true, false, true, true, false, true, true, true, true]) := rfl

example : DoctypeFits (chars "a") := ⟨by simpa using plain_doctype (a := chars "a") (by decide) .nil, 'a', [], rfl, by decide⟩

example : Normal (.mk (chars "root") [] [] [] []) ∧ Elem.nodes [.mk (chars "root") [] [] [] []] = [.elem (chars "root") [] []] := by
  refine ⟨?_, by simp [Elem.nodes, Elem.node, Elem.behind]⟩
  refine ⟨⟨⟨'r', _, rfl, by decide⟩, by decide⟩, by simp, by simp, by simp, ?_⟩
  simp [NormalAll]

/-- A declaration that says all three things. -/
example : DeclarationSays [(chars "version", chars "1.1"), (chars "encoding", chars "latin"), (chars "standalone", chars "yes")] .onePointOne (some true) := .full .onePointOne (chars "latin") (some true) (by simp)

/-- **C79 does not hold for other versions**: a declaration with the version 2.0 is kept, but the document says that its version is 1.0. -/
theorem C79_other_version : (loadInto newDocState (chars "<?xml version=\"2.0\"?><a/>")).map (fun d => (d.version, declarationAttr (chars "version") d.nodes)) =
    some (.onePointZero, some (chars "2.0")) := by decide +kernel

/-- **C79 does not hold behind a processing instruction**: if one stands in front of the document type, the document says that it has no document type, and setting one gives a document with two of them. -/
theorem C79_second_doctype : (loadInto newDocState (chars "<?xml version=\"1.0\"?><?p?><!DOCTYPE a><a/>")).bind (fun d => (setDoctypeValue (chars "b") d).map fun d' => ((doctypeOf d.nodes).isSome, print d'.nodes)) =
    some (false, chars "<?xml version=\"1.0\" encoding=\"UTF-8\"?>\n<!DOCTYPE b>\n<?p?>\n<!DOCTYPE a>\n<a />\n") := by decide +kernel

end Mx.Props
