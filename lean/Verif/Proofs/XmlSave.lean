import Verif.Proofs.XmlProlog

/-
Saving and loading documents.
-/
open Spec
namespace Mx.XmlDoc
open Mx.Pugi

/-- The attributes of the declaration. -/
def stdAttrs : List (Str × Str) := [(chars "version", chars "1.0"), (chars "encoding", chars "UTF-8"), (chars "standalone", chars "no")]

/-- The nodes in front of the root element. -/
def stdNodes (tw : Bool) : List XNode := [.decl ['x', 'm', 'l'] stdAttrs, .doctype (doctypeValue tw)]

/-- The text in front of the root element. -/
def stdText (tw : Bool) : Str :=
  chars "<?xml version=\"1.0\" encoding=\"UTF-8\" standalone=\"no\"?>" ++ '\n' :: (chars "<!DOCTYPE " ++ doctypeValue tw ++ ['>'])

theorem plain_doctype {a : Str} (ha : ∀ c ∈ a, c ≠ '<' ∧ c ≠ '>' ∧ c ≠ '"' ∧ c ≠ '\'' ∧ c ≠ '\x00') {s : Str} (h : DoctypeText s) : DoctypeText (a ++ s) := by
  induction a with
  | nil => exact h
  | cons c a ih =>
    obtain ⟨h1, h2, h3, h4, h5⟩ := ha c List.mem_cons_self
    exact .char h1 h2 h3 h4 h5 (ih fun x hx => ha x (List.mem_cons_of_mem c hx))

theorem doctypeValue_ok (tw : Bool) : DoctypeText (' ' :: doctypeValue tw) := by
  cases tw with
  | false =>
    have := plain_doctype (a := chars " score-partwise PUBLIC ") (by decide)
      (DoctypeText.literal (q := '"') (l := chars "-//Recordare//DTD MusicXML 3.0 Partwise//EN") (.inl rfl) (by decide) (by decide)
        (plain_doctype (a := [' ']) (by decide) (DoctypeText.literal (q := '"') (l := chars "http://www.musicxml.org/dtds/partwise.dtd") (.inl rfl) (by decide) (by decide) .nil)))
    exact this
  | true =>
    have := plain_doctype (a := chars " score-timewise PUBLIC ") (by decide)
      (DoctypeText.literal (q := '"') (l := chars "-//Recordare//DTD MusicXML 3.0 Timewise//EN") (.inl rfl) (by decide) (by decide)
        (plain_doctype (a := [' ']) (by decide) (DoctypeText.literal (q := '"') (l := chars "http://www.musicxml.org/dtds/timewise.dtd") (.inl rfl) (by decide) (by decide) .nil)))
    exact this

theorem stdAttrs_ok : ∀ x ∈ stdAttrs, XmlName x.1 ∧ '\x00' ∉ x.2 := by
  intro x hx
  simp only [stdAttrs, List.mem_cons, List.not_mem_nil, or_false] at hx
  rcases hx with rfl | rfl | rfl
  · exact ⟨⟨⟨_, _, rfl, by decide⟩, by decide⟩, by decide⟩
  · exact ⟨⟨⟨_, _, rfl, by decide⟩, by decide⟩, by decide⟩
  · exact ⟨⟨⟨_, _, rfl, by decide⟩, by decide⟩, by decide⟩

theorem parse_std (tw : Bool) {ps : List XmlPiece} (hp : PiecesOk ps) (he : (piecesNodes ps).any XNode.isElem = true) : parse (stdText tw ++ piecesText ps) = some (stdNodes tw ++ piecesNodes ps) := by
  have h := parse_parts false (some (printedAttrs stdAttrs, [])) [.space ['\n']] (some (' ' :: doctypeValue tw)) ps
    (by
      intro a g hx
      simp only [Option.some.injEq, Prod.mk.injEq] at hx
      obtain ⟨rfl, rfl⟩ := hx
      exact ⟨printed_ok stdAttrs_ok, by simp, by rw [printed_text]; decide⟩)
    ⟨by simp [XmlPiece.Ok, XmlSpace], trivial⟩
    (by intro t ht; simp only [Option.some.injEq] at ht; subst ht; exact doctypeValue_ok tw) hp he
  have e1 : declarationText (some (printedAttrs stdAttrs, [])) = chars "<?xml version=\"1.0\" encoding=\"UTF-8\" standalone=\"no\"?>" := by
    rw [declarationText, printed_text]
    decide
  have e2 : Pugi.skipWs (' ' :: doctypeValue tw) = doctypeValue tw := by cases tw <;> rfl
  rw [e1] at h
  simp only [declarationNodes, doctypeNodes, e2, printed_values, piecesText, piecesNodes, XmlPiece.text', XmlPiece.nodes, doctypeText] at h
  have e3 : stdText tw ++ piecesText ps = (if false = true then ['\xef', '\xbb', '\xbf'] else []) ++ (chars "<?xml version=\"1.0\" encoding=\"UTF-8\" standalone=\"no\"?>" ++ (['\n'] ++ [] ++
      (['<', '!', 'D', 'O', 'C', 'T', 'Y', 'P', 'E'] ++ ' ' :: doctypeValue tw ++ ['>'] ++ piecesText ps))) := by
    simp [stdText]
  rw [e3, h]
  simp [stdNodes]

theorem loadStream_std (tw : Bool) {ps : List XmlPiece} (hp : PiecesOk ps) (he : (piecesNodes ps).any XNode.isElem = true) :
    loadStream (stdText tw ++ piecesText ps) = some (stdNodes tw ++ piecesNodes ps) := by
  rw [loadStream, parse_std tw hp he]
  have : fixDeclaration stdAttrs = some stdAttrs := by decide
  simp [stdNodes, this]

theorem nodes_elem (e : Elem) : (Elem.nodes [e]).any XNode.isElem = true := by
  obtain ⟨n, a, k, r, h⟩ := nodes_head e []
  rw [h]
  rfl

/-- The text of a document with the given root element. -/
def fileText (tw : Bool) (e : Elem) : Str := print (stdNodes tw ++ Elem.nodes [e])

theorem save_text (d : CDoc) (h : DocOk d) : save d = some (fileText d.timewise (kept (contents d.root))) := by
  obtain ⟨hw, hl, -⟩ := h
  obtain ⟨ps, h1, h2, h3⟩ := elem_written d.root hw hl 0
  have h4 := loadStream_std d.timewise (ps := .space ['\n'] :: ps) ⟨by simp [XmlPiece.Ok, XmlSpace], h2⟩ (by rw [piecesNodes, h3]; exact nodes_elem _)
  have e : stdText d.timewise ++ piecesText (.space ['\n'] :: ps) =
      chars "<?xml version=\"1.0\" encoding=\"UTF-8\" standalone=\"no\"?>" ++ '\n' :: (chars "<!DOCTYPE " ++ doctypeValue d.timewise ++ ['>', '\n'] ++ piecesText ps) := by
    simp [stdText, piecesText, XmlPiece.text']
  rw [e] at h4
  rw [save, documentToStream, h1]
  simp only [Option.map_some, Option.bind_some, h4]
  rw [piecesNodes, h3]
  rfl

theorem fileText_pieces (tw : Bool) (e : Elem) (h : Normal e) : ∃ ps, PiecesOk ps ∧ fileText tw e = stdText tw ++ piecesText ps ∧ piecesNodes ps = Elem.nodes [e] := by
  obtain ⟨ps, h1, h2, h3⟩ := nodes_printed [e] ⟨h, trivial⟩ 0
  refine ⟨ps ++ [.space ['\n']], pieces_ok_append h1 ⟨by simp [XmlPiece.Ok, XmlSpace], trivial⟩, ?_, ?_⟩
  · have e1 : outNodes .start 0 (stdNodes tw ++ Elem.nodes [e]) = (stdText tw ++ piecesText ps, .line) := by
      have e2 : outNode .start 0 (.decl ['x', 'm', 'l'] stdAttrs) = (chars "<?xml version=\"1.0\" encoding=\"UTF-8\" standalone=\"no\"?>", .line) := by
        rw [outNode, show outIndent .start 0 = [] from rfl, show outAttrs stdAttrs = chars " version=\"1.0\" encoding=\"UTF-8\" standalone=\"no\"" from by decide]
        rfl
      have e3 : stdNodes tw ++ Elem.nodes [e] = .decl ['x', 'm', 'l'] stdAttrs :: .doctype (doctypeValue tw) :: Elem.nodes [e] := rfl
      generalize Elem.nodes [e] = l at h2 e3
      rw [e3, outNodes, e2, outNodes, outNode, h2]
      simp [stdText, outIndent]
    rw [fileText, print, e1, pieces_append]
    simp [piecesText, XmlPiece.text']
  · rw [pieces_nodes_append, h3]
    simp [piecesNodes, XmlPiece.nodes]

theorem load_file (tw : Bool) (e : Elem) (h : Normal e) (hn : ∃ a p v ks, e = .mk (rootName tw) a p v ks) : load (fileText tw e) = some (tw, e) := by
  obtain ⟨ps, h1, h2, h3⟩ := fileText_pieces tw e h
  rw [load, h2, loadStream_std tw h1 (by rw [h3]; exact nodes_elem e), h3]
  obtain ⟨a, p, v, ks, rfl⟩ := hn
  have h4 := node_read _ h [] rfl
  have h5 : root (stdNodes tw ++ Elem.nodes [.mk (rootName tw) a p v ks]) = some ((Elem.mk (rootName tw) a p v ks).node, (Elem.mk (rootName tw) a p v ks).behind.map piNode ++ []) := by
    rw [Elem.nodes, Elem.node]
    rfl
  simp only [Option.bind_some, h5, h4]
  cases tw <;> rfl

theorem load_save (d : CDoc) (h : DocOk d) : ∃ text, save d = some text ∧ load text = some (d.timewise, kept (contents d.root)) := by
  refine ⟨_, save_text d h, load_file _ _ (kept_normal d.root h.1) ?_⟩
  obtain ⟨-, -, a, p, v, ks, hk⟩ := h
  rw [hk]
  exact ⟨_, _, _, _, rfl⟩

end Mx.XmlDoc
