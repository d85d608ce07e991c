import Verif.Proofs.XmlForeign

/-
C72: a document that is saved as text and loaded again.  C73: the spelling of a file does not matter.
-/
open Spec
namespace Mx.Props
open Mx.XmlDoc

/-- **C72.** A document that can be written (no double quotes in attribute values, no `?>` in processing instructions, XML names, no zero bytes) is saved, and what is loaded from the text is what Spec/XmlSaved.lean says is kept of it. -/
theorem C72_load_save_partial (d : CDoc) (h : DocOk d) : ∃ text, save d = some text ∧ load text = some (d.timewise, kept (contents d.root)) := load_save d h

/-- **C72.** Of a document without the few oddities listed by `Unchanged` nothing is lost or changed. -/
theorem C72_nothing_lost (d : CDoc) (h : DocOk d) (hu : Unchanged (contents d.root)) : ∃ text, save d = some text ∧ load text = some (d.timewise, contents d.root) := by
  have := load_save d h
  rwa [kept_id _ hu] at this

/-- **C72.** The saved text is a well formed document that stands for what is kept. -/
theorem C72_saved_is_well_formed (d : CDoc) (h : DocOk d) :
    ∃ x : XmlText, x.Ok ∧ save d = some x.text ∧ pieceElem x.after x.root = [kept (contents d.root)] := by
  obtain ⟨x, h1, -, h2, h3, -⟩ := file_document d.timewise _ (kept_normal d.root h.1)
  exact ⟨x, h1, by rw [h2]; exact save_text d h, h3⟩

/-- **C72.** The saved text depends only on what is kept: line ends and indentation make no difference. -/
theorem C72_layout_irrelevant (d d' : CDoc) (h : DocOk d) (h' : DocOk d') (ht : d.timewise = d'.timewise) (hk : kept (contents d.root) = kept (contents d'.root)) : save d = save d' := by
  rw [save_text d h, save_text d' h', ht, hk]

/-- **C72.** A document that has been loaded from a saved text is saved as the same text again. -/
theorem C72_saved_again (d d' : CDoc) (h : DocOk d) (text : Str) (hs : save d = some text) (hl : load text = some (d'.timewise, contents d'.root)) (hw : Laid d'.root) : save d' = some text := by
  obtain ⟨t, h1, h2⟩ := load_save d h
  rw [hs] at h1
  simp only [Option.some.injEq] at h1
  subst h1
  rw [h2] at hl
  simp only [Option.some.injEq, Prod.mk.injEq] at hl
  obtain ⟨ht, hc⟩ := hl
  have h' : DocOk d' := by
    refine ⟨by rw [← hc]; exact kept_writable _ h.1, hw, ?_⟩
    obtain ⟨-, -, a, p, v, ks, hk⟩ := h
    rw [← hc, hk, ← ht]
    exact ⟨_, _, _, _, rfl⟩
  rw [← hs]
  exact C72_layout_irrelevant d' d h' h ht.symm (by rw [← hc, kept_kept])

/-- **C72.** Documents of which different things are kept are saved as different texts. -/
theorem C72_different_texts (d d' : CDoc) (h : DocOk d) (h' : DocOk d') (hs : save d = save d') : d.timewise = d'.timewise ∧ kept (contents d.root) = kept (contents d'.root) := by
  obtain ⟨t, h1, h2⟩ := load_save d h
  obtain ⟨t', h3, h4⟩ := load_save d' h'
  rw [h1, h3, Option.some.injEq] at hs
  subst hs
  rw [h2] at h4
  simpa using h4

/-- **C73.** Whatever a file looks like – byte order mark, declaration, document type, comments, white space, quotes, character references – what is loaded from it is the element it stands for. -/
theorem C73_any_spelling_partial (x : XmlText) (h : x.Ok) (hd : ∀ a g, x.declaration = some (a, g) → DeclarationOk a) (timewise : Bool) (a : List (Str × Str)) (p : List Instr) (v : Str) (ks : List Elem)
    (he : pieceElem x.after x.root = [.mk (rootName timewise) a p v ks]) : load x.text = some (timewise, .mk (rootName timewise) a p v ks) := load_document h hd timewise he

/-! ### Cases that meet the hypotheses -/

/-- A score with a part, a processing instruction and line ends between the children. -/
def sampleDoc : CDoc where
  timewise := false
  root := .node (chars "score-partwise") [(chars "version", chars "3.0")] [⟨chars "made", chars "by hand", true⟩, ⟨chars "end", [], false⟩]
    (.cons ['\n'] (.text (chars "movement-title") [(chars "xml:lang", chars "a<b")] [] (chars "Tom & Jerry") true)
      (.cons ['\n'] (.node (chars "part") [] [] (.cons [] (.node (chars "chord") [] [] (.nil []) false false) (.nil [])) true false) (.nil ['\n']))) false true

theorem name_ok {n : Str} (h : (match n with | [] => false | c :: _ => decide (XmlNameStart c)) = true ∧ ∀ c ∈ n, XmlNameChar c) : XmlName n := by
  obtain ⟨h1, h2⟩ := h
  cases n with
  | nil => simp at h1
  | cons c n => exact ⟨⟨c, n, rfl, by simpa using h1⟩, h2⟩

theorem sample_ok : DocOk sampleDoc := by
  refine ⟨⟨name_ok (by decide), ?_, ?_, by decide, ⟨⟨name_ok (by decide), ?_, by simp, by decide, trivial⟩,
    ⟨name_ok (by decide), by simp, by simp, by decide, ⟨name_ok (by decide), by simp, by simp, by decide, trivial⟩, trivial⟩, trivial⟩⟩, ?_, ⟨_, _, _, _, rfl⟩⟩
  · intro x hx
    simp only [List.mem_cons, List.not_mem_nil, or_false] at hx
    subst hx
    exact ⟨name_ok (by decide), by decide, by decide⟩
  · intro x hx
    simp only [List.mem_cons, List.not_mem_nil, or_false] at hx
    rcases hx with rfl | rfl
    · exact ⟨name_ok (by decide), by decide, by decide, by decide⟩
    · exact ⟨name_ok (by decide), by decide, by decide, by decide⟩
  · intro x hx
    simp only [List.mem_cons, List.not_mem_nil, or_false] at hx
    subst hx
    exact ⟨name_ok (by decide), by decide, by decide⟩
  · exact ⟨by decide, trivial, by decide, ⟨by decide, (by decide : ∀ c ∈ ([] : List Char), XmlSpace c), (by decide : ∀ c ∈ ([] : List Char), XmlSpace c)⟩, (by decide : ∀ c ∈ ['\n'], XmlSpace c)⟩

example : save sampleDoc = some (chars
    "<?xml version=\"1.0\" encoding=\"UTF-8\" standalone=\"no\"?>\n<!DOCTYPE score-partwise PUBLIC \"-//Recordare//DTD MusicXML 3.0 Partwise//EN\" \"http://www.musicxml.org/dtds/partwise.dtd\">\n<score-partwise version=\"3.0\">\n  <?made by hand?>\n  <movement-title xml:lang=\"a&lt;b\">Tom &amp; Jerry</movement-title>\n  <part>\n    <chord />\n  </part>\n</score-partwise>\n<?end ?>\n") := by
  decide +kernel

example : Unchanged (contents sampleDoc.root) := by
  refine ⟨by simp [OneLine], ?_, by decide, fun h => by simp [contentsAll] at h, by decide, .inl rfl, ⟨by simp [OneLine], by simp, by decide, by simp, by decide, .inr ⟨'T', by decide, by decide⟩, trivial⟩,
    ⟨by simp, by simp, by decide, by simp, by decide, .inl rfl, ⟨by simp, by simp, by decide, by simp, by decide, .inl rfl, trivial⟩, trivial⟩, trivial⟩
  intro i hi c r h
  simp only [List.mem_cons, List.not_mem_nil, or_false] at hi
  rcases hi with rfl | rfl
  · simp only [List.cons.injEq] at h
    obtain ⟨rfl, -⟩ := h
    decide
  · simp at h

/-- A file with a byte order mark, single quotes, references, comments, a CDATA section and odd white space. -/
def sampleFile : XmlText where
  mark := true
  declaration := some ([{ gap := [' '], name := chars "version", quote := '\'', spelt := chars "1.0", value := chars "1.0" }], [])
  before := [.space ['\n'], .comment (chars " made by hand ")]
  doctype := some (chars " score-partwise")
  between := [.space ['\r', '\n'], .instruction (chars "lost") [' '] []]
  root := .node (chars "score-partwise") [{ gap := ['\n'], name := chars "version", before := [' '], behind := ['\t'], quote := '\'', spelt := chars "3&#46;0", value := chars "3.0" }] []
    [.comment (chars "x"), .instruction (chars "p") [' ', ' '] (chars "q r"), .text (chars "t") [] [] (chars "a&lt;&#x42;\r\n") (chars "a<B\n") [' '], .bare (chars "x"), .cdata (chars "u") [] [] (chars " <&]\r\n") [], .space [' ']] ['\n']
  after := [.space ['\n']]

theorem sampleFile_ok : sampleFile.Ok where
  declaration := by
    intro a g h
    simp only [sampleFile, Option.some.injEq, Prod.mk.injEq] at h
    obtain ⟨rfl, rfl⟩ := h
    refine ⟨?_, by simp, by decide⟩
    intro x hx
    simp only [List.mem_cons, List.not_mem_nil, or_false] at hx
    subst hx
    exact ⟨by simp, by decide, name_ok (by decide), .inr rfl, .char (by decide) (by decide) (by decide) (by decide) (.char (by decide) (by decide) (by decide) (by decide)
      (.char (by decide) (by decide) (by decide) (by decide) .nil))⟩
  before := ⟨⟨(by decide : ∀ c ∈ ['\n'], XmlSpace c), ⟨by decide, by decide, by decide⟩, trivial⟩, by decide⟩
  doctype := by
    intro t ht
    simp only [sampleFile, Option.some.injEq] at ht
    subst ht
    have := plain_doctype (a := chars " score-partwise") (by decide) .nil
    simpa using this
  between := ⟨⟨(by decide : ∀ c ∈ ['\r', '\n'], XmlSpace c), ⟨name_ok (by decide), by decide, by decide, by decide, by decide, by simp, by decide⟩, trivial⟩, by decide⟩
  root := by
    refine ⟨⟨⟨name_ok (by decide), ?_, by simp⟩, by decide, ⟨by decide, by decide, by decide⟩, ⟨name_ok (by decide), by decide, by decide, by decide, by decide, ?_, by decide⟩,
      ⟨⟨name_ok (by decide), by simp, by simp⟩, by decide, ?_, ⟨'a', by decide, by decide⟩⟩, ⟨name_ok (by decide), by decide⟩, ⟨⟨name_ok (by decide), by simp, by simp⟩, by simp, by decide, by decide⟩,
      (by decide : ∀ c ∈ [' '], XmlSpace c), trivial⟩, rfl⟩
    · intro x hx
      simp only [List.mem_cons, List.not_mem_nil, or_false] at hx
      subst hx
      refine ⟨by simp, by decide, name_ok (by decide), .inr rfl, .char (by decide) (by decide) (by decide) (by decide) ?_⟩
      exact ValueSpells.reference (r := ['#', '4', '6', ';']) (n := 46) (Reference.decimal (ds := [4, 6]) (by simp) (by decide) (by decide) (by decide))
        (.char (by decide) (by decide) (by decide) (by decide) .nil)
    · intro c r h
      simp only [List.cons.injEq] at h
      obtain ⟨rfl, -⟩ := h
      decide
    · refine .char (by decide) (by decide) (by decide) (by decide) (.entity (r := chars "lt;") (by decide) ?_)
      exact TextSpells.reference (r := ['#', 'x', '4', '2', ';']) (n := 66) (Reference.hexadecimal (ds := [(false, 4), (false, 2)]) (by simp) (by decide) (by decide) (by decide)) (.crlf .nil)
  after := ⟨⟨(by decide : ∀ c ∈ ['\n'], XmlSpace c), trivial⟩, by decide⟩

example : load sampleFile.text
    = some (false, .mk (chars "score-partwise") [(chars "version", chars "3.0")] [⟨chars "p", chars "q r", true⟩] [] [.mk (chars "t") [] [⟨chars "x", [], false⟩] (chars "a<B\n") [], .mk (chars "u") [] [] (chars " <&]\n") []]) := by
  refine C73_any_spelling_partial sampleFile sampleFile_ok ?_ false _ _ _ _ rfl
  intro a g h
  simp only [sampleFile, Option.some.injEq, Prod.mk.injEq] at h
  obtain ⟨rfl, rfl⟩ := h
  exact ⟨⟨[], [], rfl, .inl rfl, .inl rfl⟩, by decide⟩

/-! ### Where the property fails -/

/-- A score with an attribute of the given value. -/
def withAttribute (v : Str) : CDoc := ⟨false, .node (chars "score-partwise") [(chars "version", v)] [] (.nil []) false true⟩

/-- The attributes of the root element. -/
def rootAttributes : Bool × Elem → List (Str × Str)
  | (_, .mk _ a _ _ _) => a

/-- **C72** fails for double quotes in attribute values, which are not escaped: a document with the value `a"b` cannot be saved. -/
theorem C72_quote_not_saved : save (withAttribute (chars "a\"b")) = none := by decide +kernel

/-- **C72** fails for double quotes in attribute values: from the value `3.0" id="x` another attribute arises. -/
theorem C72_quote_adds_attribute : ((save (withAttribute (chars "3.0\" id=\"x"))).bind load).map rootAttributes = some [(chars "version", chars "3.0"), (chars "id", chars "x")] := by decide +kernel

/-- **C72**: a file with a quote in an attribute value is loaded, but cannot be saved again. -/
theorem C72_loaded_but_not_saved :
    ∃ text d, load text = some (d.timewise, contents d.root) ∧ Laid d.root ∧ save d = none :=
  ⟨chars "<score-partwise version='a\"b'/>", withAttribute (chars "a\"b"), by rfl, (by decide : ∀ c ∈ ([] : List Char), XmlSpace c), C72_quote_not_saved⟩

/-- **C72** fails for `?>` in a processing instruction: its rest is read as part of the document. -/
theorem C72_instruction_breaks_out :
    ((save ⟨false, .node (chars "score-partwise") [] [] (.cons [] (.text (chars "a") [] [⟨chars "p", chars "?><b/><?q", false⟩] [] false) (.nil [])) false true⟩).bind load).map
      (fun x => match x.2 with | .mk _ _ _ _ ks => ks.length) = some 2 := by decide +kernel

/-- Control characters are saved as references that XML does not allow. -/
theorem C72_control_characters :
    (save ⟨false, .text (chars "score-partwise") [] [] ['\x01'] true⟩).map (fun text => decide (chars "&#01;" <:+: text)) = some true := by decide +kernel

/-- The texts of the children of the root element. -/
def childTexts : Bool × Elem → List Str
  | (_, .mk _ _ _ _ ks) => ks.map fun | .mk _ _ _ v _ => v

/-- **C73** fails for texts with a comment in them: only the part in front of the comment is loaded. -/
theorem C73_comment_cuts_text : (load (chars "<score-partwise><words>al<!-- x -->legro</words></score-partwise>")).map childTexts = some [chars "al"] := by decide +kernel

/-- **C73** fails for texts of which only a part is in a CDATA section: only the first part is loaded. -/
theorem C73_section_cuts_text : (load (chars "<score-partwise><words>A <![CDATA[& B]]></words></score-partwise>")).map childTexts = some [chars "A "] := by decide +kernel

/-- **C73** fails for texts of nothing but white space: they are not loaded. -/
theorem C73_blank_text : (load (chars "<score-partwise><words> </words></score-partwise>")).map childTexts = some [[]] := by decide +kernel

end Mx.Props
