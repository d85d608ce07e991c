import Verif.Proofs.WholeFile
import Verif.Props.XmlFileProps
import Verif.Props.ReaderProps
import Verif.Props.SupportedProps

/-
C74: what a file holds is what it holds after it has been loaded and saved.
-/
open Spec Mx.Spec
namespace Mx.Props
open Mx.XmlDoc Mx.Content

/-- A document that writes the same elements as a lasting element is saved as a well formed text that stands for this element and from which this element is loaded. -/
theorem writes_lasting {join : List (Str × Str) → Str → Str} (hj : Faithful join) {e : Elem} (hl : Lasting e) {tw : Bool} (hn : ∃ a p v ks, e = .mk (rootName tw) a p v ks) (cd : CDoc) (hw : Writes join cd tw (tree join e)) :
    ∃ y : XmlText, y.Ok ∧ pieceElem y.after y.root = [e] ∧ save cd = some y.text ∧ load y.text = some (tw, e) := by
  obtain ⟨rfl, ht, hp, hlaid⟩ := hw
  have hc : contents cd.root = e := tree_inj hj _ _ hp hl.1 ht
  have hd : DocOk cd := ⟨by rw [hc]; exact hl.2.1, hlaid, by rw [hc]; exact hn⟩
  have hu : Unchanged (contents cd.root) := by rw [hc]; exact hl.2.2
  obtain ⟨y, h1, h2, h3⟩ := C72_saved_is_well_formed cd hd
  obtain ⟨text, h4, h5⟩ := C72_nothing_lost cd hd hu
  rw [h2, Option.some.injEq] at h4
  subst h4
  rw [kept_id _ hu, hc] at h3
  rw [hc] at h5
  exact ⟨y, h1, h3, h2, h5⟩

theorem root_name {tw : Bool} {join : List (Str × Str) → Str → Str} {e : Elem} (hp : Plain e) (hs : Supported (nameCode (rootName tw)) (tree join e)) : ∃ a p v ks, e = .mk (rootName tw) a p v ks := by
  obtain ⟨n, a, p, v, ks⟩ := e
  have hdecl : Schema.declName (nameCode (rootName tw)) = nameCode (rootName tw) := by cases tw <;> decide +kernel
  have hname : nameCode n = nameCode (rootName tw) := by
    rw [tree] at hs
    generalize hx : Content.Xml.elem (nameCode n) (join a v) (trees join ks) = x at hs
    cases hs with
    | mk =>
      simp only [Content.Xml.elem.injEq] at hx
      rw [hx.1, hdecl]
  have hroot : ∀ c ∈ rootName tw, c ≠ '\x00' ∧ c.toNat < 256 := by cases tw <;> decide
  simp only [Plain] at hp
  rw [code_inj hp.1 hroot hname]
  exact ⟨a, p, v, ks, rfl⟩

/-- **C74.** A file – spelt in any way – that keeps to the supported part of the schema is loaded, and the document, whatever it looks like when it is written, is saved as a file that stands for the same element: the same elements, attributes and
texts in the same order.
Partial: the objects keep attributes and values as the texts they were read from (see C13 to C23, C53 and C54 for how the texts of values and attributes are read and written); processing instructions are left out (see C72); texts and attributes that XML
or the library cannot write are left out (`Lasting`); the schema allows a little more (C67). -/
theorem C74_loaded_and_saved_partial {join : List (Str × Str) → Str → Str} (hj : Faithful join) (x : XmlText) (h : x.Ok) (hd : ∀ a g, x.declaration = some (a, g) → DeclarationOk a)
    (e : Elem) (he : pieceElem x.after x.root = [e]) (hl : Lasting e) (tw : Bool) (hs : Supported (nameCode (rootName tw)) (tree join e)) :
    load x.text = some (tw, e) ∧ ∃ d, loadRoot (tree join e) = some d ∧ d.timewise = tw
      ∧ ∀ cd, Writes join cd tw d.root → ∃ y : XmlText, y.Ok ∧ pieceElem y.after y.root = [e] ∧ save cd = some y.text ∧ load y.text = some (tw, e) := by
  have hn := root_name hl.1 hs
  have hload : load x.text = some (tw, e) := by
    obtain ⟨a, p, v, ks, rfl⟩ := hn
    exact C73_any_spelling_partial x h hd tw a p v ks he
  refine ⟨hload, ?_⟩
  have hroot : ∃ d, loadRoot (tree join e) = some d ∧ d.timewise = tw ∧ d.root = tree join e := by
    cases tw with
    | false => exact C67_partwise_partial (by have : nameCode (rootName false) = nm! "score-partwise" := by decide +kernel
                                              rwa [this] at hs)
    | true => exact C67_timewise_partial (by have : nameCode (rootName true) = nm! "score-timewise" := by decide +kernel
                                             rwa [this] at hs)
  obtain ⟨d, h1, h2, h3⟩ := hroot
  refine ⟨d, h1, h2, ?_⟩
  intro cd hw
  rw [h3] at hw
  exact writes_lasting hj hl hn cd hw

/-- **C74.** A document that was built with the methods of the library is saved as a text; what is loaded from the text is a document that has the same elements, attributes and texts.
Partial: as above; and see C66 for the conditions on the document. -/
theorem C74_built_and_saved_partial {join : List (Str × Str) → Str → Str} (hj : Faithful join) (d : Doc) (hk : d.score.kind = .comp (if d.timewise then .ScoreTimewise else .ScorePartwise)) (hb : Built d.score)
    (hs : SoundCareful d.score) (hr : Readable d.score) (cd : CDoc) (hw : Writes join cd d.timewise d.root) (hl : Lasting (contents cd.root)) :
    ∃ text e d', save cd = some text ∧ load text = some (d.timewise, e) ∧ loadRoot (tree join e) = some d' ∧ d'.timewise = d.timewise ∧ d'.root = d.root := by
  obtain ⟨d', h1, h2, h3⟩ := C66_document_partial hk hb hs hr
  have hname : ∃ a p v ks, contents cd.root = .mk (rootName d.timewise) a p v ks := by
    obtain ⟨n, a, p, v, ks, he⟩ : ∃ n a p v ks, contents cd.root = .mk n a p v ks := by
      generalize contents cd.root = e
      cases e
      exact ⟨_, _, _, _, _, rfl⟩
    have hp := hw.2.2.1
    have ht := hw.2.1
    have hroot : ∀ c ∈ rootName d.timewise, c ≠ '\x00' ∧ c.toNat < 256 := by cases d.timewise <;> decide
    have hx : ∃ dd ks, d.root = .elem (nameCode (rootName d.timewise)) dd ks := by
      obtain ⟨dd, k, ss, hc⟩ := kind_comp hk
      have : (Node.comp (if d.timewise then .ScoreTimewise else .ScorePartwise) dd k ss).xml = .elem (nameCode (rootName d.timewise)) dd (whole (.comp (if d.timewise then .ScoreTimewise else .ScorePartwise) dd k ss)).kids := by
        rw [hc] at hb hs
        refine ((write_whole _ (built_wide hb) hs).1 (by cases d.timewise <;> rfl)).trans ?_
        have hinfo : (Cls.info (if d.timewise then .ScoreTimewise else .ScorePartwise)).name = nameCode (rootName d.timewise) := by cases d.timewise <;> decide +kernel
        rw [← hinfo]
        rfl
      exact ⟨dd, _, by rw [Doc.root, hc]; exact this⟩
    obtain ⟨dd, xs, hx⟩ := hx
    rw [he] at hp ht
    rw [hx, tree, Content.Xml.elem.injEq] at ht
    simp only [Plain] at hp
    refine ⟨a, p, v, ks, ?_⟩
    rw [he, code_inj hp.1 hroot ht.1]
  obtain ⟨y, -, -, h4, h5⟩ := writes_lasting hj hl hname cd ⟨hw.1, rfl, hw.2.2⟩
  exact ⟨y.text, contents cd.root, d', h4, h5, by rw [hw.2.1]; exact h1, h2, h3⟩

/-! ### A file that meets the hypotheses -/

/-- A way to put attributes and value into one text. -/
def joined : List (Str × Str) → Str → Str
  | [], [] => []
  | [], c :: v => '!' :: c :: v
  | (n, x) :: a, v => mark n ++ mark x ++ joined a v
where mark : Str → Str
  | [] => ['|']
  | c :: s => '.' :: c :: mark s

theorem mark_inj : ∀ {s t r r' : Str}, joined.mark s ++ r = joined.mark t ++ r' → s = t ∧ r = r'
  | [], [], r, r', h => by simpa [joined.mark] using h
  | [], _ :: _, _, _, h => by simp [joined.mark] at h
  | _ :: _, [], _, _, h => by simp [joined.mark] at h
  | c :: s, d :: t, r, r', h => by
    simp only [joined.mark, List.cons_append, List.cons.injEq, true_and] at h
    obtain ⟨h1, h2⟩ := mark_inj h.2
    exact ⟨by rw [h.1, h1], h2⟩

theorem joined_ne {n x : Str} {a : List (Str × Str)} {v : Str} : (∃ r, joined ((n, x) :: a) v = '|' :: r) ∨ ∃ r, joined ((n, x) :: a) v = '.' :: r := by
  cases n with
  | nil => exact .inl ⟨_, rfl⟩
  | cons => exact .inr ⟨_, rfl⟩

theorem joined_faithful : Faithful joined := by
  refine ⟨?_, rfl⟩
  intro a
  induction a with
  | nil =>
    intro v a' v' h
    cases a' with
    | nil => cases v <;> cases v' <;> simp_all [joined]
    | cons y a' =>
      rcases joined_ne (n := y.1) (x := y.2) (a := a') (v := v') with ⟨r, hr⟩ | ⟨r, hr⟩ <;> (rw [hr] at h; cases v <;> simp [joined] at h)
  | cons y a ih =>
    intro v a' v' h
    cases a' with
    | nil =>
      rcases joined_ne (n := y.1) (x := y.2) (a := a) (v := v) with ⟨r, hr⟩ | ⟨r, hr⟩ <;> (rw [hr] at h; cases v' <;> simp [joined] at h)
    | cons z a' =>
      simp only [joined, List.append_assoc] at h
      obtain ⟨h1, h⟩ := mark_inj h
      obtain ⟨h2, h⟩ := mark_inj h
      obtain ⟨h3, h4⟩ := ih _ _ _ h
      exact ⟨by rw [h3, Prod.ext h1 h2], h4⟩

/-- The file `<score-partwise version='3.0'><part-list>…</part-list><!-- the part -->…</score-partwise>`. -/
def supportedFile : XmlText where
  before := [.comment (chars " made by hand "), .space ['\r', '\n']]
  root := .node (chars "score-partwise") [{ gap := [' '], name := chars "version", quote := '\'', spelt := chars "3.0", value := chars "3.0" }] []
    [.node (chars "part-list") [] [] [.node (chars "score-part") [{ gap := [' '], name := chars "id", spelt := chars "P", value := chars "P" }] [] [.text (chars "part-name") [] [] (chars "A&amp;B") (chars "A&B") []] []] [],
     .comment (chars " the part "),
     .node (chars "part") [{ gap := [' '], name := chars "id", spelt := chars "P", value := chars "P" }] [] [.node (chars "measure") [] [] [.node (chars "note") [] [] [.empty (chars "rest") [] [], .cdata (chars "duration") [] [] (chars "4") []] [],
       .node (chars "note") [] [] [.empty (chars "chord") [] [' '], .empty (chars "rest") [] [], .text (chars "duration") [] [] (chars "4") (chars "4") []] []] []] []] []

/-- The element it stands for. -/
def supportedElem : Elem :=
  .mk (chars "score-partwise") [(chars "version", chars "3.0")] [] []
    [.mk (chars "part-list") [] [] [] [.mk (chars "score-part") [(chars "id", chars "P")] [] [] [.mk (chars "part-name") [] [] (chars "A&B") []]],
     .mk (chars "part") [(chars "id", chars "P")] [] [] [.mk (chars "measure") [] [] [] [.mk (chars "note") [] [] [] [.mk (chars "rest") [] [] [] [], .mk (chars "duration") [] [] (chars "4") []],
       .mk (chars "note") [] [] [] [.mk (chars "chord") [] [] [] [], .mk (chars "rest") [] [] [] [], .mk (chars "duration") [] [] (chars "4") []]]]]

theorem attr_ok {n v : Str} (h : (match n with | [] => false | c :: _ => decide (XmlNameStart c)) = true ∧ ∀ c ∈ n, XmlNameChar c) (hv : '"' ∉ v ∧ '\x00' ∉ v) : ∀ x ∈ [(n, v)], AttrOk x := by
  intro x hx
  simp only [List.mem_cons, List.not_mem_nil, or_false] at hx
  subst hx
  exact ⟨name_ok h, hv⟩

theorem supportedElem_lasting : Lasting supportedElem := by
  refine ⟨?_, ?_, ?_⟩
  · simp only [supportedElem, Plain, PlainAll]
    repeat' apply And.intro
    all_goals first | trivial | decide
  · simp only [supportedElem, Writable, WritableAll]
    repeat' apply And.intro
    all_goals first | trivial | exact (name_ok (by decide)).1 | exact (name_ok (by decide)).2 | exact attr_ok (by decide) (by decide) | (intro _ h; simp at h; done) | decide
  · simp only [supportedElem, Unchanged, UnchangedAll]
    repeat' apply And.intro
    all_goals first | trivial | (intro _ h; simp at h; done) | exact .inl rfl | exact .inr ⟨'A', by decide, by decide⟩ | exact .inr ⟨'4', by decide, by decide⟩ | (intro h; simp at h; done) | simp [OneLine] | decide

theorem plain_value {q : Char} : ∀ {v : Str}, (∀ c ∈ v, c ≠ q ∧ c ≠ '&' ∧ ¬ XmlSpace c ∧ c ≠ '\x00') → ValueSpells q v v
  | [], _ => .nil
  | c :: v, h => .char (h c (by simp)).1 (h c (by simp)).2.1 (h c (by simp)).2.2.1 (h c (by simp)).2.2.2 (plain_value fun d hd => h d (by simp [hd]))

theorem plain_attr {g n v : Str} {q : Char} (hg : g ≠ [] ∧ ∀ c ∈ g, XmlSpace c) (hn : (match n with | [] => false | c :: _ => decide (XmlNameStart c)) = true ∧ ∀ c ∈ n, XmlNameChar c) (hq : q = '"' ∨ q = '\'')
    (hv : ∀ c ∈ v, c ≠ q ∧ c ≠ '&' ∧ ¬ XmlSpace c ∧ c ≠ '\x00') : ∀ x ∈ [({ gap := g, name := n, quote := q, spelt := v, value := v } : AttrText)], x.Ok := by
  intro x hx
  simp only [List.mem_cons, List.not_mem_nil, or_false] at hx
  subst hx
  exact ⟨hg.1, by simpa using hg.2, name_ok hn, hq, plain_value hv⟩

theorem supportedFile_ok : supportedFile.Ok where
  declaration := by intro a g h; simp [supportedFile] at h
  before := ⟨⟨⟨by decide, by decide, by decide⟩, (by decide : ∀ c ∈ ['\r', '\n'], XmlSpace c), trivial⟩, by decide⟩
  doctype := by intro t h; simp [supportedFile] at h
  between := ⟨trivial, by simp [supportedFile]⟩
  root := by
    refine ⟨?_, rfl⟩
    simp only [supportedFile, XmlPiece.Ok, PiecesOk, TagOk]
    repeat' apply And.intro
    all_goals first | trivial | exact (name_ok (by decide)).1 | exact (name_ok (by decide)).2 | exact plain_attr (by decide) (by decide) (by decide) (by decide) | (intro _ h; simp at h; done) | decide | skip
    · exact .char (by decide) (by decide) (by decide) (by decide) (.entity (r := chars "amp;") (by decide) (.char (by decide) (by decide) (by decide) (by decide) .nil))
    · exact .char (by decide) (by decide) (by decide) (by decide) .nil
  after := ⟨trivial, by simp [supportedFile]⟩

example : load supportedFile.text = some (false, supportedElem) ∧ ∃ d, loadRoot (tree joined supportedElem) = some d ∧ d.timewise = false
      ∧ ∀ cd, Writes joined cd false d.root → ∃ y : XmlText, y.Ok ∧ pieceElem y.after y.root = [supportedElem] ∧ save cd = some y.text ∧ load y.text = some (false, supportedElem) :=
  C74_loaded_and_saved_partial joined_faithful supportedFile supportedFile_ok (by intro a g h; simp [supportedFile] at h) supportedElem rfl supportedElem_lasting false (supported_of 8 (by decide +kernel))

/-- A document that writes the elements of this file. -/
example : Writes joined ⟨false, .node (chars "score-partwise") [(chars "version", chars "3.0")] []
    (.cons ['\n'] (.node (chars "part-list") [] [] (.cons [] (.node (chars "score-part") [(chars "id", chars "P")] [] (.cons [] (.text (chars "part-name") [] [] (chars "A&B") true) (.nil [])) true true) (.nil [])) true true)
      (.cons ['\n'] (.node (chars "part") [(chars "id", chars "P")] [] (.cons [] (.node (chars "measure") [] []
        (.cons [] (.node (chars "note") [] [] (.cons [] (.text (chars "rest") [] [] [] false) (.cons [] (.text (chars "duration") [] [] (chars "4") true) (.nil []))) true true)
        (.cons [] (.node (chars "note") [] [] (.cons [] (.text (chars "chord") [] [] [] false) (.cons [] (.text (chars "rest") [] [] [] false) (.cons [] (.text (chars "duration") [] [] (chars "4") true) (.nil [])))) true true) (.nil []))) true true) (.nil [])) true true)
      (.nil ['\n']))) false true⟩ false (tree joined supportedElem) := by
  refine ⟨rfl, rfl, supportedElem_lasting.1, ?_⟩
  simp only [Laid, LaidKids]
  repeat' apply And.intro
  all_goals first | trivial | decide

end Mx.Props
