import Verif.Proofs.StableMend
import Verif.Proofs.StableValid
import Verif.Props.LoadedProps
import Verif.Props.WholeFileProps

/-
C76: documents that have been loaded and saved once.
-/
open Mx.Spec Mx.Content
namespace Mx.Props

/-! ## C76 -/

theorem allowed_root (name : Nat) (tw : Bool) : Allowed name (make (.comp (if tw then .ScoreTimewise else .ScorePartwise))) := by
  refine ⟨?_, ?_, ?_⟩ <;> intro h <;> rw [make_kind] at h <;> cases tw <;> cases h

/-- What has been loaded. -/
theorem loaded_score {x : Xml} {d : Doc} (h : loadRoot x = some d) :
    d.score = ((x.child prog).read (make (.comp (if d.timewise then .ScoreTimewise else .ScorePartwise)))).1 ∧ ((x.child prog).read (make (.comp (if d.timewise then .ScoreTimewise else .ScorePartwise)))).2 = true := by
  cases x with
  | elem name data kids =>
    simp only [loadRoot, Doc.fromRoot] at h
    split at h
    · rename_i d' e
      split at e
      · simp only [Option.some.injEq, Prod.mk.injEq] at e h
        obtain ⟨rfl, e2⟩ := e
        subst h
        exact ⟨rfl, e2⟩
      · split at e
        · simp only [Option.some.injEq, Prod.mk.injEq] at e h
          obtain ⟨rfl, e2⟩ := e
          subst h
          exact ⟨rfl, e2⟩
        · cases e
    · cases h

theorem load_score {tw : Bool} {x : Xml} (hx : xmlName x = if tw then nm! "score-timewise" else nm! "score-partwise") {n : Node} (h : (x.child prog).read (make (.comp (if tw then .ScoreTimewise else .ScorePartwise))) = (n, true)) :
    ∃ d, loadRoot x = some d ∧ d.timewise = tw ∧ d.score = n := by
  cases x with
  | elem name data kids =>
    have hx : name = if tw then nm! "score-timewise" else nm! "score-partwise" := hx
    subst hx
    cases tw with
    | false =>
      simp only [Bool.false_eq_true, if_false] at h ⊢
      refine ⟨⟨false, n, make (.comp .ScoreTimewise)⟩, ?_, rfl, rfl⟩
      simp only [loadRoot, Doc.fromRoot]
      rw [if_pos (show Nat.beq (nm! "score-partwise") (nm! "score-partwise") = true from by decide +kernel), h]
      rfl
    | true =>
      simp only [if_true] at h ⊢
      refine ⟨⟨true, make (.comp .ScorePartwise), n⟩, ?_, rfl, rfl⟩
      simp only [loadRoot, Doc.fromRoot]
      rw [if_neg (show ¬ Nat.beq (nm! "score-timewise") (nm! "score-partwise") = true from by decide +kernel),
        if_pos (show Nat.beq (nm! "score-timewise") (nm! "score-timewise") = true from by decide +kernel), h]
      rfl

theorem again {x : Xml} (hx : Tidy x) {d : Doc} (h : loadRoot x = some d) :
    (∃ d', loadRoot d.root = some d' ∧ d'.timewise = d.timewise ∧ d'.root = d.root) ∧ xmlName d.root = if d.timewise then nm! "score-timewise" else nm! "score-partwise" := by
  obtain ⟨h1, h2⟩ := loaded_score h
  obtain ⟨n', e1, e2, e3, e4⟩ := reads_again (by cases d.timewise <;> decide) (by cases d.timewise <;> decide) (by cases d.timewise <;> decide) hx (allowed_root _ d.timewise) h2
  rw [← h1] at e1 e3 e4
  have hn : xmlName d.score.xml = if d.timewise then nm! "score-timewise" else nm! "score-partwise" := by rw [e4]; cases d.timewise <;> rfl
  obtain ⟨d', f1, f2, f3⟩ := load_score (tw := d.timewise) hn e1
  refine ⟨⟨d', f1, f2, ?_⟩, hn⟩
  rw [Doc.root, f3, e3]
  rfl

/-- Whatever has been loaded – with unknown, missing, repeated or misplaced elements – can be loaded again once it has been saved, and is then saved as it was the first time.
The conditions of `Tidy` on lyrics and on `other-notations` cannot be left out, see `C76_not_stable`. -/
theorem C76_tidy {x : Xml} (hx : Tidy x) {d : Doc} (h : loadRoot x = some d) : ∃ d', loadRoot d.root = some d' ∧ d'.timewise = d.timewise ∧ d'.root = d.root := (again hx h).1

/-- Every document that is valid, if it can be loaded, can be loaded again once it has been saved, and is then saved as it was the first time.
(The schema gives `notehead-text` neither attributes nor a value.) -/
theorem C76_valid {name : Nat} {x : Xml} (hv : ValidFor name x) (ht : BareTexts x) {d : Doc} (h : loadRoot x = some d) :
    ∃ d', loadRoot d.root = some d' ∧ d'.timewise = d.timewise ∧ d'.root = d.root := C76_tidy (valid_tidy hv ht) h

/-- What is saved after loading a document. -/
def resave (x : Xml) : Option Xml := (loadRoot x).map Doc.root

/-- Loading and saving over and over. -/
def resaves : Nat → Xml → Option Xml
  | 0, x => some x
  | k + 1, x => (resaves k x).bind resave

/-- However often it is loaded and saved: it stays what it was after the first time. -/
theorem C76_often {x y : Xml} (hx : Tidy x) (h : resave x = some y) : ∀ k, resaves (k + 1) x = some y
  | 0 => h
  | k + 1 => by
    rw [resaves, C76_often hx h k]
    obtain ⟨d, h1, h2⟩ := Option.map_eq_some_iff.mp h
    obtain ⟨d', h3, _, h4⟩ := C76_tidy hx h1
    subst h2
    show resave d.root = some d.root
    rw [resave, h3, ← h4]
    rfl

/-- The same with the text of the files: what is loaded from the file that has been saved is saved as elements, attributes and texts that are the same. -/
theorem C76_file {join : List (Str × Str) → Str → Str} (hj : _root_.Spec.Faithful join) {x : Xml} (hx : Tidy x) {d : Doc} (h : loadRoot x = some d) (cd : XmlDoc.CDoc) (hw : _root_.Spec.Writes join cd d.timewise d.root)
    (hl : _root_.Spec.Lasting (_root_.Spec.contents cd.root)) :
    ∃ text e d', XmlDoc.save cd = some text ∧ XmlDoc.load text = some (d.timewise, e) ∧ loadRoot (_root_.Spec.tree join e) = some d' ∧ d'.timewise = d.timewise ∧ d'.root = d.root := by
  obtain ⟨⟨d', h1, h2, h3⟩, hr⟩ := again hx h
  have hname : ∃ a p v ks, _root_.Spec.contents cd.root = .mk (_root_.Spec.rootName d.timewise) a p v ks := by
    obtain ⟨n, a, p, v, ks, he⟩ : ∃ n a p v ks, _root_.Spec.contents cd.root = .mk n a p v ks := by
      generalize _root_.Spec.contents cd.root = e
      cases e
      exact ⟨_, _, _, _, _, rfl⟩
    have hp := hw.2.2.1
    have ht := hw.2.1
    have hroot : ∀ c ∈ _root_.Spec.rootName d.timewise, c ≠ '\x00' ∧ c.toNat < 256 := by cases d.timewise <;> decide
    have hc : (if d.timewise then nm! "score-timewise" else nm! "score-partwise") = nameCode (_root_.Spec.rootName d.timewise) := by cases d.timewise <;> decide +kernel
    rw [← ht, he, _root_.Spec.tree, hc] at hr
    rw [he] at hp
    simp only [_root_.Spec.Plain] at hp
    exact ⟨a, p, v, ks, by rw [he, XmlDoc.code_inj hp.1 hroot hr]⟩
  obtain ⟨y, -, -, h4, h5⟩ := writes_lasting hj hl hname cd ⟨hw.1, rfl, hw.2.2⟩
  exact ⟨y.text, _root_.Spec.contents cd.root, d', h4, h5, by rw [hw.2.1]; exact h1, h2, h3⟩

/-! ### Examples -/

mutual
def tidyB : Xml → Bool
  | .elem name data kids => !Nat.beq name 0 && !Nat.beq name (nm! "other-notations") && (!Nat.beq name (nm! "notehead-text") || decide (data = [])) && (!Nat.beq name (nm! "lyric") || orderB (kids.map xmlName)) && tidyAllB kids
def tidyAllB : List Xml → Bool
  | [] => true
  | x :: xs => tidyB x && tidyAllB xs
end

theorem beq_refl' (n : Nat) : Nat.beq n n = true := by simp

mutual
theorem tidy_of : ∀ (x : Xml), tidyB x = true → Tidy x
  | .elem name data kids, h => by
    rw [tidyB] at h
    simp only [Bool.and_eq_true, Bool.or_eq_true, Bool.not_eq_true', decide_eq_true_eq] at h
    refine .elem _ _ _ ⟨?_, ?_, ?_, ?_⟩ (tidyAll_of kids h.2)
    · rintro rfl; rw [beq_refl'] at h; cases h.1.1.1.1
    · rintro rfl; rw [beq_refl'] at h; cases h.1.1.1.2
    · rintro rfl; rw [beq_refl'] at h; rcases h.1.1.2 with h | h; cases h; exact h
    · rintro rfl; rw [beq_refl'] at h; rcases h.1.2 with h | h; cases h; exact h
theorem tidyAll_of : ∀ (xs : List Xml), tidyAllB xs = true → ∀ x ∈ xs, Tidy x
  | [], _, _, hx => by cases hx
  | y :: ys, h, x, hx => by
    rw [tidyAllB, Bool.and_eq_true] at h
    have h1 := tidy_of y h.1
    have h2 := tidyAll_of ys h.2
    rcases List.mem_cons.mp hx with rfl | hx
    · exact h1
    · exact h2 x hx
end

mutual
def bareTextsB : Xml → Bool
  | .elem name data kids => (!Nat.beq name (nm! "notehead-text") || decide (data = [])) && bareTextsAllB kids
def bareTextsAllB : List Xml → Bool
  | [] => true
  | x :: xs => bareTextsB x && bareTextsAllB xs
end

mutual
theorem bareTexts_of : ∀ (x : Xml), bareTextsB x = true → BareTexts x
  | .elem name data kids, h => by
    rw [bareTextsB] at h
    simp only [Bool.and_eq_true, Bool.or_eq_true, Bool.not_eq_true', decide_eq_true_eq] at h
    refine .elem _ _ _ ?_ (bareTextsAll_of kids h.2)
    rintro rfl; rw [beq_refl'] at h; rcases h.1 with h | h; cases h; exact h
theorem bareTextsAll_of : ∀ (xs : List Xml), bareTextsAllB xs = true → ∀ x ∈ xs, BareTexts x
  | [], _, _, hx => by cases hx
  | y :: ys, h, x, hx => by
    rw [bareTextsAllB, Bool.and_eq_true] at h
    have h1 := bareTexts_of y h.1
    have h2 := bareTextsAll_of ys h.2
    rcases List.mem_cons.mp hx with rfl | hx
    · exact h1
    · exact h2 x hx
end

/-- The document that makes no sense is changed when it is saved for the first time, but never after that. -/
example : ∃ y, y ≠ nonsenseDocument ∧ ∀ k, resaves (k + 1) nonsenseDocument = some y := by
  have h : ((resave nonsenseDocument).any fun y => !decide (flat y = flat nonsenseDocument)) = true := by decide +kernel
  cases hr : resave nonsenseDocument with
  | none => rw [hr] at h; cases h
  | some y =>
    refine ⟨y, ?_, C76_often (tidy_of _ (by decide +kernel)) hr⟩
    rintro rfl
    rw [hr] at h
    simp at h

/-- A score of one measure with one rest that has the elements `xs`. -/
def restWith (xs : List Xml) : Xml :=
  el (nm! "score-partwise") [
    el (nm! "part-list") [el (nm! "score-part") [el (nm! "part-name") [] (chars "Flute")]],
    el (nm! "part") [el (nm! "measure") [el (nm! "note") ([el (nm! "rest"), el (nm! "duration") [] (chars "4")] ++ xs)]]]

/-- A valid document that is not kept: an elision before a `syllabic`. -/
def elisionDocument : Xml := restWith [el (nm! "lyric") [el (nm! "text") [] (chars "a"), el (nm! "elision"), el (nm! "syllabic") [] (chars "end"), el (nm! "text") [] (chars "b")]]

example : ValidFor (nm! "score-partwise") elisionDocument ∧ BareTexts elisionDocument ∧ ∃ d d', loadRoot elisionDocument = some d ∧ d.root ≠ elisionDocument ∧ loadRoot d.root = some d' ∧ d'.root = d.root := by
  have hv : ValidFor (nm! "score-partwise") elisionDocument := valid_of 8 (by decide +kernel)
  have hp : BareTexts elisionDocument := bareTexts_of _ (by decide +kernel)
  have h : ((loadRoot elisionDocument).any fun d => !decide (flat d.root = flat elisionDocument)) = true := by decide +kernel
  refine ⟨hv, hp, ?_⟩
  cases hr : loadRoot elisionDocument with
  | none => rw [hr] at h; cases h
  | some d =>
    obtain ⟨d', h1, _, h2⟩ := C76_valid hv hp hr
    refine ⟨d, d', rfl, ?_, h1, h2⟩
    intro e
    rw [hr] at h
    simp [e] at h

/-! ### Where it is otherwise -/

/-- A notation whose name is misspelt, and a lyric in which the end of the line is in front. -/
def misspeltDocument : Xml := restWith [el (nm! "notations") [el (nm! "other-notations")]]
def endLineDocument : Xml := restWith [el (nm! "lyric") [el (nm! "end-line"), el (nm! "laughing")]]

/-- Two documents (neither of them is valid) that can be loaded and saved. What is saved of the first one cannot be loaded any more; what is saved of the second one is changed when it is loaded and saved again. -/
theorem C76_not_stable : (∃ y, resave misspeltDocument = some y ∧ resave y = none) ∧ ∃ y z, resave endLineDocument = some y ∧ resave y = some z ∧ z ≠ y := by
  constructor
  · have h : ((resave misspeltDocument).any fun y => (resave y).isNone) = true := by decide +kernel
    cases hr : resave misspeltDocument with
    | none => rw [hr] at h; cases h
    | some y => rw [hr] at h; exact ⟨y, rfl, by simpa using h⟩
  · have h : ((resave endLineDocument).any fun y => (resave y).any fun z => !decide (flat z = flat y)) = true := by decide +kernel
    cases hr : resave endLineDocument with
    | none => rw [hr] at h; cases h
    | some y =>
      rw [hr] at h
      simp only [Option.any_some] at h
      cases hr2 : resave y with
      | none => rw [hr2] at h; cases h
      | some z =>
        rw [hr2] at h
        refine ⟨y, z, rfl, hr2, ?_⟩
        rintro rfl
        simp at h

end Mx.Props
