import Verif.Proofs.ReaderSamples
import Verif.Model.DocumentContent
import Verif.Props.ContentProps

/-
C66: what has been written can be read again, and nothing is lost.
-/
open Mx.Spec Mx.Content
namespace Mx.Props

/-! ## C66 -/

/-- Whatever history of calls has led to an object: its element can be read by a new object of the class, and this one writes the same element again.
Partial: without `Readable` it does not hold (see `C66_complaints` and `C66_losses`), and without `SoundCareful` there is the mistake of `C64_sound`. -/
theorem C66_read_back_partial {n : Node} (hb : Built n) (he : HasElement n) (hs : SoundCareful n) (hr : Readable n) : ReadsBack n := by
  obtain ⟨n', h1, h2, h3, _⟩ := reads_back hb (named_of he) hs hr
  exact ⟨n', h1, h2, h3⟩

/-- A document that has been saved can be loaded. It is a document of the same kind, and when it is saved the same is written again.
Partial: as above. -/
theorem C66_document_partial {d : Doc} (hk : d.score.kind = .comp (if d.timewise then .ScoreTimewise else .ScorePartwise)) (hb : Built d.score) (hs : SoundCareful d.score) (hr : Readable d.score) :
    ∃ d', loadRoot d.root = some d' ∧ d'.timewise = d.timewise ∧ d'.root = d.root := by
  obtain ⟨tw, p, t⟩ := d
  cases tw with
  | false =>
    simp only [Doc.score, Bool.false_eq_true, if_false] at hk hb hs hr
    obtain ⟨n', h1, h2, h3, _⟩ := reads_back hb (by rw [hk]; rfl) hs hr
    have hroot : (⟨false, p, t⟩ : Doc).root = p.xml := rfl
    obtain ⟨dd, k, ss, rfl⟩ := kind_comp hk
    have hx : (Node.comp .ScorePartwise dd k ss).xml = .elem (nm! "score-partwise") dd (whole (.comp .ScorePartwise dd k ss)).kids := (write_whole _ (built_wide hb) hs).1 rfl
    refine ⟨⟨false, n', make (.comp .ScoreTimewise)⟩, ?_, rfl, ?_⟩
    · rw [hroot]
      have h1' : ((Node.comp .ScorePartwise dd k ss).xml.child prog).read (make (.comp .ScorePartwise)) = (n', true) := h1
      rw [hx] at h1' ⊢
      simp only [loadRoot, Doc.fromRoot]
      rw [if_pos (show Nat.beq (nm! "score-partwise") (nm! "score-partwise") = true from by decide +kernel), h1']
      rfl
    · exact h3
  | true =>
    simp only [Doc.score, if_true] at hk hb hs hr
    obtain ⟨n', h1, h2, h3, _⟩ := reads_back hb (by rw [hk]; rfl) hs hr
    have hroot : (⟨true, p, t⟩ : Doc).root = t.xml := rfl
    obtain ⟨dd, k, ss, rfl⟩ := kind_comp hk
    have hx : (Node.comp .ScoreTimewise dd k ss).xml = .elem (nm! "score-timewise") dd (whole (.comp .ScoreTimewise dd k ss)).kids := (write_whole _ (built_wide hb) hs).1 rfl
    refine ⟨⟨true, make (.comp .ScorePartwise), n'⟩, ?_, rfl, ?_⟩
    · rw [hroot]
      have h1' : ((Node.comp .ScoreTimewise dd k ss).xml.child prog).read (make (.comp .ScoreTimewise)) = (n', true) := h1
      rw [hx] at h1' ⊢
      simp only [loadRoot, Doc.fromRoot]
      rw [if_neg (show ¬ Nat.beq (nm! "score-timewise") (nm! "score-partwise") = true from by decide +kernel),
        if_pos (show Nat.beq (nm! "score-timewise") (nm! "score-timewise") = true from by decide +kernel), h1']
      rfl
    · exact h3

/-- Only `score-partwise` and `score-timewise` can be the root. -/
theorem C66_other_root {name : Nat} (h1 : name ≠ nm! "score-partwise") (h2 : name ≠ nm! "score-timewise") (data : Str) (kids : List Xml) : loadRoot (.elem name data kids) = none := by
  have e1 : Nat.beq name (nm! "score-partwise") = false := by
    cases h : Nat.beq name (nm! "score-partwise") with
    | false => rfl
    | true => exact absurd (Nat.eq_of_beq_eq_true h) h1
  have e2 : Nat.beq name (nm! "score-timewise") = false := by
    cases h : Nat.beq name (nm! "score-timewise") with
    | false => rfl
    | true => exact absurd (Nat.eq_of_beq_eq_true h) h2
  simp only [loadRoot, Doc.fromRoot, e1, e2]
  rfl

/-- The score of `C63` meets the conditions, alone and in a document. -/
example : Built smallScore ∧ SoundCareful smallScore ∧ Readable smallScore ∧ smallScore.kind = .comp .ScorePartwise :=
  ⟨smallScore_built, soundCareful_of _ (by decide +kernel), readable_of 14 _ (by decide +kernel), rfl⟩

example : ∃ d', loadRoot (Doc.new.setPartwise smallScore).root = some d' ∧ d'.root = smallScore.xml := by
  obtain ⟨d', h1, _, h2⟩ := C66_document_partial (d := Doc.new.setPartwise smallScore) rfl smallScore_built (soundCareful_of _ (by decide +kernel)) (readable_of 14 _ (by decide +kernel))
  exact ⟨d', h1, h2⟩

/-! ### Where the reader complains about what the writer has written -/

theorem built_leaf {t : Nat} (h : Bool) (d : Str) (ht : leafNames.any (Nat.beq t) = true) : Built (.leaf t h d) := freshB_built _ (by rw [freshB]; exact ht)

def otherNotation : Node := (Op.add 1 ((Op.setChoice 13).apply (fresh 12 (.comp .NotationsChoice)))).apply (fresh 12 (.comp .Notations))
def circularArrow : Node := (Op.setChoice 1).apply (fresh 12 (.comp .Arrow))
def emptyMeasure : Node := (Op.clear 0 []).apply (fresh 12 (.comp .TimewiseMeasure))
def lyricNote : Node := (Op.change 3 0 ((Op.setHas 0 true).apply (fresh 12 (.comp .EditorialGroup)))).apply (fresh 12 (.comp .Lyric))
def lyricLevel : Node := (Op.change 3 0 ((Op.setHas 1 true).apply (fresh 12 (.comp .EditorialGroup)))).apply (fresh 12 (.comp .Lyric))

theorem otherNotation_built : Built otherNotation :=
  built_one (built_fresh (by decide +kernel)) (c := .Notations) rfl ⟨⟨_, _, rfl, rfl⟩, ⟨_, rfl, rfl⟩⟩ rfl
    (built_call _ (built_fresh (by decide +kernel)) (c := .NotationsChoice) rfl (.inr (by decide)) (by simp [Op.args]))

/-- Seven elements that can be built and written but not loaded: every `play`, every `percussion`, `other-notation` in `notations`, a circular arrow, a measure of a timewise score without parts,
and a lyric with a footnote or a level. Loading fails for the whole document, see `C66_complaint_fatal`. -/
theorem C66_complaints : ∀ n ∈ [fresh 12 (.comp .Play), fresh 12 (.comp .Percussion), otherNotation, circularArrow, emptyMeasure, lyricNote, lyricLevel],
    Built n ∧ HasElement n ∧ SoundCareful n ∧ ((n.xml.child prog).read (make n.kind)).2 = false := by
  intro n hn
  simp only [List.mem_cons, List.not_mem_nil, or_false] at hn
  rcases hn with rfl | rfl | rfl | rfl | rfl | rfl | rfl
  · exact ⟨built_fresh (by decide +kernel), by simp only [HasElement, fresh]; decide, soundCareful_of _ (by decide +kernel), complains (by decide +kernel)⟩
  · exact ⟨built_fresh (by decide +kernel), by simp only [HasElement, fresh]; decide, soundCareful_of _ (by decide +kernel), complains (by decide +kernel)⟩
  · exact ⟨otherNotation_built, by simp only [HasElement, otherNotation, Op.apply, fresh]; decide, soundCareful_of _ (by decide +kernel), complains (by decide +kernel)⟩
  · exact ⟨built_call _ (built_fresh (by decide +kernel)) (c := .Arrow) rfl (.inr (by decide)) (by simp [Op.args]), by simp only [HasElement, circularArrow, Op.apply, fresh]; decide, soundCareful_of _ (by decide +kernel), complains (by decide +kernel)⟩
  · exact ⟨built_call _ (built_fresh (by decide +kernel)) (c := .TimewiseMeasure) rfl ⟨⟨_, _, rfl, rfl⟩, rfl, by simp⟩ (by simp [Op.args]), by simp only [HasElement, emptyMeasure, Op.apply, fresh]; decide, soundCareful_of _ (by decide +kernel), complains (by decide +kernel)⟩
  · exact ⟨built_one (built_fresh (by decide +kernel)) (c := .Lyric) rfl ⟨_, rfl, rfl⟩ rfl (built_call _ (built_fresh (by decide +kernel)) (c := .EditorialGroup) rfl trivial (by simp [Op.args])),
      by simp only [HasElement, lyricNote, Op.apply, fresh]; decide, soundCareful_of _ (by decide +kernel), complains (by decide +kernel)⟩
  · exact ⟨built_one (built_fresh (by decide +kernel)) (c := .Lyric) rfl ⟨_, rfl, rfl⟩ rfl (built_call _ (built_fresh (by decide +kernel)) (c := .EditorialGroup) rfl trivial (by simp [Op.args])),
      by simp only [HasElement, lyricLevel, Op.apply, fresh]; decide, soundCareful_of _ (by decide +kernel), complains (by decide +kernel)⟩

def lyricNoteNote : Node := (Op.add 13 lyricNote).apply (fresh 12 (.comp .Note))
def lyricItem : Node := (Op.change 0 0 lyricNoteNote).apply smallNote
def lyricMusic : Node := (Op.add 0 lyricItem).apply (fresh 12 (.comp .MusicDataGroup))
def lyricMeasure : Node := (Op.change 0 0 lyricMusic).apply (fresh 12 (.comp .PartwiseMeasure))
def lyricPart : Node := (Op.change 0 0 lyricMeasure).apply (fresh 12 (.comp .PartwisePart))

/-- A score whose only note has a lyric with a footnote. -/
def lyricScore : Node := (Op.change 1 0 lyricPart).apply (fresh 12 (.comp .ScorePartwise))

/-- One such element is enough for the whole document to be refused. -/
theorem C66_complaint_fatal : Built lyricScore ∧ lyricScore.kind = .comp .ScorePartwise ∧ Careful lyricScore ∧ SoundCareful lyricScore ∧
    flat lyricNote.xml = [(nm! "lyric", []), (nm! "text", []), (0, []), (nm! "footnote", []), (0, []), (0, [])] ∧ loadRoot (Doc.new.setPartwise lyricScore).root = none := by
  have h0 : Built lyricNote := (C66_complaints _ (by simp)).1
  have h1 : Built smallNote := built_call _ (built_fresh (by decide +kernel)) (c := .MusicDataChoice) rfl (.inr (by decide)) (by simp [Op.args])
  have h2 : Built lyricNoteNote := built_one (built_fresh (by decide +kernel)) (c := .Note) rfl ⟨⟨_, _, rfl, rfl⟩, ⟨_, rfl, rfl⟩⟩ rfl h0
  have h3 : Built lyricItem := built_one h1 (c := .MusicDataChoice) rfl ⟨_, rfl, rfl⟩ rfl h2
  have h4 : Built lyricMusic := built_one (built_fresh (by decide +kernel)) (c := .MusicDataGroup) rfl ⟨⟨_, _, rfl, rfl⟩, ⟨_, rfl, rfl⟩⟩ rfl h3
  have h5 : Built lyricMeasure := built_one (built_fresh (by decide +kernel)) (c := .PartwiseMeasure) rfl ⟨_, rfl, rfl⟩ rfl h4
  have h6 : Built lyricPart := built_one (built_fresh (by decide +kernel)) (c := .PartwisePart) rfl ⟨_, rfl, rfl⟩ rfl h5
  exact ⟨built_one (built_fresh (by decide +kernel)) (c := .ScorePartwise) rfl ⟨_, rfl, rfl⟩ rfl h6, rfl, careful_of _ (by decide +kernel), soundCareful_of _ (by decide +kernel), by decide +kernel,
    Option.isNone_iff_eq_none.mp (by decide +kernel)⟩

/-! ### What the reader loses -/

def textHead : Node :=
  (Op.change 0 0 ((Op.change 0 0 (.leaf (nm! "display-text") true (chars "x"))).apply (fresh 12 (.comp .NoteheadTextChoice)))).apply (fresh 12 (.comp .NoteheadText))
def noKey : Node := (Op.change 0 0 ((Op.setChoice 1).apply (fresh 12 (.comp .KeyChoice)))).apply (fresh 12 (.comp .Key))
def noTime : Node := (Op.change 0 0 ((Op.remove 0 0).apply (fresh 12 (.comp .TimeChoice)))).apply (fresh 12 (.comp .Time))
def laughingEnd : Node := (Op.setHas 1 true).apply ((Op.change 0 0 ((Op.setChoice 2).apply (fresh 12 (.comp .LyricTextChoice)))).apply (fresh 12 (.comp .Lyric)))
def elisionGroup2 : Node :=
  (Op.change 0 0 ((Op.setHas 1 true).apply (fresh 12 (.comp .ElisionSyllabicGroup)))).apply ((Op.setHas 0 true).apply (fresh 12 (.comp .ElisionSyllabicTextGroup)))
def elisionLyric : Node :=
  (Op.change 0 0 ((Op.change 0 0 ((Op.add 2 elisionGroup2).apply (fresh 12 (.comp .SyllabicTextGroup)))).apply (fresh 12 (.comp .LyricTextChoice)))).apply (fresh 12 (.comp .Lyric))
def typedTuplet : Node := (Op.setHas 2 true).apply (fresh 12 (.comp .MetronomeTuplet))
def linkedCredit : Node :=
  (Op.change 3 0 ((Op.add 2 ((Op.add 0 (.leaf (nm! "link") false (chars "x"))).apply (fresh 12 (.comp .CreditWordsGroup)))).apply ((Op.setChoice 1).apply (fresh 12 (.comp .CreditChoice))))).apply (fresh 12 (.comp .Credit))

/-- Seven elements that are loaded without a complaint, and then written differently: the texts of `notehead-text`, a `key` and a `time` that had nothing, a lyric that laughs at the end of a line, the
second syllabic of an elision, the note type of a metronome tuplet, and a link between the words of a credit. -/
theorem C66_losses : ∀ n ∈ [textHead, noKey, noTime, laughingEnd, elisionLyric, typedTuplet, linkedCredit],
    Built n ∧ HasElement n ∧ SoundCareful n ∧ ((n.xml.child prog).read (make n.kind)).2 = true ∧ ¬ ReadsBack n := by
  have yes : ∀ {n : Node} {l : List (Nat × Str)}, reread n = some l → ((n.xml.child prog).read (make n.kind)).2 = true := by
    intro n l h
    cases hr : ((n.xml.child prog).read (make n.kind)).2 with
    | true => rfl
    | false => simp [reread, hr] at h
  intro n hn
  simp only [List.mem_cons, List.not_mem_nil, or_false] at hn
  rcases hn with rfl | rfl | rfl | rfl | rfl | rfl | rfl
  · exact ⟨built_one (built_fresh (by decide +kernel)) (c := .NoteheadText) rfl ⟨_, rfl, rfl⟩ rfl (built_one (built_fresh (by decide +kernel)) (c := .NoteheadTextChoice) rfl ⟨_, rfl, rfl⟩ rfl (built_leaf _ _ (by decide +kernel))),
      by simp only [HasElement, textHead, Op.apply, fresh]; decide, soundCareful_of _ (by decide +kernel), yes (by decide +kernel : reread textHead = some [(nm! "notehead-text", []), (nm! "display-text", []), (0, []), (0, [])]), not_back (by decide +kernel)⟩
  · exact ⟨built_one (built_fresh (by decide +kernel)) (c := .Key) rfl ⟨_, rfl, rfl⟩ rfl (built_call _ (built_fresh (by decide +kernel)) (c := .KeyChoice) rfl (.inr (by decide)) (by simp [Op.args])),
      by simp only [HasElement, noKey, Op.apply, fresh]; decide, soundCareful_of _ (by decide +kernel), yes (by decide +kernel : reread noKey = some [(nm! "key", []), (nm! "fifths", []), (0, []), (0, [])]), not_back (by decide +kernel)⟩
  · exact ⟨built_one (built_fresh (by decide +kernel)) (c := .Time) rfl ⟨_, rfl, rfl⟩ rfl (built_call _ (built_fresh (by decide +kernel)) (c := .TimeChoice) rfl ⟨_, _, rfl, rfl⟩ (by simp [Op.args])),
      by simp only [HasElement, noTime, Op.apply, fresh]; decide, soundCareful_of _ (by decide +kernel), yes (by decide +kernel : reread noTime = some [(nm! "time", []), (nm! "beats", []), (0, []), (nm! "beat-type", []), (0, []), (0, [])]), not_back (by decide +kernel)⟩
  · exact ⟨built_call _ (built_one (built_fresh (by decide +kernel)) (c := .Lyric) rfl ⟨_, rfl, rfl⟩ rfl (built_call _ (built_fresh (by decide +kernel)) (c := .LyricTextChoice) rfl (.inr (by decide)) (by simp [Op.args]))) (c := .Lyric) rfl trivial (by simp [Op.args]),
      by simp only [HasElement, laughingEnd, Op.apply, fresh]; decide, soundCareful_of _ (by decide +kernel), yes (by decide +kernel : reread laughingEnd = some [(nm! "lyric", []), (nm! "text", []), (0, []), (nm! "end-line", []), (0, []), (0, [])]), not_back (by decide +kernel)⟩
  · have h1 : Built elisionGroup2 := built_one (built_call _ (built_fresh (by decide +kernel)) (c := .ElisionSyllabicTextGroup) rfl trivial (by simp [Op.args])) (c := .ElisionSyllabicTextGroup) rfl ⟨_, rfl, rfl⟩ rfl
      (built_call _ (built_fresh (by decide +kernel)) (c := .ElisionSyllabicGroup) rfl trivial (by simp [Op.args]))
    exact ⟨built_one (built_fresh (by decide +kernel)) (c := .Lyric) rfl ⟨_, rfl, rfl⟩ rfl (built_one (built_fresh (by decide +kernel)) (c := .LyricTextChoice) rfl ⟨_, rfl, rfl⟩ rfl
        (built_one (built_fresh (by decide +kernel)) (c := .SyllabicTextGroup) rfl ⟨⟨_, _, rfl, rfl⟩, ⟨_, rfl, rfl⟩⟩ rfl h1)),
      by simp only [HasElement, elisionLyric, Op.apply, fresh]; decide, soundCareful_of _ (by decide +kernel),
      yes (by decide +kernel : reread elisionLyric = some [(nm! "lyric", []), (nm! "text", []), (0, []), (nm! "elision", []), (0, []), (nm! "text", []), (0, []), (0, [])]), not_back (by decide +kernel)⟩
  · exact ⟨built_call _ (built_fresh (by decide +kernel)) (c := .MetronomeTuplet) rfl trivial (by simp [Op.args]),
      by simp only [HasElement, typedTuplet, Op.apply, fresh]; decide, soundCareful_of _ (by decide +kernel),
      yes (by decide +kernel : reread typedTuplet = some [(nm! "metronome-tuplet", []), (nm! "actual-notes", []), (0, []), (nm! "normal-notes", []), (0, []), (0, [])]), not_back (by decide +kernel)⟩
  · exact ⟨built_one (built_fresh (by decide +kernel)) (c := .Credit) rfl ⟨_, rfl, rfl⟩ rfl (built_one (built_call _ (built_fresh (by decide +kernel)) (c := .CreditChoice) rfl (.inr (by decide)) (by simp [Op.args])) (c := .CreditChoice) rfl
        ⟨⟨_, _, rfl, rfl⟩, ⟨_, rfl, rfl⟩⟩ rfl (built_one (built_fresh (by decide +kernel)) (c := .CreditWordsGroup) rfl ⟨⟨_, _, rfl, rfl⟩, ⟨_, rfl, rfl⟩⟩ rfl (built_leaf _ _ (by decide +kernel)))),
      by simp only [HasElement, linkedCredit, Op.apply, fresh]; decide, soundCareful_of _ (by decide +kernel),
      yes (by decide +kernel : reread linkedCredit = some [(nm! "credit", []), (nm! "credit-words", []), (0, []), (nm! "link", []), (0, []), (nm! "credit-words", []), (0, []), (0, [])]), not_back (by decide +kernel)⟩

end Mx.Props
