import Verif.Proofs.SupportedSamples
import Verif.Model.DocumentContent
import Verif.Props.ContentProps

/-
C67: documents of other programs.
-/
open Mx.Spec Mx.Content
namespace Mx.Props

/-! ## C67 -/

/-- Every element of the schema, as deep and as long as it may be, is kept if it keeps to what is supported.
Partial: the schema allows a little more for seventeen of the elements, see `narrowed` and, for what becomes of it, `C67_refused` and `C67_changed`. -/
theorem C67_element_partial {c : Cls} (hc : c.info.name ≠ 0) {x : Xml} (h : Supported (classDecl c) x) : Kept c x := by
  obtain ⟨n, h1, h2, h3⟩ := supported_reads (kd := .comp c) hc h
  exact ⟨n, h1, h2, h3⟩

/-- Every partwise document that keeps to what is supported can be loaded, and when it is saved again its elements are the same in the same order.
Partial: as above. -/
theorem C67_partwise_partial {x : Xml} (h : Supported (nm! "score-partwise") x) : ∃ d, loadRoot x = some d ∧ d.timewise = false ∧ d.root = x := by
  obtain ⟨n, h1, h2, h3⟩ := C67_element_partial (c := .ScorePartwise) (by decide) h
  cases h with
  | mk _ data kids r ds _ _ _ _ _ =>
    have en : Schema.declName (nm! "score-partwise") = nm! "score-partwise" := by decide +kernel
    rw [en] at h1 h3 ⊢
    refine ⟨⟨false, n, make (.comp .ScoreTimewise)⟩, ?_, rfl, h3⟩
    simp only [loadRoot, Doc.fromRoot]
    rw [if_pos (show Nat.beq (nm! "score-partwise") (nm! "score-partwise") = true from by decide +kernel), h1]
    rfl

/-- And so can every such timewise document. -/
theorem C67_timewise_partial {x : Xml} (h : Supported (nm! "score-timewise") x) : ∃ d, loadRoot x = some d ∧ d.timewise = true ∧ d.root = x := by
  obtain ⟨n, h1, h2, h3⟩ := C67_element_partial (c := .ScoreTimewise) (by decide) h
  cases h with
  | mk _ data kids r ds _ _ _ _ _ =>
    have en : Schema.declName (nm! "score-timewise") = nm! "score-timewise" := by decide +kernel
    rw [en] at h1 h3 ⊢
    refine ⟨⟨true, make (.comp .ScorePartwise), n⟩, ?_, rfl, h3⟩
    simp only [loadRoot, Doc.fromRoot]
    rw [if_neg (show ¬ Nat.beq (nm! "score-timewise") (nm! "score-partwise") = true from by decide +kernel),
      if_pos (show Nat.beq (nm! "score-timewise") (nm! "score-timewise") = true from by decide +kernel), h1]
    rfl

/-- What is supported is valid. -/
theorem C67_supported_valid {d : Nat} {x : Xml} (h : Supported d x) : ValidFor d x := supported_valid h

/-- And but for seventeen elements everything that is valid is supported. -/
theorem C67_supported_all {d : Nat} (h : d ∉ narrowed.map (·.1)) : supportedModel d = schemaModel d := by
  unfold supportedModel
  have : (narrowed.find? fun p => Nat.beq p.1 d) = none := by
    rw [List.find?_eq_none]
    intro p hp hb
    exact h (List.mem_map.mpr ⟨p, hp, Nat.eq_of_beq_eq_true hb⟩)
  rw [this]

example : narrowed.length = 17 ∧ Schema.decls.length = 390 := by decide +kernel

/-! ### A document -/

def el (n : Nat) (kids : List Xml := []) (data : Str := []) : Xml := .elem n data kids

/-- Two measures with attributes, a direction, a chord, a rest with a lyric, and two voices. -/
def sampleDocument : Xml :=
  el (nm! "score-partwise") [
    el (nm! "work") [el (nm! "work-title") [] (chars "Opus")],
    el (nm! "part-list") [el (nm! "part-group") [el (nm! "group-name") [] (chars "All")], el (nm! "score-part") [el (nm! "part-name") [] (chars "Flute")]],
    el (nm! "part") [
      el (nm! "measure") [
        el (nm! "attributes") [el (nm! "divisions") [] (chars "4"), el (nm! "key") [el (nm! "fifths") [] (chars "2")], el (nm! "time") [el (nm! "beats") [] (chars "3"), el (nm! "beat-type") [] (chars "4")],
          el (nm! "clef") [el (nm! "sign") [] (chars "G"), el (nm! "line") [] (chars "2")]],
        el (nm! "direction") [el (nm! "direction-type") [el (nm! "dynamics") [el (nm! "mf")]], el (nm! "direction-type") [el (nm! "words") [] (chars "dolce")]],
        el (nm! "note") [el (nm! "pitch") [el (nm! "step") [] (chars "C"), el (nm! "octave") [] (chars "4")], el (nm! "duration") [] (chars "4"), el (nm! "voice") [] (chars "1"), el (nm! "type") [] (chars "quarter"),
          el (nm! "notations") [el (nm! "slur"), el (nm! "ornaments") [el (nm! "turn"), el (nm! "accidental-mark")]],
          el (nm! "lyric") [el (nm! "syllabic") [] (chars "begin"), el (nm! "text") [] (chars "A"), el (nm! "elision"), el (nm! "text") [] (chars "ve"), el (nm! "extend")]],
        el (nm! "note") [el (nm! "chord"), el (nm! "pitch") [el (nm! "step") [] (chars "E"), el (nm! "octave") [] (chars "4")], el (nm! "duration") [] (chars "4")],
        el (nm! "backup") [el (nm! "duration") [] (chars "4")],
        el (nm! "note") [el (nm! "rest"), el (nm! "duration") [] (chars "12")]],
      el (nm! "measure") [
        el (nm! "harmony") [el (nm! "root") [el (nm! "root-step") [] (chars "D")], el (nm! "kind") [] (chars "major")],
        el (nm! "note") [el (nm! "grace"), el (nm! "unpitched"), el (nm! "tie")],
        el (nm! "barline") [el (nm! "bar-style") [] (chars "light-heavy"), el (nm! "repeat")]]]]

example : Supported (nm! "score-partwise") sampleDocument := supported_of 8 (by decide +kernel)

example : ∃ d, loadRoot sampleDocument = some d ∧ d.root = sampleDocument := by
  obtain ⟨d, h1, _, h2⟩ := C67_partwise_partial (supported_of 8 (by decide +kernel) : Supported (nm! "score-partwise") sampleDocument)
  exact ⟨d, h1, h2⟩

/-! ### What is not supported -/

def marginsElement : Xml := el (nm! "page-margins") [el (nm! "left-margin"), el (nm! "right-margin"), el (nm! "top-margin"), el (nm! "bottom-margin")]
def metronomeNote : Xml := el (nm! "metronome-note") [el (nm! "metronome-type")]

def refusedElements : List (Cls × Xml) := [
  (.Play, el (nm! "play") [el (nm! "ipa")]),
  (.Percussion, el (nm! "percussion") [el (nm! "timpani")]),
  (.Arrow, el (nm! "arrow") [el (nm! "circular-arrow")]),
  (.Dynamics, el (nm! "dynamics")),
  (.Lyric, el (nm! "lyric") [el (nm! "text"), el (nm! "footnote")]),
  (.Lyric, el (nm! "lyric") [el (nm! "text"), el (nm! "level")]),
  (.Notations, el (nm! "notations") [el (nm! "other-notation")])]

def changedElements : List (Cls × Xml) := [
  (.NoteheadText, el (nm! "notehead-text") [el (nm! "display-text") [] (chars "x")]),
  (.BeatRepeat, el (nm! "beat-repeat")),
  (.Slash, el (nm! "slash")),
  (.PageLayout, el (nm! "page-layout")),
  (.PageLayout, el (nm! "page-layout") [marginsElement]),
  (.Dynamics, el (nm! "dynamics") [el (nm! "p"), el (nm! "f")]),
  (.Interchangeable, el (nm! "interchangeable") [el (nm! "beats"), el (nm! "beat-type"), el (nm! "beats"), el (nm! "beat-type")]),
  (.Key, el (nm! "key")),
  (.Key, el (nm! "key") [el (nm! "key-octave")]),
  (.Lyric, el (nm! "lyric") [el (nm! "text"), el (nm! "elision"), el (nm! "syllabic"), el (nm! "text")]),
  (.Lyric, el (nm! "lyric") [el (nm! "laughing"), el (nm! "end-line")]),
  (.Lyric, el (nm! "lyric") [el (nm! "extend"), el (nm! "end-paragraph")]),
  (.Metronome, el (nm! "metronome") [metronomeNote, el (nm! "metronome-relation"), metronomeNote, metronomeNote]),
  (.MetronomeTuplet, el (nm! "metronome-tuplet") [el (nm! "actual-notes"), el (nm! "normal-notes"), el (nm! "normal-type")]),
  (.Ornaments, el (nm! "ornaments") [el (nm! "turn"), el (nm! "accidental-mark"), el (nm! "shake")]),
  (.Sound, el (nm! "sound") [el (nm! "offset")]),
  (.Sound, el (nm! "sound") [el (nm! "midi-device")]),
  (.Sound, el (nm! "sound") [el (nm! "midi-instrument"), el (nm! "midi-instrument")]),
  (.Credit, el (nm! "credit") [el (nm! "credit-words"), el (nm! "link") [] (chars "x"), el (nm! "credit-words")]),
  (.Credit, el (nm! "credit") [el (nm! "credit-words"), el (nm! "bookmark") [] (chars "x"), el (nm! "credit-words")])]

/-- Seven valid elements that cannot be loaded. -/
theorem C67_refused : ∀ p ∈ refusedElements, ValidFor (classDecl p.1) p.2 ∧ Refused p.1 p.2 := by
  have h : (refusedElements.all fun p => validB 5 schemaModel (classDecl p.1) p.2 && (rewrite p.1 p.2).isNone) = true := by decide +kernel
  intro p hp
  have := List.all_eq_true.mp h p hp
  rw [Bool.and_eq_true] at this
  exact ⟨valid_of 5 this.1, rewrite_none this.2⟩

/-- And twenty that are loaded without a complaint but are not the same when they are saved. -/
theorem C67_changed : ∀ p ∈ changedElements, ValidFor (classDecl p.1) p.2 ∧ ¬ Refused p.1 p.2 ∧ ¬ Kept p.1 p.2 := by
  have h : (changedElements.all fun p => validB 5 schemaModel (classDecl p.1) p.2 && (rewrite p.1 p.2).isSome && !decide (rewrite p.1 p.2 = some (flat p.2))) = true := by decide +kernel
  intro p hp
  have := List.all_eq_true.mp h p hp
  simp only [Bool.and_eq_true, Bool.not_eq_true'] at this
  have hs := rewrite_some this.1.2
  refine ⟨valid_of 5 this.1.1, ?_, ?_⟩
  · intro hr
    rw [Refused, hs] at hr
    cases hr
  · rintro ⟨n, h1, _, h3⟩
    rcases rewrite_differs this.2 with hd | hd
    · rw [h1] at hd; exact hd h3
    · rw [hs] at hd; cases hd

/-- Each of the seventeen elements is among them. -/
theorem C67_each_narrowed : ∀ p ∈ narrowed, ∃ q ∈ refusedElements ++ changedElements, classDecl q.1 = p.1 := by
  have h : (narrowed.all fun p => (refusedElements ++ changedElements).any fun q => Nat.beq (classDecl q.1) p.1) = true := by decide +kernel
  intro p hp
  obtain ⟨q, hq, e⟩ := List.any_eq_true.mp (List.all_eq_true.mp h p hp)
  exact ⟨q, hq, Nat.eq_of_beq_eq_true e⟩

end Mx.Props
