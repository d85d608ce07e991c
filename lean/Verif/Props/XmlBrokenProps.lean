import Verif.Proofs.XmlBroken
import Verif.Props.XmlCutProps

/-
C87: a file whose tags do not fit together is refused.
-/
open Spec
namespace Mx.Props
open Mx.XmlDoc

/-- **C87.** Whatever a file begins with, whatever elements have been begun, and whatever follows: if the tags do not fit together or a tag is not spelt right, the file is refused.
Missing: the other rules of XML, which the parser does not check (see below). -/
theorem C87_refused_partial (d : Beginning) (h : d.Ok) (rest : Str) (hr : Broken d.current rest) (hz : '\x00' ∉ d.text ++ rest) : load (d.text ++ rest) = none :=
  load_none (Pugi.parse_broken h hr hz)

/-- **C87.** An element has to be ended by its own name: with another end tag the file is refused, whatever follows. -/
theorem C87_end_tag (d : Beginning) (h : d.Ok) (m rest : Str) (hm : XmlName m) (hne : some m ≠ d.current) (hz : '\x00' ∉ d.text ++ endTagText m [] ++ rest) :
    load (d.text ++ endTagText m [] ++ rest) = none := by
  have e : d.text ++ endTagText m [] ++ rest = d.text ++ ('<' :: '/' :: (m ++ '>' :: rest)) := by simp [endTagText]
  rw [e] at hz ⊢
  refine C87_refused_partial d h _ ?_ hz
  cases hc : d.current with
  | none => exact .lonelyEnd
  | some n =>
    refine .wrongEnd hm.2 (fun e => hne (by rw [hc, e])) ?_
    intro c r e
    simp only [List.cons.injEq] at e
    rw [← e.1]
    decide

/-- **C87.** A file that ends while elements have not been ended is refused. -/
theorem C87_not_ended (d : Beginning) (h : d.Ok) (hb : d.begun ≠ []) (hz : '\x00' ∉ d.text) : load d.text = none := by
  rw [← List.append_nil d.text] at hz ⊢
  refine C87_refused_partial d h _ ?_ hz
  rw [Beginning.current, List.getLast?_eq_some_getLast hb]
  exact .unfinished

/-! ### Cases that meet the hypotheses -/

/-- A byte order mark, a declaration, a document type, and a part with a complete note and an incomplete one. -/
def sampleBeginning : Beginning where
  mark := true
  declaration := some ([{ gap := [' '], name := chars "version", quote := '\'', spelt := chars "1.0", value := chars "1.0" }], [])
  before := [.space ['\n'], .comment (chars " made by hand ")]
  doctype := some (chars " score-partwise")
  between := [.space ['\r', '\n']]
  begun := [{ name := chars "score-partwise", gap := [' '], kids := [.empty (chars "part-list") [] [], .space ['\n']] }, { name := chars "part", attrs := [{ gap := ['\n'], name := chars "id", spelt := chars "P", value := chars "P" }] },
    { name := chars "note", kids := [.text (chars "voice") [] [] (chars "1") (chars "1") []] }]

theorem sampleBeginning_ok : sampleBeginning.Ok where
  declaration := sampleFile_ok.declaration
  before := sampleFile_ok.before.1
  doctype := sampleFile_ok.doctype
  between := ⟨(by decide : ∀ c ∈ ['\r', '\n'], XmlSpace c), trivial⟩
  begun := by
    intro b hb
    simp only [sampleBeginning, List.mem_cons, List.not_mem_nil, or_false] at hb
    rcases hb with rfl | rfl | rfl
    · exact ⟨⟨name_ok (by decide), by simp, by decide⟩, ⟨name_ok (by decide), by simp, by simp⟩, (by decide : ∀ c ∈ ['\n'], XmlSpace c), trivial⟩
    · refine ⟨⟨name_ok (by decide), ?_, by simp⟩, trivial⟩
      intro x hx
      simp only [List.mem_cons, List.not_mem_nil, or_false] at hx
      subst hx
      exact ⟨by simp, by decide, name_ok (by decide), .inl rfl, .char (by decide) (by decide) (by decide) (by decide) .nil⟩
    · exact ⟨⟨name_ok (by decide), by simp, by simp⟩, ⟨⟨name_ok (by decide), by simp, by simp⟩, by simp, .char (by decide) (by decide) (by decide) (by decide) .nil, ⟨'1', by decide, by decide⟩⟩, trivial⟩

example : sampleBeginning.current = some (chars "note") := rfl

/-- The part is ended before the note: the file is refused, whatever follows. -/
example (rest : Str) (hz : '\x00' ∉ rest) : load (sampleBeginning.text ++ endTagText (chars "part") [] ++ rest) = none := by
  refine C87_end_tag sampleBeginning sampleBeginning_ok _ rest (name_ok (by decide)) (by decide) ?_
  simp only [List.mem_append, not_or]
  exact ⟨⟨by decide +kernel, by decide⟩, hz⟩

/-- The same end tags in the right order are no problem. -/
example : (load (sampleBeginning.text ++ chars "</note></part></score-partwise>")).map outline = some (false, chars "score-partwise", 2) := by decide +kernel

/-- A note that is never ended. -/
example : load sampleBeginning.text = none := C87_not_ended sampleBeginning sampleBeginning_ok (by simp [sampleBeginning]) (by decide +kernel)

/-- An attribute without quotes, behind one that is right: `<pitch a="1" b=2>`. -/
example (rest : Str) (hz : '\x00' ∉ rest) : load (sampleBeginning.text ++ ('<' :: (chars "pitch" ++ (chars " a=\"1\"" ++ (chars " b=2>" ++ rest))))) = none := by
  refine C87_refused_partial sampleBeginning sampleBeginning_ok _ ?_ ?_
  · refine Broken.tag (as := [{ gap := [' '], name := ['a'], spelt := ['1'], value := ['1'] }]) ⟨name_ok (by decide), ?_, by simp⟩ ?_
    · intro x hx
      simp only [List.mem_cons, List.not_mem_nil, or_false] at hx
      subst hx
      exact ⟨by simp, by decide, name_ok (by decide), .inl rfl, .char (by decide) (by decide) (by decide) (by decide) .nil⟩
    · exact BrokenAttr.noQuote (g := [' ']) (m := ['b']) (w := []) (w' := []) (c := '2') (s := '>' :: rest) (by simp) (by decide) (name_ok (by decide)) (by decide) (by decide) (by decide)
  · have h1 : '\x00' ∉ sampleBeginning.text := by decide +kernel
    simp [h1, hz]

/-- A comment that does not end. -/
example : load (sampleBeginning.text ++ chars "<!-- </note></part></score-partwise>") = none := by
  refine C87_refused_partial sampleBeginning sampleBeginning_ok _ (.openComment (s := chars " </note></part></score-partwise>") (by decide)) (by decide +kernel)

/-! ### Where the property fails -/

/-- **C87** fails: an attribute that is given twice, which XML does not allow; both are passed on. -/
theorem C87_attribute_twice : (load (chars "<score-partwise version=\"2.0\" version=\"3.0\"></score-partwise>")).map rootAttributes = some [(chars "version", chars "2.0"), (chars "version", chars "3.0")] := by decide +kernel

/-- **C87** fails: `<` and `&` in attribute values, which XML does not allow, are taken as they are. -/
theorem C87_raw_characters : (load (chars "<score-partwise version=\"a<b&c\"></score-partwise>")).map rootAttributes = some [(chars "version", chars "a<b&c")] := by decide +kernel

/-- **C87** fails: a reference to an entity that is not declared, and one to a character that does not exist, stay as they are, or become other bytes. -/
theorem C87_unknown_reference :
    (load (chars "<score-partwise version=\"&copy;\"></score-partwise>")).map rootAttributes = some [(chars "version", chars "&copy;")]
    ∧ (load (chars "<score-partwise version=\"&#xD800;\"></score-partwise>")).map rootAttributes = some [(chars "version", ['\xed', '\xa0', '\x80'])] := by decide +kernel

/-- **C87** fails: a comment with `--`, text in front of the root element, a document type behind it and a declaration that is not at the start are accepted. -/
theorem C87_misplaced :
    (load (chars "<!-- a -- b --><score-partwise><part-list/></score-partwise>")).map outline = some (false, chars "score-partwise", 1)
    ∧ (load (chars "score: <score-partwise><part-list/></score-partwise>")).map outline = some (false, chars "score-partwise", 1)
    ∧ (load (chars "<score-partwise><part-list/></score-partwise><!DOCTYPE score-timewise>")).map outline = some (false, chars "score-partwise", 1)
    ∧ (load (chars "<!-- a --><!DOCTYPE a><?xml version=\"1.0\"?><score-partwise><part-list/></score-partwise>")).map outline = some (false, chars "score-partwise", 1) := by decide +kernel

/-- **C87** fails: the text behind a NUL character is not looked at. -/
theorem C87_behind_nul : (load (chars "<score-partwise><part-list/></score-partwise>" ++ '\x00' :: chars "<part></score-partwise>")).map outline = some (false, chars "score-partwise", 1) := by decide +kernel

end Mx.Props
