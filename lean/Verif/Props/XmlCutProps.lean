import Verif.Proofs.XmlCutDoc
import Verif.Props.XmlFileProps

/-
C86: a file that is cut off is never taken for another score.
-/
open Spec
namespace Mx.Props
open Mx.XmlDoc

/-- **C86.** Whatever the file: if it can be loaded and a part of it from its start on can be loaded too, both give the same score; only processing instructions behind the root element can be missing. -/
theorem C86_cut_file (part whole : Str) (hp : part <+: whole) (tw : Bool) (n : Str) (a : List (Str × Str)) (p : List Instr) (v : Str) (ks : List Elem) (tw' : Bool) (e : Elem)
    (h : load whole = some (tw, .mk n a p v ks)) (h' : load part = some (tw', e)) : tw' = tw ∧ ∃ p', e = .mk n a p' v ks ∧ p' <+: p := by
  obtain ⟨q, rfl⟩ := hp
  obtain ⟨n', a', p', v', ks'⟩ := e
  obtain ⟨h1, p'', h2, h3⟩ := load_more h' h
  simp only [Elem.mk.injEq] at h2
  obtain ⟨rfl, rfl, rfl, rfl, rfl⟩ := h2
  exact ⟨h1.symm, p', rfl, h3⟩

/-- **C86.** A well formed file of which the end of the root element, or more, is missing is refused. -/
theorem C86_cut_in_root (x : XmlText) (h : x.Ok) (part lost : Str) (hl : lost ≠ []) (he : part ++ lost ++ piecesText x.after = x.text) : load part = none :=
  load_none (Pugi.parse_cut h he hl)

/-- **C86.** What is left of a saved score is refused or gives the same score, perhaps without processing instructions behind the root element. -/
theorem C86_cut_saved (d : CDoc) (h : DocOk d) (text part : Str) (hs : save d = some text) (hp : part <+: text) (n : Str) (a : List (Str × Str)) (p : List Instr) (v : Str) (ks : List Elem)
    (hk : kept (contents d.root) = .mk n a p v ks) : load part = none ∨ ∃ p', load part = some (d.timewise, .mk n a p' v ks) ∧ p' <+: p := by
  obtain ⟨t, h1, h2⟩ := load_save d h
  rw [hs, Option.some.injEq] at h1
  subst h1
  rw [hk] at h2
  cases hl : load part with
  | none => exact .inl rfl
  | some y =>
    obtain ⟨tw', e⟩ := y
    obtain ⟨rfl, p', rfl, h3⟩ := C86_cut_file part text hp _ n a p v ks tw' e h2 hl
    exact .inr ⟨p', rfl, h3⟩

/-- **C86.** A saved score without processing instructions behind the root element: only the last line end can be missing. -/
theorem C86_cut_saved_refused (d : CDoc) (h : DocOk d) (text part : Str) (hs : save d = some text) (hp : part <+: text) (hb : (kept (contents d.root)).behind = []) :
    load part = if text.length ≤ part.length + 1 then some (d.timewise, kept (contents d.root)) else none := by
  obtain ⟨x, h1, hd, h2, h3, h4⟩ := file_document d.timewise _ (kept_normal d.root h.1)
  have h4 := h4 hb
  obtain ⟨ra, rp, rv, rk, hroot⟩ : ∃ a p v ks, kept (contents d.root) = .mk (rootName d.timewise) a p v ks := by
    obtain ⟨-, -, a, p, v, ks, hk⟩ := h
    rw [hk]
    exact ⟨_, _, _, _, rfl⟩
  have hx : x.text = text := by
    rw [save_text d h, Option.some.injEq] at hs
    rw [h2, hs]
  -- without the last line end
  have hw : { x with after := [] : XmlText }.text ++ ['\n'] = text := by
    rw [← hx]
    simp [XmlText.text, h4, piecesText, XmlPiece.text']
  have hload : load { x with after := [] : XmlText }.text = some (d.timewise, kept (contents d.root)) := by
    rw [hroot] at h3 ⊢
    refine load_document (d := { x with after := [] }) ⟨h1.declaration, h1.before, h1.doctype, h1.between, h1.root, trivial, by simp⟩ hd d.timewise ?_
    rw [← h3, h4]
    cases x.root <;> rfl
  generalize { x with after := [] : XmlText }.text = w at hw hload
  subst hw
  obtain ⟨q, hq⟩ := hp
  have hlen := congrArg List.length hq
  simp only [List.length_append, List.length_cons, List.length_nil] at hlen ⊢
  rcases List.eq_nil_or_concat q with rfl | ⟨q', c, rfl⟩
  · rw [if_pos (by simp at hlen; omega)]
    rw [List.append_nil] at hq
    rw [hq]
    exact load_behind hload (by decide)
  · rw [List.concat_eq_append, ← List.append_assoc] at hq
    have hpw : part ++ q' = w := List.append_inj_left' hq rfl
    by_cases hq' : q' = []
    · subst hq'
      rw [List.append_nil] at hpw
      subst hpw
      rw [if_pos (by omega)]
      exact hload
    · rw [if_neg (by have : 0 < q'.length := List.length_pos_of_ne_nil hq'; rw [← hpw, List.length_append]; omega)]
      exact C86_cut_in_root x h1 part q' hq' (by rw [h4, hpw, hx]; rfl)

/-- **C86.** What is appended to a file never changes the score that is loaded from it: the whole is refused or gives the same score, perhaps with further processing instructions. -/
theorem C86_appended (file more : Str) (tw : Bool) (n : Str) (a : List (Str × Str)) (p : List Instr) (v : Str) (ks : List Elem) (h : load file = some (tw, .mk n a p v ks)) :
    load (file ++ more) = none ∨ ∃ p', load (file ++ more) = some (tw, .mk n a p' v ks) ∧ p <+: p' := by
  cases hl : load (file ++ more) with
  | none => exact .inl rfl
  | some y =>
    obtain ⟨tw', e⟩ := y
    obtain ⟨rfl, p', rfl, h3⟩ := load_more h hl
    exact .inr ⟨p', rfl, h3⟩

/-- **C86.** Text without tags behind the root element is ignored. -/
theorem C86_text_behind (file more : Str) (r : Bool × Elem) (h : load file = some r) (hm : '<' ∉ more) : load (file ++ more) = some r := load_behind h hm

/-! ### Cases that meet the hypotheses -/

/-- The names of the processing instructions of the root element and the number of its children. -/
def instructionNames : Bool × Elem → List Str × Nat
  | (_, .mk _ _ p _ ks) => (p.map (·.name), ks.length)

/-- The sample score (Props/XmlFileProps.lean) is saved.  Without the last nine characters the text lacks the instruction behind the root element, and still loads as the same score. -/
example : ((save sampleDoc).bind load).map instructionNames = some ([chars "made", chars "end"], 2)
    ∧ ((save sampleDoc).bind fun text => load (text.take (text.length - 9))).map instructionNames = some ([chars "made"], 2) := by decide +kernel

/-- In the middle of the instruction it is refused, and so it is in the middle of the end tag of the root element. -/
example : ((save sampleDoc).map fun text => (load (text.take (text.length - 5))).map instructionNames) = some none
    ∧ ((save sampleDoc).map fun text => (load (text.take (text.length - 11))).map instructionNames) = some none := by decide +kernel

/-- A score without instructions, for which only the last line end can be missing. -/
def plainDoc : CDoc := ⟨true, .node (chars "score-timewise") [] [] (.cons [] (.text (chars "movement-title") [] [] (chars "a < b") true) (.nil [])) false true⟩

theorem plain_ok : DocOk plainDoc :=
  ⟨⟨name_ok (by decide), by simp, by simp, by decide, ⟨name_ok (by decide), by simp, by simp, by decide, trivial⟩, trivial⟩,
    ⟨by decide, trivial, (by decide : ∀ c ∈ ([] : List Char), XmlSpace c)⟩, ⟨_, _, _, _, rfl⟩⟩

example (text part : Str) (hs : save plainDoc = some text) (hp : part <+: text) (hl : part.length + 1 < text.length) : load part = none := by
  rw [C86_cut_saved_refused plainDoc plain_ok text part hs hp rfl, if_neg (by omega)]

/-- A file with a byte order mark, of which the last character of the root element is missing. -/
example : load (sampleFile.text.take (sampleFile.text.length - 2)) = none := by
  refine C86_cut_in_root sampleFile sampleFile_ok _ ['>'] (by simp) ?_
  decide +kernel

/-! ### Where the property fails -/

/-- The name and the number of children of what is loaded. -/
def outline : Bool × Elem → Bool × Str × Nat
  | (tw, .mk n _ _ _ ks) => (tw, n, ks.length)

/-- **C86**: a second root element, which XML does not allow, is ignored: of two files one behind the other the first one is loaded without an error. -/
theorem C86_second_root_ignored :
    (load (chars "<score-partwise><part-list/><part/></score-partwise><score-timewise><part-list/></score-timewise>")).map outline = some (false, chars "score-partwise", 2) := by decide +kernel

/-- **C86**: an end tag is missing in the middle: the file is refused. -/
example : load (chars "<score-partwise><part-list></score-partwise>") = none := by decide +kernel

end Mx.Props
