import Verif.Proofs.LoadedValid
import Verif.Props.SupportedProps

/-
C68: what is saved after loading any document whatever.
-/
open Mx.Spec Mx.Content
namespace Mx.Props

/-! ## C68 -/

/-- Whatever has been loaded, valid or not, with unknown, missing, repeated or misplaced elements: when it is saved, the elements are those of the schema, in the order and number it demands.
Partial: six elements may keep a little more than the schema allows, see `widened`; for five of them `C68_not_valid` shows that they do. -/
theorem C68_saved_partial {x : Xml} {d : Doc} (h : loadRoot x = some d) : NearlyValid (if d.timewise then nm! "score-timewise" else nm! "score-partwise") d.root := by
  cases x with
  | elem name data kids =>
    simp only [loadRoot, Doc.fromRoot] at h
    split at h
    · rename_i d' e
      split at e
      · simp only [Option.some.injEq, Prod.mk.injEq] at e h
        obtain ⟨rfl, _⟩ := e
        subst h
        exact near_read (c := .ScorePartwise) (by decide) (.elem name data kids)
      · split at e
        · simp only [Option.some.injEq, Prod.mk.injEq] at e h
          obtain ⟨rfl, _⟩ := e
          subst h
          exact near_read (c := .ScoreTimewise) (by decide) (.elem name data kids)
        · cases e
    · cases h

/-- The same for the elements of each class, even where the reader complains. -/
theorem C68_element_partial {c : Cls} (hc : c.info.name ≠ 0) (x : Xml) : NearlyValid (classDecl c) (readAndWrite c x) := near_read hc x

/-- All but six elements have the content model of the schema. -/
theorem C68_others {d : Nat} (h : d ∉ widened.map (·.1)) : wideModel d = schemaModel d := by
  unfold wideModel
  have : (widened.find? fun p => Nat.beq p.1 d) = none := by
    rw [List.find?_eq_none]
    intro p hp hb
    exact h (List.mem_map.mpr ⟨p, hp, Nat.eq_of_beq_eq_true hb⟩)
  rw [this]

/-- Elements against the schema that are loaded without a complaint. -/
def overfullElements : List (Cls × Xml) := [
  (.Barline, el (nm! "barline") [el (nm! "fermata"), el (nm! "fermata"), el (nm! "fermata")]),
  (.Note, el (nm! "note") ([el (nm! "rest"), el (nm! "duration")] ++ List.replicate 9 (el (nm! "beam")))),
  (.PageLayout, el (nm! "page-layout") [el (nm! "page-height"), el (nm! "page-width"), marginsElement, marginsElement, marginsElement]),
  (.Time, el (nm! "time") [el (nm! "beats"), el (nm! "beat-type"), el (nm! "interchangeable") [el (nm! "beats"), el (nm! "beat-type")], el (nm! "beats"), el (nm! "beat-type")]),
  (.Ornaments, el (nm! "ornaments") [el (nm! "accidental-mark")])]

/-- Five elements are written against the schema after they have been read against it: the limits that the methods of the classes keep to (see `C65`) are not those of the readers. -/
theorem C68_not_valid : ∀ p ∈ overfullElements, ¬ Refused p.1 p.2 ∧ ¬ ChildrenAllowed (classDecl p.1) (readAndWrite p.1 p.2) := by
  have h : (overfullElements.all fun p => (rewrite p.1 p.2).isSome && forbidden (classDecl p.1) (xmlNames (readAndWrite p.1 p.2))) = true := by decide +kernel
  intro p hp
  have := List.all_eq_true.mp h p hp
  rw [Bool.and_eq_true] at this
  refine ⟨?_, not_allowed this.2⟩
  intro hr
  have hs := rewrite_some this.1
  rw [Refused] at hr
  rw [hr] at hs
  cases hs

/-! ### A document that makes no sense -/

/-- The parts in the wrong order, elements of no known name, a `note` within a `work`, a measure without a number, a key without anything. -/
def nonsenseDocument : Xml :=
  el (nm! "score-partwise") [
    el (nm! "work") [el (nm! "work-title") [] (chars "Opus"), el (nm! "note"), el (nm! "work-number")],
    el (nm! "part-list") [el (nm! "score-part") [el (nm! "no-such-name"), el (nm! "part-name") [] (chars "Flute")]],
    el (nm! "part") [
      el (nm! "measure") [
        el (nm! "attributes") [el (nm! "clef") [el (nm! "line") [] (chars "2"), el (nm! "sign") [] (chars "G")], el (nm! "divisions") [] (chars "4"), el (nm! "key")],
        el (nm! "harmony-of-the-spheres"),
        el (nm! "note") [el (nm! "pitch") [el (nm! "octave") [] (chars "4")], el (nm! "duration") [] (chars "4"), el (nm! "lyric") [el (nm! "text") [] (chars "A")], el (nm! "type")]]]]

/-- It is loaded all the same, and what is saved is valid. -/
example : (∃ d, loadRoot nonsenseDocument = some d ∧ ValidFor (nm! "score-partwise") d.root) ∧ ¬ ChildrenAllowed (nm! "work") (el (nm! "work") [el (nm! "work-title") [] (chars "Opus"), el (nm! "note"), el (nm! "work-number")]) := by
  have h : ((loadRoot nonsenseDocument).any fun d => validB 8 schemaModel (nm! "score-partwise") d.root) = true := by decide +kernel
  refine ⟨?_, not_allowed (by decide +kernel)⟩
  cases hl : loadRoot nonsenseDocument with
  | none => rw [hl] at h; cases h
  | some d => rw [hl] at h; exact ⟨d, rfl, valid_of 8 h⟩

end Mx.Props
