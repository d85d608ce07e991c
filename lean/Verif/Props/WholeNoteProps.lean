import Verif.Proofs.WholeNoteSaid
import Verif.Props.NotationFileProps
import Verif.Props.NoteFileProps

/-! C113: whole notes of a file. -/
namespace Mx.Props
open _root_.Spec Mx.Spec
open Measure (NoteKind)

/-- **C113 (partial)** A note of a file with all its notations goes through the program any number of times, in whatever measures.  It says the same: pitch, type, dots, accidental, stem, notehead,
beams, slurs, tuplets and marks.  Only the `<tied>` elements grow: each time, all of those of `extraTies` are added.  The full property is for all notes and without the additional ties. -/
theorem C113_whole_note_partial (cs : List NoteContext) (x : WholeNote) (a : WholeNoteSaid) (hs : WholeNoteSays x a) (hk : WholeNoteKept x a) :
    ∃ y b, wholeNoteThroughTimes cs x = some y ∧ WholeNoteSays y b ∧ SameWholeNote b (withExtraTies cs.length a) := by
  induction cs generalizing x a with
  | nil => exact ⟨x, a, rfl, hs, ⟨a.note.beams, .refl _, rfl⟩, ⟨.refl _, fun _ => rfl⟩, ⟨.refl _, rfl, rfl⟩, .refl _, fun _ => rfl⟩
  | cons c cs ih =>
    obtain ⟨y, b, h1, h2, h3, h4⟩ := whole_note c hs hk
    obtain ⟨z, d, g1, g2, g3⟩ := ih y b h2 h3
    exact ⟨z, d, by rw [wholeNoteThroughTimes, h1]; exact g1, g2, sameWholeNote_again cs.length h4 g3⟩

/-- **C113 (partial)** A note that is not tied says the same, ties included. -/
theorem C113_untied_partial (cs : List NoteContext) (x : WholeNote) (a : WholeNoteSaid) (hs : WholeNoteSays x a) (hk : WholeNoteKept x a) (ht : a.note.tieStart = false ∧ a.note.tieStop = false) :
    ∃ y b, wholeNoteThroughTimes cs x = some y ∧ WholeNoteSays y b ∧ SameWholeNote b a := by
  obtain ⟨y, b, h1, h2, h3⟩ := C113_whole_note_partial cs x a hs hk
  have : withExtraTies cs.length a = a := by
    have he : extraTies a.note = [] := by unfold extraTies; rw [ht.1, ht.2]
    unfold withExtraTies
    rw [he]
    simp
  rw [this] at h3
  exact ⟨y, b, h1, h2, h3⟩

/-- **C113 is false for all tied notes**: a note (not a cue note) at which a tie starts or ends has at least one more `<tied>` or `<slur>` element after each time it is saved, without bound: exactly as many as `extraTies` says. -/
theorem C113_curves_counted (cs : List NoteContext) (x y : WholeNote) (a : WholeNoteSaid) (hs : WholeNoteSays x a) (hk : WholeNoteKept x a) (h : wholeNoteThroughTimes cs x = some y) :
    (curvesIn y.notations).length = (curvesIn x.notations).length + cs.length * (extraTies a.note).length ∧ (a.note.tieStart = true ∨ a.note.tieStop = true → 1 ≤ (extraTies a.note).length) := by
  obtain ⟨z, b, h1, h2, h3⟩ := C113_whole_note_partial cs x a hs hk
  rw [h] at h1
  cases h1
  constructor
  · rw [h2.2.curves.length_eq, hs.2.curves.length_eq, h3.2.curves.1.length_eq]
    simp [withExtraTies, Nat.add_comm]
  · unfold extraTies
    cases a.note.tieStart <;> cases a.note.tieStop <;> simp

/-- An eighth note in a triplet. -/
def mixedNote : NoteXml := { plainNote with type := some (chars "eighth"), timeModification := some { actualNotes := chars "03", normalNotes := chars "2", normal := none } }

/-- What it says. -/
def mixedNoteSaid : NoteSaid :=
  { kind := .normal, tieStart := false, tieStop := false, sound := .pitch .c 0 4, type := some .eighth, dots := 0, accidental := none, actualNotes := 3, normalNotes := 2, stem := none
    notehead := .normal, beams := [] }

theorem mixedNote_says : NoteSays mixedNote mixedNoteSaid :=
  ⟨rfl, by decide, by decide, by decide, ⟨rfl, rfl, numeral_says _ _ (by decide)⟩, rfl, rfl, trivial, ⟨numeral_says _ _ (by decide), numeral_says _ _ (by decide)⟩, rfl, .inr ⟨rfl, rfl⟩, .nil⟩

theorem mixedNote_kept : FileNoteKept mixedNoteSaid :=
  ⟨⟨by decide, by decide, ⟨0, by norm_num⟩, by norm_num⟩, by decide, by simp [mixedNoteSaid], fun v p c e b he => (by cases he), by decide, by decide, by decide, ⟨by decide, by decide⟩⟩

theorem mixed_whole : WholeNoteSays ⟨mixedNote, mixedNotations⟩ ⟨mixedNoteSaid, ⟨twoSlursSaid, twoTupletsSaid, sixMarksSaid⟩⟩ ∧ WholeNoteKept ⟨mixedNote, mixedNotations⟩ ⟨mixedNoteSaid, ⟨twoSlursSaid, twoTupletsSaid, sixMarksSaid⟩⟩ :=
  ⟨⟨mixedNote_says, mixedNotations_say⟩, ⟨mixedNote_kept, ⟨twoSlurs_kept, twoTuplets_kept, sixMarks_kept⟩, by decide⟩⟩

example (cs : List NoteContext) : ∃ y b, wholeNoteThroughTimes cs ⟨mixedNote, mixedNotations⟩ = some y ∧ WholeNoteSays y b ∧ SameWholeNote b ⟨mixedNoteSaid, ⟨twoSlursSaid, twoTupletsSaid, sixMarksSaid⟩⟩ :=
  C113_untied_partial cs _ _ mixed_whole.1 mixed_whole.2 ⟨rfl, rfl⟩

/-- A measure for the examples below. -/
def someContext : NoteContext := { readTicks := 12, duration := 12, tick := 0, writtenTicks := 12, siblings := [], index := 0 }

/-- **C113 is false for tied notes**: a note at which a tie ends and another one starts, as every program writes it, has two `<tied>` elements, and six after it is saved, ten after the second time. -/
theorem C113_ties_grow : ∃ x : WholeNote, (curvesIn x.notations).length = 2 ∧
    (wholeNoteThroughTimes [someContext] x).map (fun y => (curvesIn y.notations).length) = some 6 ∧
    (wholeNoteThroughTimes [someContext, someContext] x).map (fun y => (curvesIn y.notations).length) = some 10 :=
  ⟨⟨{ plainNote with ties := [chars "stop", chars "start"] }, [[.curve { isSlur := false, type := chars "stop" }, .curve { isSlur := false, type := chars "start" }]]⟩, by decide +kernel⟩

end Mx.Props
