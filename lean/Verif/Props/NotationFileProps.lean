import Verif.Proofs.NotationsSaid
import Verif.Props.MarkFileProps

/-! C112: all notations of the notes of a file. -/
namespace Mx.Props
open _root_.Spec Mx.Spec
open Measure (NoteKind)

/-- **C112 (partial)** All `<notations>` elements of a note without tie flags that are read and written say the same, in however many elements and in whatever order ties, slurs, tuplets and
marks are mixed: none has an effect on another.  Afterwards they are in one element, or there is none. -/
theorem C112_notations_partial (kind : NoteKind) (n : TupletNote) (tick : Int) (xs : List (List AnyNotation)) (a : NotationsSaid) (hs : NotationsSay n xs a) (hk : NotationsKept a) :
    ∃ ys b, notationsThrough kind false false n tick xs = some ys ∧ (∀ n', NotationsSay n' ys b) ∧ SameNotations b a ∧ ys.length ≤ 1 := by
  obtain ⟨c, cs, c1, c2, c3⟩ := C109_curves_partial kind _ _ hs.curves hk.curves
  obtain ⟨t, ts, t1, t2, t3⟩ := C110_tuplets_partial n _ _ hs.tuplets hk.tuplets
  obtain ⟨m, ms, m1, m2, m3⟩ := C111_marks_partial tick _ _ hs.marks hk.marks
  obtain ⟨ys, h1, h2, h3, h4⟩ := notations_apart kind false false n tick xs c1 t1 m1
  refine ⟨ys, ⟨cs, ts, ms⟩, h1, fun n' => ⟨by rw [h2]; exact c2, by rw [h3]; exact t2 n', by rw [h4]; exact m2⟩, ⟨c3, t3, m3⟩, ?_⟩
  rw [notationsThrough, Option.bind_eq_some_iff] at h1
  obtain ⟨r, _, h1⟩ := h1
  rw [writeAttachments, Option.map_eq_some_iff] at h1
  obtain ⟨body, _, rfl⟩ := h1
  rw [show tieNotations kind false false = [] by cases kind <;> rfl]
  by_cases e : body = []
  · rw [if_pos e]; simp
  · rw [if_neg e]; simp

/-- **C112 (partial)** The same however many times the file goes through the program. -/
theorem C112_for_ever_partial (kind : NoteKind) (n : TupletNote) (tick : Int) (times : List (TupletNote × Int)) (xs : List (List AnyNotation)) (a : NotationsSaid) (hs : NotationsSay n xs a)
    (hk : NotationsKept a) : ∃ ys b, notationsThroughTimes kind ((n, tick) :: times) xs = some ys ∧ (∀ n', NotationsSay n' ys b) ∧ SameNotations b a ∧ ys.length ≤ 1 := by
  induction times generalizing n tick xs a with
  | nil =>
    obtain ⟨ys, b, h1, h2, h3, h4⟩ := C112_notations_partial kind n tick xs a hs hk
    exact ⟨ys, b, by rw [notationsThroughTimes, h1]; rfl, h2, h3, h4⟩
  | cons p times ih =>
    obtain ⟨n', tick'⟩ := p
    obtain ⟨ys, b, h1, h2, h3, _⟩ := C112_notations_partial kind n tick xs a hs hk
    obtain ⟨zs, d, g1, g2, g3, g4⟩ := ih n' tick' ys b (h2 n') ⟨fun c hc => hk.curves c (h3.curves.1.mem_iff.mp hc), fun c hc => hk.tuplets c (h3.tuplets.1.mem_iff.mp hc),
      fun c hc => hk.marks c (h3.marks.1.mem_iff.mp hc)⟩
    refine ⟨zs, d, by rw [notationsThroughTimes, h1]; exact g1, g2, ⟨⟨g3.curves.1.trans h3.curves.1, fun t => (g3.curves.2 t).trans (h3.curves.2 t)⟩,
      ⟨g3.tuplets.1.trans h3.tuplets.1, g3.tuplets.2.1.trans h3.tuplets.2.1, g3.tuplets.2.2.trans h3.tuplets.2.2⟩, ⟨g3.marks.1.trans h3.marks.1, fun t => (g3.marks.2 t).trans (h3.marks.2 t)⟩⟩, g4⟩

/-- **C112 (partial)** On every note, whatever its tie flags, slurs, tuplets and marks stay. -/
theorem C112_with_ties_partial (kind : NoteKind) (isTieStop isTieStart : Bool) (n : TupletNote) (tick : Int) (xs : List (List AnyNotation)) (a : NotationsSaid) (hs : NotationsSay n xs a)
    (hk : NotationsKept a) :
    ∃ ys cs ts ms, notationsThrough kind isTieStop isTieStart n tick xs = some ys ∧
      (List.Forall₂ CurveSays ((curvesIn ys).filter (·.isSlur)) cs ∧ SameCurves cs (slursOf a)) ∧
      ((∀ n', List.Forall₂ (TupletSays n') (tupletsIn ys) ts) ∧ SameTuplets ts a.tuplets) ∧ MarksSay (marksIn ys) ms ∧ SameMarks ms a.marks := by
  obtain ⟨c, cs, c1, c2, c3⟩ := C109_slurs_partial kind isTieStop isTieStart _ _ hs.curves hk.curves
  obtain ⟨t, ts, t1, t2, t3⟩ := C110_tuplets_partial n _ _ hs.tuplets hk.tuplets
  obtain ⟨m, ms, m1, m2, m3⟩ := C111_marks_partial tick _ _ hs.marks hk.marks
  obtain ⟨ys, h1, h2, h3, h4⟩ := notations_apart kind isTieStop isTieStart n tick xs c1 t1 m1
  exact ⟨ys, cs, ts, ms, h1, ⟨by rw [h2]; exact c2, c3⟩, ⟨fun n' => by rw [h3]; exact t2 n', t3⟩, by rw [h4]; exact m2, m3⟩

/-- The slurs, tuplets and marks of the examples above, mixed and in three elements, with a glissando. -/
def mixedNotations : List (List AnyNotation) :=
  [(sixMarks.take 2).map .mark ++ (twoSlurs.take 1).map .curve, (twoTuplets.take 1).map .tuplet ++ (sixMarks.drop 2).map .mark ++ [.other (chars "glissando")], (twoSlurs.drop 1).map .curve ++ (twoTuplets.drop 1).map .tuplet]

theorem mixedNotations_say : NotationsSay tripletNote mixedNotations ⟨twoSlursSaid, twoTupletsSaid, sixMarksSaid⟩ := ⟨twoSlurs_say, twoTuplets_say, sixMarks_say⟩

example : ∃ ys b, notationsThrough .normal false false tripletNote 0 mixedNotations = some ys ∧ (∀ n', NotationsSay n' ys b) ∧ SameNotations b ⟨twoSlursSaid, twoTupletsSaid, sixMarksSaid⟩ ∧ ys.length ≤ 1 :=
  C112_notations_partial _ _ _ _ _ mixedNotations_say ⟨twoSlurs_kept, twoTuplets_kept, sixMarks_kept⟩

/-- The kinds of the notations of the example in the order in which they are written: both slurs, both tuplets, both dynamics, articulations, ornaments, technical marks. -/
example : (notationsThrough .normal false false tripletNote 0 mixedNotations).map (fun ys => ys.map (fun y => y.map (fun | .curve _ => 0 | .tuplet _ => 1 | .mark _ => 2 | .other _ => 3))) =
    some [[0, 0, 1, 1, 2, 2, 2, 2, 2]] := by decide +kernel

/-- **C112 is false for `<slide>`, `<glissando>` and `<other-notation>`**: they are lost, whatever they are. -/
theorem C112_others_lost (kind : NoteKind) (isTieStop isTieStart : Bool) (n : TupletNote) (tick : Int) (before after : List AnyNotation) (name : Str) :
    notationsThrough kind isTieStop isTieStart n tick [before ++ .other name :: after] = notationsThrough kind isTieStop isTieStart n tick [before ++ after] := by
  have h : readAttachments n tick [before ++ .other name :: after] = readAttachments n tick [before ++ after] := by
    rw [readAttachments, readAttachments, foldlM_flatten, foldlM_flatten]
    simp only [List.flatten_cons, List.flatten_nil, List.append_nil, List.foldlM_append, List.foldlM_cons]
    rfl
  rw [notationsThrough, notationsThrough, h]

end Mx.Props
