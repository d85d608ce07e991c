import Verif.Spec.WholeNoteSaid
import Verif.Proofs.NotationsSaid
import Verif.Proofs.NotesThrough
import Verif.Proofs.CurvesSaid
import Verif.Proofs.TupletsSaid
import Verif.Proofs.MarksSaid

/-! Lemmas for `Verif/Props/WholeNoteProps.lean`. -/
namespace Mx
open _root_.Spec Mx.Spec
open Measure (NoteKind)

theorem plainTie_says (t : Core.StartStopContinue) : CurveSays (addedTied t) (plainTie t) := by
  have hn : DecimalSays none none := .inl ⟨rfl, rfl⟩
  exact { isSlur := rfl, type := by cases t <;> rfl, number := .inl ⟨rfl, rfl⟩, lineType := rfl, dashLength := hn, spaceLength := hn, defaultX := hn, defaultY := hn, relativeX := hn, relativeY := hn
          halign := rfl, valign := rfl, placement := rfl, orientation := rfl, bezierOffset := hn, bezierX := hn, bezierY := hn, bezierOffset2 := hn, bezierX2 := hn, bezierY2 := hn, color := .inl ⟨rfl, rfl⟩ }

theorem plainTie_kept (t : Core.StartStopContinue) : CurveKept (plainTie t) :=
  ⟨fun n hn => (by cases hn), (by intro v hv n hn; simp [plainTie] at hv; subst hv; cases hn), fun n hn => (by cases hn), fun _ => ⟨rfl, rfl, rfl, rfl, rfl⟩, fun _ => ⟨rfl, rfl, rfl⟩⟩

theorem extraTies_kept (a : NoteSaid) : ∀ c ∈ extraTies a, CurveKept c := by
  intro c hc
  unfold extraTies at hc
  split at hc <;> simp only [List.mem_cons, List.not_mem_nil, or_false] at hc
  · rcases hc with rfl | rfl | rfl | rfl <;> exact plainTie_kept _
  · subst hc; exact plainTie_kept _
  · subst hc; exact plainTie_kept _

theorem extraTies_say {a : NoteSaid} (h : a.kind = .cue → a.tieStart = false ∧ a.tieStop = false) : List.Forall₂ CurveSays (tieNotations a.kind a.tieStop a.tieStart).flatten (extraTies a) := by
  unfold tieNotations extraTies
  by_cases hc : a.kind = .cue
  · rw [if_pos hc, (h hc).1, (h hc).2]; exact .nil
  · rw [if_neg hc]
    cases a.tieStop <;> cases a.tieStart
    · exact .nil
    · exact .cons (plainTie_says _) .nil
    · exact .cons (plainTie_says _) .nil
    · exact .cons (plainTie_says _) (.cons (plainTie_says _) (.cons (plainTie_says _) (.cons (plainTie_says _) .nil)))

theorem tie_flags {G : Int} {dv : ℚ} {x : NoteXml} {n : NoteDetails} {a : NoteSaid} (hn : readNote G dv x = some n) (h : NoteSays x a) (hk : FileNoteKept a) :
    n.noteType = a.kind ∧ n.isTieStop = a.tieStop ∧ n.isTieStart = a.tieStart := by
  rw [readNote, Option.map_eq_some_iff] at hn
  obtain ⟨s, _, rfl⟩ := hn
  have e1 : hasTie .start x.ties = a.tieStart := by
    rw [Bool.eq_iff_iff, hasTie_iff h.ties, h.tieStart]; exact Iff.rfl
  have e2 : hasTie .stop x.ties = a.tieStop := by
    rw [Bool.eq_iff_iff, hasTie_iff h.ties, h.tieStop]; exact Iff.rfl
  refine ⟨h.kind, ?_, ?_⟩
  · show (if x.kind = .cue then false else hasTie .stop x.ties) = _
    rw [h.kind, e2]
    split
    · rename_i hc; exact (hk.cue hc).2.symm
    · rfl
  · show (if x.kind = .cue then false else hasTie .start x.ties) = _
    rw [h.kind, e1]
    split
    · rename_i hc; exact (hk.cue hc).1.symm
    · rfl

theorem sameCurves_append (e : List CurveSaid) {l m : List CurveSaid} (h : SameCurves l m) : SameCurves (e ++ l) (e ++ m) :=
  ⟨h.1.append_left e, fun t => by have := h.2 t; unfold ofType at this ⊢; rw [List.filter_append, List.filter_append, this]⟩

theorem sameCurves_trans {l m o : List CurveSaid} (h : SameCurves l m) (h' : SameCurves m o) : SameCurves l o := ⟨h.1.trans h'.1, fun t => (h.2 t).trans (h'.2 t)⟩

theorem whole_note (c : NoteContext) {x : WholeNote} {a : WholeNoteSaid} (hs : WholeNoteSays x a) (hk : WholeNoteKept x a) :
    ∃ y b, wholeNoteThrough c x = some y ∧ WholeNoteSays y b ∧ WholeNoteKept y b ∧ SameWholeNote b (withExtraTies 1 a) := by
  obtain ⟨n, y, h1, h2, bs, h3, h4⟩ := note_kept c.readTicks c.duration (tupletNormal c.writtenTicks c.siblings c.index) hs.1 hk.1 hk.2.2
  obtain ⟨f1, f2, f3⟩ := tie_flags h1 hs.1 hk.1
  obtain ⟨cs, c1, c2⟩ := curves_said n.noteType n.isTieStop n.isTieStart hs.2.curves hk.2.1.curves
  obtain ⟨t, ts, t1, t2, t3⟩ := tuplets_said hs.2.tuplets hk.2.1.tuplets
  obtain ⟨m, m1, m2⟩ := marks_said c.tick hs.2.marks hk.2.1.marks
  obtain ⟨ys, g1, g2, g3, g4⟩ := notations_apart n.noteType n.isTieStop n.isTieStart (tupletNoteOf x.note) c.tick x.notations c1 t1 m1
  rw [notationsThrough, Option.bind_eq_some_iff] at g1
  obtain ⟨at', g0, g1⟩ := g1
  rw [f1, f2, f3] at g2
  refine ⟨⟨y, ys⟩, ⟨{ a.note with beams := bs }, ⟨extraTies a.note ++ written a.notations.curves, ts, marksWritten a.notations.marks⟩⟩, ?_, ⟨h4, ?_, ?_, ?_⟩, ⟨keptWithBeams hk.1 h3, ⟨?_, ?_, ?_⟩, ?_⟩,
    ⟨⟨bs, h3, rfl⟩, ⟨?_, t3, marksWritten_same _⟩⟩⟩
  · rw [wholeNoteThrough, h1]
    show (readAttachments (tupletNoteOf x.note) c.tick x.notations).bind _ = _
    rw [g0]
    show (writeNote (tupletNormal c.writtenTicks c.siblings c.index) n).bind _ = _
    rw [h2]
    show (writeAttachments n.noteType n.isTieStop n.isTieStart at').bind _ = _
    rw [g1]
    rfl
  · show List.Forall₂ CurveSays (curvesIn ys) _
    rw [g2]
    exact List.rel_append (extraTies_say hk.1.cue) c2
  · show List.Forall₂ _ (tupletsIn ys) _
    rw [g3]; exact t2 _
  · show MarksSay (marksIn ys) _
    rw [g4]; exact m2
  · intro d hd
    rcases List.mem_append.mp hd with hd | hd
    · exact extraTies_kept _ d hd
    · exact hk.2.1.curves d ((written_same _).1.mem_iff.mp hd)
  · intro d hd
    exact hk.2.1.tuplets d (t3.1.mem_iff.mp hd)
  · intro d hd
    exact hk.2.1.marks d ((marksWritten_same _).1.mem_iff.mp hd)
  · exact fun b hb e => absurd e (writeNote_beams h2 b hb)
  · show SameCurves _ ((List.replicate 1 (extraTies a.note)).flatten ++ a.notations.curves)
    rw [List.replicate_one, List.flatten_singleton]
    exact sameCurves_append _ (written_same _)

theorem extraTies_beams (a : NoteSaid) (bs : List (Nat × Core.BeamValue)) : extraTies { a with beams := bs } = extraTies a := rfl

theorem sameWholeNote_again (k : Nat) {a b d : WholeNoteSaid} (h : SameWholeNote b (withExtraTies 1 a)) (h' : SameWholeNote d (withExtraTies k b)) : SameWholeNote d (withExtraTies (k + 1) a) := by
  obtain ⟨⟨bs, h1, h2⟩, h3⟩ := h
  obtain ⟨⟨cs, g1, g2⟩, g3⟩ := h'
  have e : extraTies b.note = extraTies a.note := by rw [h2]; rfl
  have hb : b.note = { a.note with beams := bs } := h2
  refine ⟨⟨cs, ?_, ?_⟩, ⟨?_, ?_, ?_⟩⟩
  · have g1 : cs.Perm b.note.beams := g1
    rw [hb] at g1
    exact g1.trans h1
  · have g2 : d.note = { b.note with beams := cs } := g2
    rw [g2, hb]; rfl
  · refine sameCurves_trans g3.curves ?_
    show SameCurves ((List.replicate k (extraTies b.note)).flatten ++ b.notations.curves) ((List.replicate (k + 1) (extraTies a.note)).flatten ++ a.notations.curves)
    have h4 : SameCurves b.notations.curves ((List.replicate 1 (extraTies a.note)).flatten ++ a.notations.curves) := h3.curves
    rw [List.replicate_one, List.flatten_singleton] at h4
    rw [e, List.replicate_succ', List.flatten_append, List.flatten_singleton, List.append_assoc]
    exact sameCurves_append _ h4
  · exact ⟨g3.tuplets.1.trans h3.tuplets.1, g3.tuplets.2.1.trans h3.tuplets.2.1, g3.tuplets.2.2.trans h3.tuplets.2.2⟩
  · exact ⟨g3.marks.1.trans h3.marks.1, fun t => (g3.marks.2 t).trans (h3.marks.2 t)⟩

end Mx
