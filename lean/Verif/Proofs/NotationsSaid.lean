import Verif.Spec.NotationsSaid

/-! Lemmas for `Verif/Props/NotationFileProps.lean`. -/
namespace Mx
open _root_.Spec Mx.Spec
open Measure (NoteKind)

/-- Curves, tuplets and marks are read independently. -/
theorem attachments_apart (n : TupletNote) (tick : Int) (l : List AnyNotation) : ∀ (a : NoteAttachments) {c : NoteCurves} {t : NoteTuplets} {r : List (List MarkData)},
    (curvesIn [l]).foldlM readCurve a.curves = some c → (tupletsIn [l]).foldlM (readNoteTuplet n) a.tuplets = some t → (marksIn [l]).mapM (readNotation tick) = some r →
    l.foldlM (readAttachment n tick) a = some ⟨c, t, a.marks ++ r.flatten⟩ := by
  simp only [curvesIn, tupletsIn, marksIn, List.flatten_cons, List.flatten_nil, List.append_nil]
  induction l with
  | nil =>
    intro a c t r h1 h2 h3
    cases h1; cases h2; cases h3
    simp
  | cons x l ih =>
    intro a c t r h1 h2 h3
    rw [List.foldlM_cons]
    cases x with
    | curve x =>
      simp only [List.filterMap_cons] at h1 h2 h3
      rw [List.foldlM_cons] at h1
      cases e : readCurve a.curves x with
      | none => rw [e] at h1; cases h1
      | some d =>
        rw [e] at h1
        simp only [readAttachment, e]
        exact ih { a with curves := d } h1 h2 h3
    | tuplet x =>
      simp only [List.filterMap_cons] at h1 h2 h3
      rw [List.foldlM_cons] at h2
      cases e : readNoteTuplet n a.tuplets x with
      | none => rw [e] at h2; cases h2
      | some d =>
        rw [e] at h2
        simp only [readAttachment, e]
        exact ih { a with tuplets := d } h1 h2 h3
    | mark x =>
      simp only [List.filterMap_cons] at h1 h2 h3
      rw [List.mapM_cons] at h3
      cases e : readNotation tick x with
      | none => rw [e] at h3; cases h3
      | some d =>
        rw [e] at h3
        have h3 : (List.mapM (readNotation tick) _).bind (fun rs => some (d :: rs)) = some r := h3
        obtain ⟨r', e', h3⟩ := Option.bind_eq_some_iff.mp h3
        cases h3
        simp only [readAttachment, e]
        refine (ih { a with marks := a.marks ++ d } h1 h2 e').trans ?_
        rw [List.flatten_cons, List.append_assoc]
    | other x =>
      simp only [List.filterMap_cons] at h1 h2 h3
      exact ih a h1 h2 h3

theorem foldlM_flatten {α β : Type} (f : β → α → Option β) (xs : List (List α)) : ∀ b, xs.foldlM (fun b x => x.foldlM f b) b = xs.flatten.foldlM f b := by
  induction xs with
  | nil => intro b; rfl
  | cons x xs ih =>
    intro b
    rw [List.foldlM_cons, List.flatten_cons, List.foldlM_append]
    exact congrArg _ (funext ih)

theorem curvesIn_flatten (xs : List (List AnyNotation)) : curvesIn [xs.flatten] = curvesIn xs := by simp [curvesIn]
theorem tupletsIn_flatten (xs : List (List AnyNotation)) : tupletsIn [xs.flatten] = tupletsIn xs := by simp [tupletsIn]
theorem marksIn_flatten (xs : List (List AnyNotation)) : marksIn [xs.flatten] = marksIn xs := by simp [marksIn]

theorem body_flatten (ties : List (List CurveXml)) (body : List AnyNotation) : (ties.map (·.map AnyNotation.curve) ++ (if body = [] then [] else [body])).flatten = ties.flatten.map .curve ++ body := by
  rw [List.flatten_append, List.map_flatten]
  congr 1
  split
  · subst_vars; rfl
  · simp

/-- Curves, tuplets and marks go through the program independently. -/
theorem notations_apart (kind : NoteKind) (stop start : Bool) (n : TupletNote) (tick : Int) (xs : List (List AnyNotation)) {c : List CurveXml} {t : List TupletXml} {m : List NotationXml}
    (h1 : curvesThrough kind stop start (curvesIn xs) = some c) (h2 : tupletsThrough n (tupletsIn xs) = some t) (h3 : marksThrough tick (marksIn xs) = some m) :
    ∃ ys, notationsThrough kind stop start n tick xs = some ys ∧ curvesIn ys = c ∧ tupletsIn ys = t ∧ marksIn ys = m := by
  rw [curvesThrough, Option.bind_eq_some_iff] at h1
  obtain ⟨c', a1, b1⟩ := h1
  rw [tupletsThrough, Option.map_eq_some_iff] at h2
  obtain ⟨t', a2, rfl⟩ := h2
  rw [marksThrough, Option.bind_eq_some_iff] at h3
  obtain ⟨m', a3, b3⟩ := h3
  rw [readMarks, Option.map_eq_some_iff] at a3
  obtain ⟨r, a3, rfl⟩ := a3
  rw [writeNoteCurves, Option.map_eq_some_iff] at b1
  obtain ⟨c'', b1, rfl⟩ := b1
  have hr : readAttachments n tick xs = some ⟨c', t', r.flatten⟩ := by
    rw [readAttachments, foldlM_flatten]
    exact attachments_apart n tick xs.flatten {} (by rw [curvesIn_flatten]; exact a1) (by rw [tupletsIn_flatten]; exact a2) (by rw [marksIn_flatten]; exact a3)
  refine ⟨_, by rw [notationsThrough, hr, Option.bind_some, writeAttachments, writeNotations]; simp only [b1, b3]; rfl, ?_, ?_, ?_⟩
  · rw [curvesIn, body_flatten]; simp [List.filterMap_append, List.filterMap_map, Function.comp_def]
  · rw [tupletsIn, body_flatten]; simp [List.filterMap_append, List.filterMap_map, Function.comp_def]
  · rw [marksIn, body_flatten]; simp [List.filterMap_append, List.filterMap_map, Function.comp_def]

end Mx
