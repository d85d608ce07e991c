import Verif.Proofs.CurvesSaid

/-! C109: the ties and slurs of the notes of a file. -/
namespace Mx.Props
open _root_.Spec Mx.Spec
open Measure (NoteKind)

/-- **C109 (partial)** The `<tied>` and `<slur>` elements of a note without tie flags that is read and written say the same: no curve is lost, added or changed, and those of one type stay in
their order.  The full property is for all curves; the theorems below show what is not kept. -/
theorem C109_curves_partial (kind : NoteKind) (xs : List CurveXml) (l : List CurveSaid) (hs : List.Forall₂ CurveSays xs l) (hk : ∀ a ∈ l, CurveKept a) :
    ∃ ys m, curvesThrough kind false false xs = some ys ∧ List.Forall₂ CurveSays ys m ∧ SameCurves m l := by
  obtain ⟨ys, h1, h2⟩ := curves_said kind false false hs hk
  exact ⟨ys, written l, by rw [h1]; cases kind <;> rfl, h2, written_same l⟩

/-- **C109 (partial)** The same however many times the file goes through the program. -/
theorem C109_for_ever_partial (kind : NoteKind) (n : Nat) : ∀ (xs : List CurveXml) (l : List CurveSaid), List.Forall₂ CurveSays xs l → (∀ a ∈ l, CurveKept a) →
    ∃ ys m, curvesThroughTimes kind false false n xs = some ys ∧ List.Forall₂ CurveSays ys m ∧ SameCurves m l := by
  induction n with
  | zero => intro xs l hs _; exact ⟨xs, l, rfl, hs, .refl _, fun _ => rfl⟩
  | succ n ih =>
    intro xs l hs hk
    obtain ⟨ys, m, h1, h2, h3, h4⟩ := C109_curves_partial kind xs l hs hk
    obtain ⟨zs, o, g1, g2, g3, g4⟩ := ih ys m h2 (fun a ha => hk a (h3.mem_iff.mp ha))
    exact ⟨zs, o, by rw [curvesThroughTimes, h1]; exact g1, g2, g3.trans h3, fun t => (g4 t).trans (h4 t)⟩

/-- **C109 (partial)** The slurs of every note stay, whatever its ties. -/
theorem C109_slurs_partial (kind : NoteKind) (isTieStop isTieStart : Bool) (xs : List CurveXml) (l : List CurveSaid) (hs : List.Forall₂ CurveSays xs l) (hk : ∀ a ∈ l, CurveKept a) :
    ∃ ys m, curvesThrough kind isTieStop isTieStart xs = some ys ∧ List.Forall₂ CurveSays (ys.filter (·.isSlur)) m ∧ SameCurves m (l.filter (·.isSlur)) := by
  obtain ⟨ys, h1, h2⟩ := curves_said kind isTieStop isTieStart hs hk
  refine ⟨_, (written l).filter (·.isSlur), h1, ?_, (written_same l).1.filter _, fun t => ?_⟩
  · rw [List.filter_append, show List.filter (·.isSlur) (tieNotations kind isTieStop isTieStart).flatten = [] by cases kind <;> cases isTieStop <;> cases isTieStart <;> rfl, List.nil_append]
    clear h1
    revert h2
    generalize written l = m
    intro h2
    induction h2 with
    | nil => exact .nil
    | cons h _ ih =>
      rename_i x a xs l _
      have e := h.isSlur
      cases ha : a.isSlur
      · rw [List.filter_cons_of_neg (by rw [e, ha]; decide), List.filter_cons_of_neg (by rw [ha]; decide)]; exact ih
      · rw [List.filter_cons_of_pos (by rw [e, ha]), List.filter_cons_of_pos ha]; exact .cons h ih
  · have := (written_same l).2 t
    unfold ofType at this ⊢
    rw [List.filter_comm, this, List.filter_comm]

/-- A slur that ends and a slur that starts, in the other order than that of the program. -/
def twoSlurs : List CurveXml :=
  [{ isSlur := true, type := chars "start", number := some (chars "02"), line := { lineType := some (chars "dashed"), dashLength := some (chars "03") }, position := { placement := some (chars "above") }
     orientation := some (chars "over"), bezierOffset := some (chars "7"), color := some (chars "#FF1000") },
   { isSlur := true, type := chars "stop", number := some (chars "01"), bezierX := some (chars "12") }]

/-- What they say. -/
def twoSlursSaid : List CurveSaid :=
  [{ isSlur := true, type := .start, number := some 2, lineType := some .dashed, dashLength := some 3, placement := some .above, orientation := some .over, bezierOffset := some 7
     color := some { red := 255, green := 16, blue := 0 } },
   { isSlur := true, type := .stop, number := some 1, bezierX := some 12 }]

theorem digits_say (s : Str) (v : ℚ) (h : (∀ c ∈ s, Digit c) ∧ s ≠ [] ∧ v = decimalVal s [] * 10 ^ (0 : Int)) : DecimalSays (some s) (some v) :=
  .inr ⟨s, v, rfl, rfl, [], [], s, [], [], [], [], by simp, by simp, by simp, h.1, by simp, by simpa using h.2.1, .inr ⟨rfl, rfl⟩, 0, .inl ⟨rfl, rfl⟩, .inr ⟨.inl rfl, h.2.2⟩⟩

theorem twoSlurs_say : List.Forall₂ CurveSays twoSlurs twoSlursSaid := by
  have hn : DecimalSays none none := .inl ⟨rfl, rfl⟩
  refine .cons ?_ (.cons ?_ .nil)
  · exact { isSlur := rfl, type := rfl, number := .inr ⟨_, _, rfl, rfl, [], [], chars "02", [], rfl, by simp, by simp, by decide, by decide, .inr ⟨.inl rfl, rfl⟩⟩, lineType := rfl
            dashLength := digits_say _ _ (by decide +kernel), spaceLength := hn, defaultX := hn, defaultY := hn, relativeX := hn, relativeY := hn, halign := rfl, valign := rfl, placement := rfl
            orientation := rfl, bezierOffset := digits_say _ _ (by decide +kernel), bezierX := hn, bezierY := hn, bezierOffset2 := hn, bezierX2 := hn, bezierY2 := hn
            color := .inr (.inl ⟨chars "FF", chars "10", chars "00", 255, 16, 0, rfl, rfl, ⟨15, 15, by decide⟩, ⟨1, 0, by decide⟩, ⟨0, 0, by decide⟩⟩) }
  · exact { isSlur := rfl, type := rfl, number := .inr ⟨_, _, rfl, rfl, [], [], chars "01", [], rfl, by simp, by simp, by decide, by decide, .inr ⟨.inl rfl, rfl⟩⟩, lineType := rfl
            dashLength := hn, spaceLength := hn, defaultX := hn, defaultY := hn, relativeX := hn, relativeY := hn, halign := rfl, valign := rfl, placement := rfl
            orientation := rfl, bezierOffset := hn, bezierX := digits_say _ _ (by decide +kernel), bezierY := hn, bezierOffset2 := hn, bezierX2 := hn, bezierY2 := hn, color := .inl ⟨rfl, rfl⟩ }

theorem twoSlurs_kept : ∀ a ∈ twoSlursSaid, CurveKept a := by
  have h3 : LengthFits 3 := ⟨⟨3000000, by norm_num⟩, by norm_num⟩
  have h12 : LengthFits 12 := ⟨⟨12000000, by norm_num⟩, by norm_num⟩
  intro a ha
  rcases List.mem_cons.mp ha with rfl | ha
  · refine ⟨fun n hn => by cases hn; decide, ?_, fun v hv => by cases hv; exact ⟨7, by norm_num, by decide, by decide⟩, fun h => absurd rfl h, fun _ => ⟨rfl, rfl, rfl⟩⟩
    intro v hv n hn
    simp only [List.mem_cons, List.not_mem_nil, or_false] at hv
    rcases hv with rfl | rfl | rfl | rfl | rfl | rfl | rfl | rfl | rfl | rfl | rfl <;> cases hn
    exact h3
  · rcases List.mem_cons.mp ha with rfl | ha
    · refine ⟨fun n hn => by cases hn; decide, ?_, fun v hv => (by cases hv), fun _ => ⟨rfl, rfl, rfl, rfl, rfl⟩, fun _ => ⟨rfl, rfl, rfl⟩⟩
      intro v hv n hn
      simp only [List.mem_cons, List.not_mem_nil, or_false] at hv
      rcases hv with rfl | rfl | rfl | rfl | rfl | rfl | rfl | rfl | rfl | rfl | rfl <;> cases hn
      exact h12
    · cases ha

example : ∃ ys m, curvesThrough .normal false false twoSlurs = some ys ∧ List.Forall₂ CurveSays ys m ∧ SameCurves m twoSlursSaid := C109_curves_partial .normal _ _ twoSlurs_say twoSlurs_kept

example : ∃ ys m, curvesThrough .normal true true twoSlurs = some ys ∧ List.Forall₂ CurveSays (ys.filter (·.isSlur)) m ∧ SameCurves m (twoSlursSaid.filter (·.isSlur)) :=
  C109_slurs_partial .normal true true _ _ twoSlurs_say twoSlurs_kept

/-- The slurs of the example as they are written: the one that ends is first, and the numbers are in the spelling of the program. -/
example : (curvesThrough .normal false false twoSlurs).map (List.map fun x => (x.type, x.number, x.line.dashLength)) =
    some [(chars "stop", some (chars "1"), none), (chars "start", some (chars "2"), some (chars "3"))] := by decide +kernel

/-- **C109 is false for ties**: a note that starts a tie gets another `<tied>` element each time, so that it has `n` more after `n` times. -/
theorem C109_ties_grow (n k : Nat) : curvesThroughTimes .normal false true n (List.replicate k { isSlur := false, type := chars "start" }) =
    some (List.replicate (n + k) { isSlur := false, type := chars "start" }) := by
  induction n generalizing k with
  | zero => rw [curvesThroughTimes, Nat.zero_add]
  | succ n ih =>
    have hr : ∀ (k : Nat) (c : NoteCurves), (List.replicate k ({ isSlur := false, type := chars "start" } : CurveXml)).foldlM readCurve c =
        some { c with starts := c.starts ++ List.replicate k { curveType := .tie } } := by
      intro k
      induction k with
      | zero => intro c; simp
      | succ k ih =>
        intro c
        rw [List.replicate_succ, List.foldlM_cons, show readCurve c { isSlur := false, type := chars "start" } = some { c with starts := c.starts ++ [{ curveType := .tie }] } from rfl]
        simp only [Option.bind_eq_bind, Option.bind_some]
        rw [ih, List.replicate_succ]
        simp
    have hw : ∀ k : Nat, (List.replicate k ({ curveType := .tie } : CurveStart)).mapM writeStart = some (List.replicate k { isSlur := false, type := chars "start" }) := by
      intro k
      induction k with
      | zero => rfl
      | succ k ih => rw [List.replicate_succ, List.mapM_cons, ih]; rfl
    have h : curvesThrough .normal false true (List.replicate k { isSlur := false, type := chars "start" }) = some (List.replicate (k + 1) { isSlur := false, type := chars "start" }) := by
      rw [curvesThrough, readNoteCurves, hr]
      simp only [Option.bind_some, List.nil_append]
      rw [writeNoteCurves, writeCurves]
      simp only
      rw [hw]
      rfl
    rw [curvesThroughTimes, h, Option.bind_some, ih]
    congr 2
    omega

/-- **C109 is false for lines and colours where a curve ends**: they are lost. -/
theorem C109_line_of_a_stop : curvesThrough .normal false false [{ isSlur := true, type := chars "stop", line := { lineType := some (chars "dashed") }, color := some (chars "#FF0000"), orientation := some (chars "over") }] =
    some [{ isSlur := true, type := chars "stop" }] := by decide +kernel

/-- **C109 is false for the second Bézier point of a tie that continues**: it is lost, while that of a slur stays. -/
theorem C109_second_point (isSlur : Bool) : curvesThrough .normal false false [{ isSlur := isSlur, type := chars "continue", bezierX2 := some (chars "5") }] =
    some [{ isSlur := isSlur, type := chars "continue", bezierX2 := if isSlur then some (chars "5") else none }] := by cases isSlur <;> decide +kernel

/-- **C109 is false for Bézier offsets that are not whole**: they are rounded, halves downwards. -/
theorem C109_offset_rounded : curvesThrough .normal false false [{ isSlur := true, type := chars "start", bezierOffset := some (chars "2.5") }] =
    some [{ isSlur := true, type := chars "start", bezierOffset := some (chars "2") }] := by decide +kernel

/-- **C109 is false for texts that are not colours in upper case** (MusicXML 3.0 allows no others): they become white without an error. -/
theorem C109_lower_case_color : curvesThrough .normal false false [{ isSlur := true, type := chars "start", color := some (chars "#ff0000") }] =
    some [{ isSlur := true, type := chars "start", color := some (chars "#FFFFFF") }] := by decide +kernel

/-- **C109 is false for numbers above 6** (MusicXML 3.0 does not allow them): two slurs with the numbers 6 and 7 become two slurs with the number 6. -/
theorem C109_number_seven : curvesThrough .normal false false [{ isSlur := true, type := chars "start", number := some (chars "6") }, { isSlur := true, type := chars "start", number := some (chars "7") }] =
    some [{ isSlur := true, type := chars "start", number := some (chars "6") }, { isSlur := true, type := chars "start", number := some (chars "6") }] := by decide +kernel

end Mx.Props
