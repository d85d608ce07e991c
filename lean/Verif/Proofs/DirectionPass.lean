import Verif.Proofs.DirectionRead
import Verif.Proofs.PassThrough

/-! Directions of measures, parts and files that are loaded and saved. -/
namespace Mx.Measure
open _root_.Spec

variable {P : Type}

theorem placedDirections_staff {G N : Int} (hN : 1 ≤ N) : ∀ (es : List (Elem P)) (c : Clock), DirectionsTimed G N c es → ∀ x ∈ placedDirections c es, 0 ≤ x.2.1 ∧ x.2.1 < N := by
  intro es
  induction es with
  | nil => intro c _ x hx; cases hx
  | cons e es ih =>
    intro c h x hx
    cases e with
    | direction s o p =>
      obtain ⟨_, _, hs, h'⟩ := h
      rcases List.mem_cons.mp hx with rfl | hx
      · cases s with
        | none => simp [staffIndexOf]; omega
        | some i => have := hs i rfl; simp [staffIndexOf]; omega
      · exact ih c h' x hx
    | note n => exact ih _ h x hx
    | backup n => exact ih _ h x hx
    | forward n => exact ih _ h x hx
    | attributes n => exact ih _ h x hx
    | barline n p => exact ih _ h x hx
    | other => exact ih _ h x hx

/-- Splitting a list by a number and putting the parts one after another. -/
theorem split_perm {α : Type} (f : α → Int) (l : List α) : ∀ N : Nat,
    ((List.range N).flatMap (fun i : Nat => l.filter (fun x => f x = (i : Int)))).Perm (l.filter (fun x => decide (0 ≤ f x ∧ f x < N))) := by
  intro N
  induction N with
  | zero =>
    have : l.filter (fun x => decide (0 ≤ f x ∧ f x < ((0 : Nat) : Int))) = [] := by
      rw [List.filter_eq_nil_iff]; intro x _ h; simp at h; omega
    rw [this]; exact .nil
  | succ N ih =>
    rw [List.range_succ, List.flatMap_append]
    have h := List.filter_append_perm (fun x => decide (f x < (N : Int))) (l.filter (fun x => decide (0 ≤ f x ∧ f x < ((N + 1 : Nat) : Int))))
    refine List.Perm.trans ?_ h
    rw [List.filter_filter, List.filter_filter]
    refine List.Perm.append (List.Perm.trans ih (List.Perm.of_eq ?_)) (List.Perm.of_eq ?_)
    · apply List.filter_congr
      intro x _
      rw [← Bool.decide_and]
      apply decide_eq_decide.mpr
      push_cast
      omega
    · simp only [List.flatMap_cons, List.flatMap_nil, List.append_nil]
      apply List.filter_congr
      intro x _
      rw [Bool.eq_iff_iff]
      simp
      omega

theorem expectedDirections_range (G : Int) (f : Nat → StaffData P) : ∀ (n k : Nat),
    expectedDirectionsFrom G k ((List.range' k n).map f) = (List.range' k n).flatMap (fun j : Nat => (f j).directions.map (expectedDirection G j)) := by
  intro n
  induction n with
  | zero => intro k; rfl
  | succ n ih =>
    intro k
    simp only [List.range'_succ, List.map_cons, expectedDirectionsFrom, List.flatMap_cons]
    have := ih (k + 1)
    push_cast at this
    rw [this]

theorem staffOf_directions (G : Int) (st : RSt P) (i : Int) :
    (staffOf st i).directions.map (expectedDirection G i) = (st.directions.map (dirPlace G)).filter (fun x => x.2.1 = i) := by
  unfold staffOf
  simp only
  induction st.directions with
  | nil => rfl
  | cons d ds ih =>
    by_cases h : d.1 = i
    · simp only [List.map_cons, List.filter_cons, dirPlace, h, decide_true, if_true, List.cons.injEq]
      exact ⟨rfl, ih⟩
    · simp only [List.map_cons, List.filter_cons, dirPlace, h, decide_false]
      exact ih

/-- The directions of a measure that was read, staff by staff, are those of the reader. -/
theorem expectedDirections_read (env : REnv) (G : Int) (st : RSt P) (h : ∀ x ∈ st.directions.map (dirPlace G), 0 ≤ x.2.1 ∧ x.2.1 < env.numStaves) :
    (expectedDirections G (measureOf env st)).Perm (st.directions.map (dirPlace G)) := by
  unfold expectedDirections measureOf
  simp only
  rw [List.range_eq_range']
  have := expectedDirections_range G (fun i : Nat => staffOf st (i : Int)) env.numStaves.toNat 0
  simp only [Nat.cast_zero] at this
  rw [this, ← List.range_eq_range']
  have h1 : (fun j : Nat => (staffOf st (j : Int)).directions.map (expectedDirection G (j : Int))) =
      fun j : Nat => (st.directions.map (dirPlace G)).filter (fun x => x.2.1 = (j : Int)) := by
    funext j; exact staffOf_directions G st j
  rw [h1]
  refine (split_perm (fun x : ℚ × Int × P => x.2.1) _ _).trans (List.Perm.of_eq ?_)
  rw [List.filter_eq_self]
  intro x hx
  have := h x hx
  simp
  omega

theorem readMeasures_dirs {G : Int} (hG : 0 < G) {N : Int} : ∀ (ms : List (List (Elem P))) (d : Int), 0 < d → d ∣ G →
    PartTimed N d ms → (∀ m ∈ ms, DividesAll G m) → PartDirectionsTimed G N d ms →
    ∃ rs t, readMeasures ⟨N, G⟩ d ms = some (rs, t) ∧
      List.Forall₂ (fun ds (r : RSt P) => r.directions.map (dirPlace G) = ds ∧ ∀ x ∈ ds, 0 ≤ x.2.1 ∧ x.2.1 < N) (partDirections d ms) rs := by
  intro ms
  induction ms with
  | nil => intro d _ _ _ _ _; exact ⟨[], d, rfl, .nil⟩
  | cons m ms ih =>
    intro d h1 h2 hp hd hc
    obtain ⟨w, s, hp'⟩ := hp
    have hdiv : (Clock.init (d : ℚ)).division = 1 / (d : ℚ) := rfl
    have hw : WellTimed G (Clock.init d) none m := wellTimed_of_whole m _ none d h1 hdiv h2 (hd m (by simp)) w
    obtain ⟨r, g1, g2⟩ := read_follows_dirs (env := ⟨N, G⟩) hG rfl m (Clock.init d) none (initRSt d) hw s hc.1 ⟨h1, rfl, by simp [initRSt, Clock.init], wellTimed_none hw⟩
    have g2 : r.directions.map (dirPlace G) = placedDirections (Clock.init d) m := by simpa [initRSt] using g2
    have htpq := readElems_tpq m (initRSt d) r (wholeDivisions_of_whole m _ none w) g1
    have htpq : r.ticksPerQuarter = divisionsAfter d m := htpq
    obtain ⟨o1, o2⟩ := divisionsAfter_ok m d h1 h2 (wholeDivisions_of_whole m _ none w) (hd m (by simp))
    obtain ⟨rs, t, i1, i2⟩ := ih (divisionsAfter d m) o1 o2 hp' (fun x hx => hd x (by simp [hx])) hc.2
    refine ⟨r :: rs, t, ?_, ?_⟩
    · simp only [readMeasures, Option.bind_eq_bind]
      rw [g1]
      simp only [Option.bind_some]
      rw [htpq, i1]; rfl
    · exact .cons ⟨g2, placedDirections_staff s.1 m _ hc.1⟩ i2

/-- The directions of a loaded part are those of the file. -/
def LoadedDirections (G : Int) (p : List (List (Child P))) (ms : List (MeasureData P)) : Prop :=
  List.Forall₂ (fun ds m => SameDirections (expectedDirections G m) ds) (partDirections 1 (partElems p)) ms

theorem getPartData_dirs {G : Int} (hG : 0 < G) (dv : Int) {p : List (List (Child P))} (hp : PlainPart p) (hd : ∀ m ∈ partElems p, DividesAll G m)
    (hdt : ∀ N, IsStaffCount N p → PartDirectionsTimed G N 1 (partElems p)) :
    ∃ ms t, getPartData G dv p = some (ms, t) ∧ LoadedDirections G p ms := by
  obtain ⟨N, hN, ht⟩ := hp.timed
  have hs := calculateNumStaves_spec p
  have hN' : calculateNumStaves p = N := staffCount_unique hs hN
  have hne : partElems p ≠ [] := by
    intro e
    exact hp.nonempty (List.map_eq_nil_iff.mp e)
  obtain ⟨rs, t, h1, h2⟩ := readMeasures_dirs hG (partElems p) 1 (by omega) (one_dvd _) ht hd (hdt N hN)
  have henv : partEnv G p = ⟨N, G⟩ := by unfold partEnv; rw [hN']
  refine ⟨rs.map (measureOf ⟨N, G⟩), t, ?_, ?_⟩
  · unfold getPartData readPart
    rw [henv, readMeasures_declares hp.declared hne _ 1, h1]
    rfl
  · unfold LoadedDirections
    rw [List.forall₂_map_right_iff]
    refine h2.imp ?_
    rintro ds r ⟨e, hr⟩
    rw [← e]
    exact expectedDirections_read ⟨N, G⟩ G r (by rw [e]; exact hr)

theorem getParts_dirs {G : Int} (hG : 0 < G) : ∀ (ps : List (List (List (Child P)))) (dv : Int),
    (∀ p ∈ ps, PlainPart p ∧ (∀ m ∈ partElems p, DividesAll G m) ∧ ∀ N, IsStaffCount N p → PartDirectionsTimed G N 1 (partElems p)) →
    ∃ o, getParts G dv ps = some o ∧ List.Forall₂ (LoadedDirections G) ps o := by
  intro ps
  induction ps with
  | nil => intro dv _; exact ⟨[], rfl, .nil⟩
  | cons p ps ih =>
    intro dv h
    obtain ⟨ms, t, h1, h2⟩ := getPartData_dirs hG dv (h p (by simp)).1 (h p (by simp)).2.1 (h p (by simp)).2.2
    obtain ⟨o, h3, h4⟩ := ih t (fun q hq => h q (by simp [hq]))
    refine ⟨ms :: o, ?_, .cons h2 h4⟩
    simp only [getParts, Option.bind_eq_bind]
    rw [h1]
    simp only [Option.bind_some]
    rw [h3]; rfl

theorem partDirections_rest {tpq : Int} (ht : 0 < tpq) (N : Nat) : ∀ (ms : List (Extras × MeasureData P)), (∀ x ∈ ms, MeasureOk x.2 ∧ DirectionsClear x.2) →
    partDirections tpq (writeMeasuresFrom N tpq false ms) = ms.map (fun x => expectedDirections tpq x.2) := by
  intro ms
  induction ms with
  | nil => intro _; rfl
  | cons x ms ih =>
    intro h
    obtain ⟨x, m⟩ := x
    simp only [writeMeasuresFrom, partDirections, List.map_cons]
    rw [divisionsAfter_same _ (measure_divisions ht (x.env N tpq false) rfl m), ih (fun y hy => h y (by simp [hy]))]
    congr 1
    exact dirs_measure ht (x.env N tpq false) m tpq rfl (fun _ => rfl) (h (x, m) (by simp)).1 (h (x, m) (by simp)).2

/-- The directions of a written part are where they should be. -/
theorem partDirections_written {tpq : Int} (ht : 0 < tpq) (tr : Option Extras) (N : Nat) (ms : List (Extras × MeasureData P)) (hne : ms ≠ []) (hN : ∀ x ∈ ms, x.2.staves.length = N)
    (h : ∀ x ∈ ms, MeasureOk x.2 ∧ DirectionsClear x.2) (d : Int) : partDirections d (writePart tpq tr ms) = ms.map (fun x => expectedDirections tpq x.2) := by
  obtain ⟨⟨x, m⟩, rest, rfl⟩ := List.exists_cons_of_ne_nil hne
  have hl := hN (x, m) (by simp)
  simp only at hl
  unfold writePart
  simp only
  rw [hl]
  simp only [writeMeasuresFrom, partDirections, List.map_cons]
  have hs := (_root_.Mx.Props.written_divisions tpq ht none [(x, m)] (by simp)).1
  unfold writePart at hs
  simp only [writeMeasuresFrom, List.mem_singleton, exists_eq_left] at hs
  rw [hl] at hs
  rw [divisionsAfter_said _ d (measure_divisions ht (x.env N tpq true) rfl m) hs, partDirections_rest ht N rest (fun y hy => h y (by simp [hy]))]
  congr 1
  exact dirs_measure ht (x.env N tpq true) m d rfl (fun e => by cases e) (h (x, m) (by simp)).1 (h (x, m) (by simp)).2

/-- What is written of a loaded part has the directions of the file. -/
theorem loadedDirections_written {G : Int} (hG : 0 < G) {p : List (List (Child P))} {q : PartData P} (h : Loaded G p (q.measures.map (·.2)))
    (hd : LoadedDirections G p (q.measures.map (·.2))) (hcl : ∀ x ∈ q.measures, DirectionsClear x.2) (d : Int) :
    List.Forall₂ SameDirections (partDirections 1 (partElems p)) (partDirections d (writePart G q.transposition q.measures)) := by
  obtain ⟨N, _, hne, hm, _⟩ := h
  have hne : q.measures ≠ [] := by intro e; exact hne (by rw [e]; rfl)
  rw [partDirections_written hG q.transposition N q.measures hne (fun x hx => (hm _ (List.mem_map_of_mem hx)).1)
    (fun x hx => ⟨(hm _ (List.mem_map_of_mem hx)).2, hcl x hx⟩) d]
  unfold LoadedDirections at hd
  rw [List.forall₂_map_right_iff] at hd ⊢
  exact hd.imp (fun _ _ h => h.symm)

end Mx.Measure
