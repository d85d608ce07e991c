import Verif.Proofs.ClefRead
import Verif.Proofs.DirectionPass

/-! Clefs of measures, parts and files that are loaded and saved. -/
namespace Mx.Measure
open _root_.Spec

variable {P : Type}

theorem placedClefs_staff {N : Int} (hN : 1 ≤ N) : ∀ (es : List (Elem P)) (c : Clock), ClefsTimed N es → ∀ x ∈ placedClefs c es, 0 ≤ x.2.1 ∧ x.2.1 < N := by
  intro es
  induction es with
  | nil => intro c _ x hx; cases hx
  | cons e es ih =>
    intro c h x hx
    cases e with
    | attributes a =>
      obtain ⟨_, hs, h'⟩ := h
      rcases List.mem_append.mp hx with hx | hx
      · obtain ⟨y, hy, rfl⟩ := List.mem_map.mp hx
        cases hn : y.number with
        | none => simp [staffIndexOf]; omega
        | some i => have := hs y hy i hn; simp [staffIndexOf]; omega
      · exact ih _ h' x hx
    | note n => exact ih _ h x hx
    | backup n => exact ih _ h x hx
    | forward n => exact ih _ h x hx
    | direction n o p => exact ih _ h x hx
    | barline n p => exact ih _ h x hx
    | other => exact ih _ h x hx

theorem expectedClefs_range (G : Int) (f : Nat → StaffData P) : ∀ (n k : Nat),
    expectedClefsFrom G k ((List.range' k n).map f) = (List.range' k n).flatMap (fun j : Nat => (f j).clefs.map (expectedClef G j)) := by
  intro n
  induction n with
  | zero => intro k; rfl
  | succ n ih =>
    intro k
    simp only [List.range'_succ, List.map_cons, expectedClefsFrom, List.flatMap_cons]
    have := ih (k + 1)
    push_cast at this
    rw [this]

theorem staffOf_clefs (G : Int) (st : RSt P) (i : Int) :
    (staffOf st i).clefs.map (expectedClef G i) = (st.clefs.map (clefPlace G)).filter (fun x => x.2.1 = i) := by
  unfold staffOf
  simp only
  induction st.clefs with
  | nil => rfl
  | cons d ds ih =>
    by_cases h : d.1 = i
    · simp only [List.map_cons, List.filter_cons, clefPlace, h, decide_true, if_true, List.cons.injEq]
      exact ⟨rfl, ih⟩
    · simp only [List.map_cons, List.filter_cons, clefPlace, h, decide_false]
      exact ih

/-- The clefs of a measure that was read, staff by staff, are those of the reader. -/
theorem expectedClefs_read (env : REnv) (G : Int) (st : RSt P) (h : ∀ x ∈ st.clefs.map (clefPlace G), 0 ≤ x.2.1 ∧ x.2.1 < env.numStaves) :
    (expectedClefs G (measureOf env st)).Perm (st.clefs.map (clefPlace G)) := by
  unfold expectedClefs measureOf
  simp only
  rw [List.range_eq_range']
  have := expectedClefs_range G (fun i : Nat => staffOf st (i : Int)) env.numStaves.toNat 0
  simp only [Nat.cast_zero] at this
  rw [this, ← List.range_eq_range']
  have h1 : (fun j : Nat => (staffOf st (j : Int)).clefs.map (expectedClef G (j : Int))) =
      fun j : Nat => (st.clefs.map (clefPlace G)).filter (fun x => x.2.1 = (j : Int)) := by
    funext j; exact staffOf_clefs G st j
  rw [h1]
  refine (split_perm (fun x : ℚ × Int × P => x.2.1) _ _).trans (List.Perm.of_eq ?_)
  rw [List.filter_eq_self]
  intro x hx
  have := h x hx
  simp
  omega

theorem readMeasures_clefs {G : Int} (hG : 0 < G) {N : Int} : ∀ (ms : List (List (Elem P))) (d : Int), 0 < d → d ∣ G →
    PartTimed N d ms → (∀ m ∈ ms, DividesAll G m) → (∀ m ∈ ms, ClefsTimed N m) →
    ∃ rs t, readMeasures ⟨N, G⟩ d ms = some (rs, t) ∧
      List.Forall₂ (fun ds (r : RSt P) => r.clefs.map (clefPlace G) = ds ∧ ∀ x ∈ ds, 0 ≤ x.2.1 ∧ x.2.1 < N) (partClefs d ms) rs := by
  intro ms
  induction ms with
  | nil => intro d _ _ _ _ _; exact ⟨[], d, rfl, .nil⟩
  | cons m ms ih =>
    intro d h1 h2 hp hd hc
    obtain ⟨w, s, hp'⟩ := hp
    have hdiv : (Clock.init (d : ℚ)).division = 1 / (d : ℚ) := rfl
    have hw : WellTimed G (Clock.init d) none m := wellTimed_of_whole m _ none d h1 hdiv h2 (hd m (by simp)) w
    obtain ⟨r, g1, g2⟩ := read_follows_clefs (env := ⟨N, G⟩) hG rfl m (Clock.init d) none (initRSt d) hw s (hc m (by simp)) ⟨h1, rfl, by simp [initRSt, Clock.init], wellTimed_none hw⟩
    have g2 : r.clefs.map (clefPlace G) = placedClefs (Clock.init d) m := by simpa [initRSt] using g2
    have htpq := readElems_tpq m (initRSt d) r (wholeDivisions_of_whole m _ none w) g1
    have htpq : r.ticksPerQuarter = divisionsAfter d m := htpq
    obtain ⟨o1, o2⟩ := divisionsAfter_ok m d h1 h2 (wholeDivisions_of_whole m _ none w) (hd m (by simp))
    obtain ⟨rs, t, i1, i2⟩ := ih (divisionsAfter d m) o1 o2 hp' (fun x hx => hd x (by simp [hx])) (fun x hx => hc x (by simp [hx]))
    refine ⟨r :: rs, t, ?_, ?_⟩
    · simp only [readMeasures, Option.bind_eq_bind]
      rw [g1]
      simp only [Option.bind_some]
      rw [htpq, i1]; rfl
    · exact .cons ⟨g2, placedClefs_staff s.1 m _ (hc m (by simp))⟩ i2

/-- The clefs of a loaded part are those of the file. -/
def LoadedClefs (G : Int) (p : List (List (Child P))) (ms : List (MeasureData P)) : Prop :=
  List.Forall₂ (fun ds m => List.Perm (expectedClefs G m) ds) (partClefs 1 (partElems p)) ms

theorem getPartData_clefs {G : Int} (hG : 0 < G) (dv : Int) {p : List (List (Child P))} (hp : PlainPart p) (hd : ∀ m ∈ partElems p, DividesAll G m)
    (hdt : ∀ N, IsStaffCount N p → ∀ m ∈ partElems p, ClefsTimed N m) :
    ∃ ms t, getPartData G dv p = some (ms, t) ∧ LoadedClefs G p ms := by
  obtain ⟨N, hN, ht⟩ := hp.timed
  have hs := calculateNumStaves_spec p
  have hN' : calculateNumStaves p = N := staffCount_unique hs hN
  have hne : partElems p ≠ [] := by
    intro e
    exact hp.nonempty (List.map_eq_nil_iff.mp e)
  obtain ⟨rs, t, h1, h2⟩ := readMeasures_clefs hG (partElems p) 1 (by omega) (one_dvd _) ht hd (hdt N hN)
  have henv : partEnv G p = ⟨N, G⟩ := by unfold partEnv; rw [hN']
  refine ⟨rs.map (measureOf ⟨N, G⟩), t, ?_, ?_⟩
  · unfold getPartData readPart
    rw [henv, readMeasures_declares hp.declared hne _ 1, h1]
    rfl
  · unfold LoadedClefs
    rw [List.forall₂_map_right_iff]
    refine h2.imp ?_
    rintro ds r ⟨e, hr⟩
    rw [← e]
    exact expectedClefs_read ⟨N, G⟩ G r (by rw [e]; exact hr)

theorem getParts_clefs {G : Int} (hG : 0 < G) : ∀ (ps : List (List (List (Child P)))) (dv : Int),
    (∀ p ∈ ps, PlainPart p ∧ (∀ m ∈ partElems p, DividesAll G m) ∧ ∀ N, IsStaffCount N p → ∀ m ∈ partElems p, ClefsTimed N m) →
    ∃ o, getParts G dv ps = some o ∧ List.Forall₂ (LoadedClefs G) ps o := by
  intro ps
  induction ps with
  | nil => intro dv _; exact ⟨[], rfl, .nil⟩
  | cons p ps ih =>
    intro dv h
    obtain ⟨ms, t, h1, h2⟩ := getPartData_clefs hG dv (h p (by simp)).1 (h p (by simp)).2.1 (h p (by simp)).2.2
    obtain ⟨o, h3, h4⟩ := ih t (fun q hq => h q (by simp [hq]))
    refine ⟨ms :: o, ?_, .cons h2 h4⟩
    simp only [getParts, Option.bind_eq_bind]
    rw [h1]
    simp only [Option.bind_some]
    rw [h3]; rfl

/-- The clefs of a written measure, in some order. -/
theorem clefs_measure_perm {G : Int} (hG : 0 < G) (env : WEnv) (m : MeasureData P) (d : ℚ) (hg : env.ticksPerQuarter = G)
    (hd : env.isFirstMeasureInPart = false → d = G) (hN : (m.staves.length : Int) ≤ env.numStaves) (hv : MeasureOk m) (hcl : ∀ s ∈ m.staves, ClefsMet s) :
    (placedClefs (Clock.init d) (writeMeasure env m)).Perm (expectedClefs G m) := by
  rw [clefs_measure hG env m d hg hd hN hv hcl]
  exact clefs_split G m.staves 0

theorem partClefs_rest {tpq : Int} (ht : 0 < tpq) (N : Nat) : ∀ (ms : List (Extras × MeasureData P)), (∀ x ∈ ms, x.2.staves.length = N ∧ MeasureOk x.2 ∧ ∀ s ∈ x.2.staves, ClefsMet s) →
    List.Forall₂ (fun cs x => cs.Perm (expectedClefs tpq x.2)) (partClefs tpq (writeMeasuresFrom N tpq false ms)) ms := by
  intro ms
  induction ms with
  | nil => intro _; exact .nil
  | cons x ms ih =>
    intro h
    obtain ⟨x, m⟩ := x
    obtain ⟨h1, h2, h3⟩ := h (x, m) (by simp)
    simp only [writeMeasuresFrom, partClefs]
    rw [divisionsAfter_same _ (measure_divisions ht (x.env N tpq false) rfl m)]
    exact .cons (clefs_measure_perm ht (x.env N tpq false) m tpq rfl (fun _ => rfl) (by show (m.staves.length : Int) ≤ (N : Int); exact_mod_cast le_of_eq h1) h2 h3) (ih (fun y hy => h y (by simp [hy])))

/-- The clefs of a written part are where they should be. -/
theorem partClefs_written {tpq : Int} (ht : 0 < tpq) (tr : Option Extras) (N : Nat) (ms : List (Extras × MeasureData P)) (hne : ms ≠ [])
    (h : ∀ x ∈ ms, x.2.staves.length = N ∧ MeasureOk x.2 ∧ ∀ s ∈ x.2.staves, ClefsMet s) (d : Int) :
    List.Forall₂ (fun cs x => cs.Perm (expectedClefs tpq x.2)) (partClefs d (writePart tpq tr ms)) ms := by
  obtain ⟨⟨x, m⟩, rest, rfl⟩ := List.exists_cons_of_ne_nil hne
  obtain ⟨hl, h2, h3⟩ := h (x, m) (by simp)
  simp only at hl
  unfold writePart
  simp only
  rw [hl]
  simp only [writeMeasuresFrom, partClefs]
  have hs := (_root_.Mx.Props.written_divisions tpq ht none [(x, m)] (by simp)).1
  unfold writePart at hs
  simp only [writeMeasuresFrom, List.mem_singleton, exists_eq_left] at hs
  rw [hl] at hs
  rw [divisionsAfter_said _ d (measure_divisions ht (x.env N tpq true) rfl m) hs]
  exact .cons (clefs_measure_perm ht (x.env N tpq true) m d rfl (fun e => by cases e) (by show (m.staves.length : Int) ≤ (N : Int); exact_mod_cast le_of_eq hl) h2 h3) (partClefs_rest ht N rest (fun y hy => h y (by simp [hy])))

theorem forall2_trans_perm {α γ : Type} {l1 : List (List α)} {l2 : List γ} {l3 : List (List α)} {f : γ → List α} (h1 : List.Forall₂ (fun a c => List.Perm (f c) a) l1 l2) (h2 : List.Forall₂ (fun b c => List.Perm b (f c)) l3 l2) :
    List.Forall₂ List.Perm l1 l3 := by
  induction h1 generalizing l3 with
  | nil => cases h2; exact .nil
  | cons h t ih => cases h2 with
    | cons h' t' => exact .cons (h.symm.trans h'.symm) (ih t')

/-- What is written of a loaded part has the clefs of the file. -/
theorem loadedClefs_written {G : Int} (hG : 0 < G) {p : List (List (Child P))} {q : PartData P} (h : Loaded G p (q.measures.map (·.2)))
    (hd : LoadedClefs G p (q.measures.map (·.2))) (hcl : ∀ x ∈ q.measures, ∀ s ∈ x.2.staves, ClefsMet s) (d : Int) :
    List.Forall₂ List.Perm (partClefs 1 (partElems p)) (partClefs d (writePart G q.transposition q.measures)) := by
  obtain ⟨N, _, hne, hm, _⟩ := h
  have hne : q.measures ≠ [] := by intro e; exact hne (by rw [e]; rfl)
  have hw := partClefs_written hG q.transposition N q.measures hne
    (fun x hx => ⟨(hm _ (List.mem_map_of_mem hx)).1, (hm _ (List.mem_map_of_mem hx)).2, hcl x hx⟩) d
  unfold LoadedClefs at hd
  rw [List.forall₂_map_right_iff] at hd
  exact forall2_trans_perm (f := fun x : Extras × MeasureData P => expectedClefs G x.2) hd hw

end Mx.Measure
