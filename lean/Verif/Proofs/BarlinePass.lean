import Verif.Proofs.BarlineRead
import Verif.Proofs.ClefPass

/-! Barlines of measures, parts and files that are loaded and saved. -/
namespace Mx.Measure
open _root_.Spec

variable {P : Type}

theorem expectedBarlines_read (env : REnv) (G : Int) (st : RSt P) : expectedBarlines G (measureOf env st) = st.barlines.map (barOf G) := rfl

/-- right barlines are loaded with the last time -/
theorem readElems_right {env : REnv} : ∀ (es : List (Elem P)) (r r' : RSt P), readElems env false es r = some r' → (∀ b ∈ r.barlines, b.location = .right → b.tick ≠ 0) → ∀ b ∈ r'.barlines, b.location = .right → b.tick ≠ 0 := by
  intro es
  induction es with
  | nil => intro r r' h hr; cases h; exact hr
  | cons e es ih =>
    intro r r' h hr
    simp only [readElems, Option.bind_eq_bind, Option.bind_eq_some_iff] at h
    obtain ⟨r1, h1, h2⟩ := h
    refine ih r1 r' h2 ?_
    cases e with
    | barline l p =>
      simp only [parseElem, Option.some.injEq] at h1
      subst h1
      intro b hb hl
      simp only [parseBarline, List.mem_append, List.mem_singleton] at hb
      rcases hb with hb | rfl
      · exact hr b hb hl
      · simp only at hl ⊢
        rw [if_pos hl]; decide
    | note n =>
      simp only [parseElem, parseNote, Option.bind_eq_bind, Option.bind_eq_some_iff] at h1
      obtain ⟨t, _, h1⟩ := h1
      split at h1
      · cases h1
      · simp only [Option.bind_some, Option.some.injEq] at h1
        subst h1; exact hr
    | backup d =>
      simp only [parseElem, parseBackup, Option.bind_eq_bind, Option.bind_eq_some_iff] at h1
      obtain ⟨t, _, h1⟩ := h1
      cases h1; exact hr
    | forward d =>
      simp only [parseElem, parseForward, Option.bind_eq_bind, Option.bind_eq_some_iff] at h1
      obtain ⟨t, _, h1⟩ := h1
      cases h1; exact hr
    | direction a b c =>
      simp only [parseElem, parseDirection, Option.bind_eq_bind] at h1
      split at h1
      · cases h1
      · cases h1; exact hr
    | attributes a =>
      simp only [parseElem, parseProperties, Option.bind_eq_bind] at h1
      split at h1
      · cases h1
      · cases h1; exact hr
    | other => cases h1; exact hr

theorem readMeasures_barlines {G : Int} (hG : 0 < G) {N : Int} : ∀ (ms : List (List (Elem P))) (d : Int), 0 < d → d ∣ G →
    PartTimed N d ms → (∀ m ∈ ms, DividesAll G m) → PartBarlinesTimed d ms →
    ∃ rs t, readMeasures ⟨N, G⟩ d ms = some (rs, t) ∧
      List.Forall₂ (fun ds (r : RSt P) => r.barlines.map (barOf G) = ds ∧ ∀ b ∈ r.barlines, b.location = .right → b.tick ≠ 0) (partBarlines d ms) rs := by
  intro ms
  induction ms with
  | nil => intro d _ _ _ _ _; exact ⟨[], d, rfl, .nil⟩
  | cons m ms ih =>
    intro d h1 h2 hp hd hc
    obtain ⟨w, s, hp'⟩ := hp
    obtain ⟨hc, hc'⟩ := hc
    have hdiv : (Clock.init (d : ℚ)).division = 1 / (d : ℚ) := rfl
    have hw : WellTimed G (Clock.init d) none m := wellTimed_of_whole m _ none d h1 hdiv h2 (hd m (by simp)) w
    obtain ⟨r, g1, g2⟩ := read_follows_barlines (env := ⟨N, G⟩) hG rfl m (Clock.init d) none (initRSt d) hw s hc ⟨h1, rfl, by simp [initRSt, Clock.init], wellTimed_none hw⟩
    have g2 : r.barlines.map (barOf G) = placedBarlines (Clock.init d) m := by simpa [initRSt] using g2
    have htpq := readElems_tpq m (initRSt d) r (wholeDivisions_of_whole m _ none w) g1
    have htpq : r.ticksPerQuarter = divisionsAfter d m := htpq
    obtain ⟨o1, o2⟩ := divisionsAfter_ok m d h1 h2 (wholeDivisions_of_whole m _ none w) (hd m (by simp))
    obtain ⟨rs, t, i1, i2⟩ := ih (divisionsAfter d m) o1 o2 hp' (fun x hx => hd x (by simp [hx])) hc'
    refine ⟨r :: rs, t, ?_, ?_⟩
    · simp only [readMeasures, Option.bind_eq_bind]
      rw [g1]
      simp only [Option.bind_some]
      rw [htpq, i1]; rfl
    · exact .cons ⟨g2, readElems_right m _ _ g1 (by simp [initRSt])⟩ i2

/-- The barlines of a loaded part are those of the file. -/
def LoadedBarlines (G : Int) (p : List (List (Child P))) (ms : List (MeasureData P)) : Prop :=
  List.Forall₂ (fun ds m => expectedBarlines G m = ds ∧ ∀ b ∈ m.barlines, b.location = .right → b.tick ≠ 0) (partBarlines 1 (partElems p)) ms

theorem getPartData_barlines {G : Int} (hG : 0 < G) (dv : Int) {p : List (List (Child P))} (hp : PlainPart p) (hd : ∀ m ∈ partElems p, DividesAll G m)
    (hdt : ∀ N, IsStaffCount N p → PartBarlinesTimed 1 (partElems p)) :
    ∃ ms t, getPartData G dv p = some (ms, t) ∧ LoadedBarlines G p ms := by
  obtain ⟨N, hN, ht⟩ := hp.timed
  have hs := calculateNumStaves_spec p
  have hN' : calculateNumStaves p = N := staffCount_unique hs hN
  have hne : partElems p ≠ [] := by
    intro e
    exact hp.nonempty (List.map_eq_nil_iff.mp e)
  obtain ⟨rs, t, h1, h2⟩ := readMeasures_barlines hG (partElems p) 1 (by omega) (one_dvd _) ht hd (hdt N hN)
  have henv : partEnv G p = ⟨N, G⟩ := by unfold partEnv; rw [hN']
  refine ⟨rs.map (measureOf ⟨N, G⟩), t, ?_, ?_⟩
  · unfold getPartData readPart
    rw [henv, readMeasures_declares hp.declared hne _ 1, h1]
    rfl
  · unfold LoadedBarlines
    rw [List.forall₂_map_right_iff]
    refine h2.imp ?_
    rintro ds r ⟨e, hr⟩
    rw [← e]
    exact ⟨expectedBarlines_read ⟨N, G⟩ G r, hr⟩

theorem getParts_barlines {G : Int} (hG : 0 < G) : ∀ (ps : List (List (List (Child P)))) (dv : Int),
    (∀ p ∈ ps, PlainPart p ∧ (∀ m ∈ partElems p, DividesAll G m) ∧ ∀ N, IsStaffCount N p → PartBarlinesTimed 1 (partElems p)) →
    ∃ o, getParts G dv ps = some o ∧ List.Forall₂ (LoadedBarlines G) ps o := by
  intro ps
  induction ps with
  | nil => intro dv _; exact ⟨[], rfl, .nil⟩
  | cons p ps ih =>
    intro dv h
    obtain ⟨ms, t, h1, h2⟩ := getPartData_barlines hG dv (h p (by simp)).1 (h p (by simp)).2.1 (h p (by simp)).2.2
    obtain ⟨o, h3, h4⟩ := ih t (fun q hq => h q (by simp [hq]))
    refine ⟨ms :: o, ?_, .cons h2 h4⟩
    simp only [getParts, Option.bind_eq_bind]
    rw [h1]
    simp only [Option.bind_some]
    rw [h3]; rfl

theorem partBarlines_rest {tpq : Int} (ht : 0 < tpq) (N : Nat) (h1N : 1 ≤ N) : ∀ (ms : List (Extras × MeasureData P)), (∀ x ∈ ms, x.2.staves.length = N ∧ BarlinesMet x.2.barlines) →
    partBarlines tpq (writeMeasuresFrom N tpq false ms) = ms.map (fun x => expectedBarlines tpq x.2) := by
  intro ms
  induction ms with
  | nil => intro _; rfl
  | cons x ms ih =>
    intro h
    obtain ⟨x, m⟩ := x
    obtain ⟨h1, h3⟩ := h (x, m) (by simp)
    simp only [writeMeasuresFrom, partBarlines, List.map_cons]
    rw [divisionsAfter_same _ (measure_divisions ht (x.env N tpq false) rfl m), ih (fun y hy => h y (by simp [hy])),
      barlines_measure (G := tpq) (x.env N tpq false) m tpq (by show (1 : Int) ≤ (N : Int); exact_mod_cast h1N) (by show (m.staves.length : Int) ≤ (N : Int); exact_mod_cast le_of_eq h1) h3]

/-- The barlines of a written part are where they should be. -/
theorem partBarlines_written {tpq : Int} (ht : 0 < tpq) (tr : Option Extras) (N : Nat) (h1N : 1 ≤ N) (ms : List (Extras × MeasureData P)) (hne : ms ≠ [])
    (h : ∀ x ∈ ms, x.2.staves.length = N ∧ BarlinesMet x.2.barlines) (d : Int) :
    partBarlines d (writePart tpq tr ms) = ms.map (fun x => expectedBarlines tpq x.2) := by
  obtain ⟨⟨x, m⟩, rest, rfl⟩ := List.exists_cons_of_ne_nil hne
  obtain ⟨hl, h3⟩ := h (x, m) (by simp)
  simp only at hl
  unfold writePart
  simp only
  rw [hl]
  simp only [writeMeasuresFrom, partBarlines, List.map_cons]
  have hs := (_root_.Mx.Props.written_divisions tpq ht none [(x, m)] (by simp)).1
  unfold writePart at hs
  simp only [writeMeasuresFrom, List.mem_singleton, exists_eq_left] at hs
  rw [hl] at hs
  rw [divisionsAfter_said _ d (measure_divisions ht (x.env N tpq true) rfl m) hs, partBarlines_rest ht N h1N rest (fun y hy => h y (by simp [hy])),
    barlines_measure (G := tpq) (x.env N tpq true) m d (by show (1 : Int) ≤ (N : Int); exact_mod_cast h1N) (by show (m.staves.length : Int) ≤ (N : Int); exact_mod_cast le_of_eq hl) h3]

end Mx.Measure
