import Verif.Proofs.KeyRead
import Verif.Proofs.ClefPass

/-! Keys of measures, parts and files that are loaded and saved. -/
namespace Mx.Measure
open _root_.Spec

variable {P : Type}

/-- The keys of a measure that was read are those of the reader. -/
theorem expectedKeys_read (env : REnv) (G : Int) (st : RSt P) : expectedKeys G (measureOf env st) = st.keys.map (keyPlace G) := by
  unfold expectedKeys measureOf
  simp only
  have : ∀ (l : List Nat) (i : Int), expectedStaffKeys G i (l.map (fun i : Nat => staffOf st (i : Int))) = [] := by
    intro l
    induction l with
    | nil => intro i; rfl
    | cons a l ih => intro i; rw [List.map_cons, expectedStaffKeys, ih]; simp [staffOf]
  rw [this, List.append_nil]
  rfl

theorem readMeasures_keys {G : Int} (hG : 0 < G) {N : Int} : ∀ (ms : List (List (Elem P))) (d : Int), 0 < d → d ∣ G →
    PartTimed N d ms → (∀ m ∈ ms, DividesAll G m) → PartKeysTimed N d ms →
    ∃ rs t, readMeasures ⟨N, G⟩ d ms = some (rs, t) ∧
      List.Forall₂ (fun ds (r : RSt P) => r.keys.map (keyPlace G) = ds) (partKeys d ms) rs := by
  intro ms
  induction ms with
  | nil => intro d _ _ _ _ _; exact ⟨[], d, rfl, .nil⟩
  | cons m ms ih =>
    intro d h1 h2 hp hd hc
    obtain ⟨w, s, hp'⟩ := hp
    obtain ⟨hc, hc'⟩ := hc
    have hdiv : (Clock.init (d : ℚ)).division = 1 / (d : ℚ) := rfl
    have hw : WellTimed G (Clock.init d) none m := wellTimed_of_whole m _ none d h1 hdiv h2 (hd m (by simp)) w
    obtain ⟨r, g1, g2⟩ := read_follows_keys (env := ⟨N, G⟩) hG rfl m (Clock.init d) none (initRSt d) hw s hc ⟨h1, rfl, by simp [initRSt, Clock.init], wellTimed_none hw⟩
    have g2 : r.keys.map (keyPlace G) = placedKeys (Clock.init d) m := by simpa [initRSt] using g2
    have htpq := readElems_tpq m (initRSt d) r (wholeDivisions_of_whole m _ none w) g1
    have htpq : r.ticksPerQuarter = divisionsAfter d m := htpq
    obtain ⟨o1, o2⟩ := divisionsAfter_ok m d h1 h2 (wholeDivisions_of_whole m _ none w) (hd m (by simp))
    obtain ⟨rs, t, i1, i2⟩ := ih (divisionsAfter d m) o1 o2 hp' (fun x hx => hd x (by simp [hx])) hc'
    refine ⟨r :: rs, t, ?_, ?_⟩
    · simp only [readMeasures, Option.bind_eq_bind]
      rw [g1]
      simp only [Option.bind_some]
      rw [htpq, i1]; rfl
    · exact .cons g2 i2

/-- The keys of a loaded part are those of the file. -/
def LoadedKeys (G : Int) (p : List (List (Child P))) (ms : List (MeasureData P)) : Prop :=
  List.Forall₂ (fun ds m => expectedKeys G m = ds) (partKeys 1 (partElems p)) ms

theorem getPartData_keys {G : Int} (hG : 0 < G) (dv : Int) {p : List (List (Child P))} (hp : PlainPart p) (hd : ∀ m ∈ partElems p, DividesAll G m)
    (hdt : ∀ N, IsStaffCount N p → PartKeysTimed N 1 (partElems p)) :
    ∃ ms t, getPartData G dv p = some (ms, t) ∧ LoadedKeys G p ms := by
  obtain ⟨N, hN, ht⟩ := hp.timed
  have hs := calculateNumStaves_spec p
  have hN' : calculateNumStaves p = N := staffCount_unique hs hN
  have hne : partElems p ≠ [] := by
    intro e
    exact hp.nonempty (List.map_eq_nil_iff.mp e)
  obtain ⟨rs, t, h1, h2⟩ := readMeasures_keys hG (partElems p) 1 (by omega) (one_dvd _) ht hd (hdt N hN)
  have henv : partEnv G p = ⟨N, G⟩ := by unfold partEnv; rw [hN']
  refine ⟨rs.map (measureOf ⟨N, G⟩), t, ?_, ?_⟩
  · unfold getPartData readPart
    rw [henv, readMeasures_declares hp.declared hne _ 1, h1]
    rfl
  · unfold LoadedKeys
    rw [List.forall₂_map_right_iff]
    refine h2.imp ?_
    rintro ds r e
    rw [← e]
    exact expectedKeys_read ⟨N, G⟩ G r

theorem getParts_keys {G : Int} (hG : 0 < G) : ∀ (ps : List (List (List (Child P)))) (dv : Int),
    (∀ p ∈ ps, PlainPart p ∧ (∀ m ∈ partElems p, DividesAll G m) ∧ ∀ N, IsStaffCount N p → PartKeysTimed N 1 (partElems p)) →
    ∃ o, getParts G dv ps = some o ∧ List.Forall₂ (LoadedKeys G) ps o := by
  intro ps
  induction ps with
  | nil => intro dv _; exact ⟨[], rfl, .nil⟩
  | cons p ps ih =>
    intro dv h
    obtain ⟨ms, t, h1, h2⟩ := getPartData_keys hG dv (h p (by simp)).1 (h p (by simp)).2.1 (h p (by simp)).2.2
    obtain ⟨o, h3, h4⟩ := ih t (fun q hq => h q (by simp [hq]))
    refine ⟨ms :: o, ?_, .cons h2 h4⟩
    simp only [getParts, Option.bind_eq_bind]
    rw [h1]
    simp only [Option.bind_some]
    rw [h3]; rfl

theorem partKeys_rest {tpq : Int} (ht : 0 < tpq) (N : Nat) : ∀ (ms : List (Extras × MeasureData P)), (∀ x ∈ ms, x.2.staves.length = N ∧ MeasureOk x.2 ∧ KeysMet x.2) →
    List.Forall₂ (fun cs x => cs.Perm (expectedKeys tpq x.2)) (partKeys tpq (writeMeasuresFrom N tpq false ms)) ms := by
  intro ms
  induction ms with
  | nil => intro _; exact .nil
  | cons x ms ih =>
    intro h
    obtain ⟨x, m⟩ := x
    obtain ⟨h1, h2, h3⟩ := h (x, m) (by simp)
    simp only [writeMeasuresFrom, partKeys]
    rw [divisionsAfter_same _ (measure_divisions ht (x.env N tpq false) rfl m)]
    exact .cons (keys_measure ht (x.env N tpq false) m tpq rfl (fun _ => rfl) h2 h3) (ih (fun y hy => h y (by simp [hy])))

/-- The keys of a written part are where they should be. -/
theorem partKeys_written {tpq : Int} (ht : 0 < tpq) (tr : Option Extras) (N : Nat) (ms : List (Extras × MeasureData P)) (hne : ms ≠ [])
    (h : ∀ x ∈ ms, x.2.staves.length = N ∧ MeasureOk x.2 ∧ KeysMet x.2) (d : Int) :
    List.Forall₂ (fun cs x => cs.Perm (expectedKeys tpq x.2)) (partKeys d (writePart tpq tr ms)) ms := by
  obtain ⟨⟨x, m⟩, rest, rfl⟩ := List.exists_cons_of_ne_nil hne
  obtain ⟨hl, h2, h3⟩ := h (x, m) (by simp)
  simp only at hl
  unfold writePart
  simp only
  rw [hl]
  simp only [writeMeasuresFrom, partKeys]
  have hs := (_root_.Mx.Props.written_divisions tpq ht none [(x, m)] (by simp)).1
  unfold writePart at hs
  simp only [writeMeasuresFrom, List.mem_singleton, exists_eq_left] at hs
  rw [hl] at hs
  rw [divisionsAfter_said _ d (measure_divisions ht (x.env N tpq true) rfl m) hs]
  exact .cons (keys_measure ht (x.env N tpq true) m d rfl (fun e => by cases e) h2 h3) (partKeys_rest ht N rest (fun y hy => h y (by simp [hy])))

/-- What is written of a loaded part has the keys of the file. -/
theorem loadedKeys_written {G : Int} (hG : 0 < G) {p : List (List (Child P))} {q : PartData P} (h : Loaded G p (q.measures.map (·.2)))
    (hd : LoadedKeys G p (q.measures.map (·.2))) (hcl : ∀ x ∈ q.measures, KeysMet x.2) (d : Int) :
    List.Forall₂ List.Perm (partKeys 1 (partElems p)) (partKeys d (writePart G q.transposition q.measures)) := by
  obtain ⟨N, _, hne, hm, _⟩ := h
  have hne : q.measures ≠ [] := by intro e; exact hne (by rw [e]; rfl)
  have hw := partKeys_written hG q.transposition N q.measures hne
    (fun x hx => ⟨(hm _ (List.mem_map_of_mem hx)).1, (hm _ (List.mem_map_of_mem hx)).2, hcl x hx⟩) d
  unfold LoadedKeys at hd
  rw [List.forall₂_map_right_iff] at hd
  exact forall2_trans_perm (f := fun x : Extras × MeasureData P => expectedKeys G x.2) (hd.imp (fun _ _ e => List.Perm.of_eq e)) hw

end Mx.Measure
