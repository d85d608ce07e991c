import Verif.Model.ScoreTime
import Verif.Spec.ScoreTime
import Verif.Proofs.LcmGcd
import Verif.Proofs.MeasureReaderClock

namespace Mx.Measure
open Spec

variable {P : Type}

/-! ### the set of divisions -/

theorem mem_setInsert (x y : Int) (s : List Int) : y ∈ setInsert x s ↔ y = x ∨ y ∈ s := by
  induction s with
  | nil => simp [setInsert]
  | cons z s ih =>
    simp only [setInsert]
    split
    · simp
    · split
      · rename_i h; subst h; simp
      · simp [ih]; tauto

theorem setInsert_sorted (x : Int) (s : List Int) (h : s.Pairwise (· < ·)) : (setInsert x s).Pairwise (· < ·) := by
  induction s with
  | nil => simp [setInsert]
  | cons z s ih =>
    have hz := List.pairwise_cons.mp h
    simp only [setInsert]
    split
    · rename_i hlt
      refine List.pairwise_cons.mpr ⟨?_, h⟩
      intro y hy
      rcases List.mem_cons.mp hy with rfl | hy
      · exact hlt
      · have := hz.1 y hy; omega
    · split
      · exact h
      · rename_i h1 h2
        refine List.pairwise_cons.mpr ⟨?_, ih hz.2⟩
        intro y hy
        rcases (mem_setInsert x y s).mp hy with rfl | hy
        · omega
        · exact hz.1 y hy

theorem mem_foldl_setInsert (l : List Int) : ∀ (s : List Int) (y : Int), y ∈ l.foldl (fun s d => setInsert d s) s ↔ y ∈ l ∨ y ∈ s := by
  induction l with
  | nil => intro s y; simp
  | cons x l ih =>
    intro s y
    simp only [List.foldl_cons]
    rw [ih, mem_setInsert]; simp; tauto

theorem mem_foundDivisions (score : List (List (List (Elem P)))) (d : Int) : d ∈ foundDivisions score ↔
    0 < d ∧ ∃ part ∈ score, ∃ m ∈ part, ∃ a, Elem.attributes a ∈ m ∧ ∃ x, a.divisions = some x ∧ roundMicro x = d := by
  unfold foundDivisions
  rw [mem_foldl_setInsert]
  simp only [List.not_mem_nil, or_false, List.mem_filter, List.mem_filterMap, List.mem_flatten, decide_eq_true_eq]
  constructor
  · rintro ⟨⟨e, ⟨m, ⟨part, hp, hm⟩, he⟩, hd⟩, hpos⟩
    refine ⟨hpos, part, hp, m, hm, ?_⟩
    cases e with
    | attributes a =>
      simp only [elemDivisions, Option.map_eq_some_iff] at hd
      exact ⟨a, he, hd⟩
    | note _ => simp [elemDivisions] at hd
    | backup _ => simp [elemDivisions] at hd
    | forward _ => simp [elemDivisions] at hd
    | direction _ _ _ => simp [elemDivisions] at hd
    | barline _ _ => simp [elemDivisions] at hd
    | other => simp [elemDivisions] at hd
  · rintro ⟨hpos, part, hp, m, hm, a, ha, x, hx, hxd⟩
    exact ⟨⟨_, ⟨m, ⟨part, hp, hm⟩, ha⟩, by simp [elemDivisions, hx, hxd]⟩, hpos⟩

/-! ### whole times are whole ticks -/

theorem quarters_whole {c : Clock} {C G k : Int} (hC : 0 < C) (hc : c.division = 1 / (C : ℚ)) (hd : C ∣ G) :
    ∃ t : Int, c.quarters (k * 1000000) * G = t := by
  obtain ⟨q, rfl⟩ := hd
  refine ⟨k * q, ?_⟩
  unfold Clock.quarters
  rw [hc]
  have : (C : ℚ) ≠ 0 := by exact_mod_cast (by omega)
  push_cast
  field_simp

/-- all divisions of the measure divide `G` -/
def DividesAll (G : Int) (es : List (Elem P)) : Prop :=
  ∀ a, Elem.attributes a ∈ es → ∀ k : Int, 0 < k → a.divisions = some (k * 1000000) → k ∣ G

theorem wellTimed_of_whole {G : Int} : ∀ (es : List (Elem P)) (c : Clock) (base : Option Int) (C : Int), 0 < C → c.division = 1 / (C : ℚ) →
    C ∣ G → DividesAll G es → WholeTimed c base es → WellTimed G c base es := by
  intro es
  induction es with
  | nil => intros; trivial
  | cons e es ih =>
    intro c base C hC hc hd ha h
    have ha' : DividesAll G es := fun a hm => ha a (by simp [hm])
    cases e with
    | note n =>
      obtain ⟨⟨k, hk⟩, h2, h3, h4, h5⟩ := h
      refine ⟨?_, h2, h3, h4, ih _ _ C hC ?_ hd ha' h5⟩
      · rw [hk]; exact quarters_whole hC hc hd
      · simp only [Clock.step]; split <;> exact hc
    | backup d =>
      obtain ⟨⟨k, hk⟩, h2, h3⟩ := h
      refine ⟨?_, h2, ih _ _ C hC hc hd ha' h3⟩
      rw [hk]; exact quarters_whole hC hc hd
    | forward d =>
      obtain ⟨⟨k, hk⟩, h2, h3⟩ := h
      refine ⟨?_, h2, ih _ _ C hC hc hd ha' h3⟩
      rw [hk]; exact quarters_whole hC hc hd
    | direction s o p => exact ih c base C hC hc hd ha' h
    | barline l p => exact ih c base C hC hc hd ha' h
    | other => exact ih c base C hC hc hd ha' h
    | attributes a =>
      obtain ⟨h1, h2⟩ := h
      refine ⟨h1, ?_⟩
      cases hdv : a.divisions with
      | none =>
        rw [hdv] at h2
        have : c.step (Elem.attributes a) = c := by simp [Clock.step, hdv]
        rw [this] at h2 ⊢
        exact ih c _ C hC hc hd ha' h2
      | some d =>
        obtain ⟨k, hk0, hkd⟩ := h1 d hdv
        rw [hdv] at h2
        have hst : c.step (Elem.attributes a) = { c with division := 1000000 / (d : ℚ) } := by simp [Clock.step, hdv]
        rw [hst] at h2 ⊢
        refine ih _ _ k hk0 ?_ (ha a (by simp) k hk0 (by rw [hdv, hkd])) ha' h2
        simp only
        rw [hkd]
        have : (k : ℚ) ≠ 0 := by exact_mod_cast (by omega)
        push_cast
        field_simp

/-- positive whole divisions -/
def WholeDivisions (es : List (Elem P)) : Prop :=
  ∀ a, Elem.attributes a ∈ es → ∀ d, a.divisions = some d → ∃ k : Int, 0 < k ∧ d = k * 1000000

theorem wholeDivisions_of_whole : ∀ (es : List (Elem P)) (c : Clock) (base : Option Int), WholeTimed c base es → WholeDivisions es := by
  intro es
  induction es with
  | nil => intro c base _ a h; simp at h
  | cons e es ih =>
    intro c base h a hm
    rcases List.mem_cons.mp hm with rfl | hm'
    · exact h.1
    · cases e with
      | note n => exact ih _ _ h.2.2.2.2 a hm'
      | backup d => exact ih _ _ h.2.2 a hm'
      | forward d => exact ih _ _ h.2.2 a hm'
      | direction s o p => exact ih c base h a hm'
      | barline l p => exact ih c base h a hm'
      | other => exact ih c base h a hm'
      | attributes b => exact ih _ _ h.2 a hm'

theorem divisionsAfter_ok {G : Int} : ∀ (es : List (Elem P)) (d : Int), 0 < d → d ∣ G → WholeDivisions es → DividesAll G es →
    0 < divisionsAfter d es ∧ divisionsAfter d es ∣ G := by
  intro es
  induction es with
  | nil => intro d h1 h2 _ _; exact ⟨h1, h2⟩
  | cons e es ih =>
    intro d h1 h2 hw ha
    have hw' : WholeDivisions es := fun a hm => hw a (by simp [hm])
    have ha' : DividesAll G es := fun a hm => ha a (by simp [hm])
    cases e with
    | attributes a =>
      simp only [divisionsAfter]
      cases hdv : a.divisions with
      | none => exact ih d h1 h2 hw' ha'
      | some x =>
        obtain ⟨k, hk0, hkx⟩ := hw a (by simp) x hdv
        have : x / 1000000 = k := by rw [hkx]; omega
        simp only [this]
        exact ih k hk0 (ha a (by simp) k hk0 (by rw [hdv, hkx])) hw' ha'
    | note n => exact ih d h1 h2 hw' ha'
    | backup n => exact ih d h1 h2 hw' ha'
    | forward n => exact ih d h1 h2 hw' ha'
    | direction s o p => exact ih d h1 h2 hw' ha'
    | barline l p => exact ih d h1 h2 hw' ha'
    | other => exact ih d h1 h2 hw' ha'

/-- The reader's divisions at the end of a measure. -/
theorem readElems_tpq {env : REnv} : ∀ (es : List (Elem P)) (r r' : RSt P), WholeDivisions es → readElems env false es r = some r' →
    r'.ticksPerQuarter = divisionsAfter r.ticksPerQuarter es := by
  intro es
  induction es with
  | nil => intro r r' _ h; simp only [readElems, Option.some.injEq] at h; rw [← h]; rfl
  | cons e es ih =>
    intro r r' hw h
    have hw' : WholeDivisions es := fun a hm => hw a (by simp [hm])
    simp only [readElems, Option.bind_eq_bind] at h
    obtain ⟨s, hs, h⟩ := Option.bind_eq_some_iff.mp h
    rw [ih s r' hw' h]
    cases e with
    | attributes a =>
      simp only [parseElem, parseProperties] at hs
      split at hs
      · cases hs
      · simp only [Option.some.injEq] at hs
        rw [← hs]
        simp only [divisionsAfter]
        cases hdv : a.divisions with
        | none => rfl
        | some x =>
          obtain ⟨k, hk0, hkx⟩ := hw a (by simp) x hdv
          have h1 : x / 1000000 = k := by rw [hkx]; omega
          have h2 : roundMicro x = k := by rw [hkx]; exact roundMicro_mul k
          simp only [h1, h2]
    | note n =>
      simp only [parseElem, parseNote, Option.bind_eq_bind] at hs
      obtain ⟨t, _, hs⟩ := Option.bind_eq_some_iff.mp hs
      split at hs
      · cases hs
      · simp only [Option.some.injEq] at hs; rw [← hs]; rfl
    | backup n =>
      simp only [parseElem, parseBackup, Option.bind_eq_bind] at hs
      obtain ⟨t, _, hs⟩ := Option.bind_eq_some_iff.mp hs
      simp only [Option.some.injEq] at hs; rw [← hs]; rfl
    | forward n =>
      simp only [parseElem, parseForward, Option.bind_eq_bind] at hs
      obtain ⟨t, _, hs⟩ := Option.bind_eq_some_iff.mp hs
      simp only [Option.some.injEq] at hs; rw [← hs]; rfl
    | direction s o p =>
      simp only [parseElem, parseDirection] at hs
      split at hs
      · cases hs
      · simp only [Option.some.injEq] at hs; rw [← hs]; rfl
    | barline l p =>
      simp only [parseElem, parseBarline, Option.some.injEq] at hs; rw [← hs]; rfl
    | other =>
      simp only [parseElem, Option.some.injEq] at hs; rw [← hs]; rfl

/-- What the reader knew before does not matter if divisions are declared first. -/
theorem readElems_declares {env : REnv} : ∀ (es : List (Elem P)) (r : RSt P) (a b : Int), declares es = true →
    readElems env false es { r with ticksPerQuarter := a } = readElems env false es { r with ticksPerQuarter := b } := by
  intro es
  induction es with
  | nil => intro r a b h; simp [declares] at h
  | cons e es ih =>
    intro r a b h
    simp only [readElems, Option.bind_eq_bind]
    cases e with
    | note n => simp [declares] at h
    | backup n => simp [declares] at h
    | forward n => simp [declares] at h
    | direction s o p =>
      simp only [declares] at h
      simp only [parseElem, parseDirection]
      split
      · rfl
      · simp only [Option.bind_some]
        exact ih { r with
          isBackupInProgress := false
          directions := _ } a b h
    | barline l p =>
      simp only [declares] at h
      simp only [parseElem, parseBarline, Option.bind_some]
      exact ih { r with
          isBackupInProgress := false
          barlines := _ } a b h
    | other =>
      simp only [declares] at h
      simp only [parseElem, Option.bind_some]
      exact ih { r with isBackupInProgress := false } a b h
    | attributes at' =>
      simp only [declares, Bool.or_eq_true] at h
      simp only [parseElem, parseProperties]
      split
      · rfl
      · simp only [Option.bind_some]
        cases hd : at'.divisions with
        | some d => rfl
        | none =>
          rw [hd] at h
          simp at h
          exact ih { r with
            isBackupInProgress := false
            keys := r.keys ++ at'.keys.map (parseKey env r.tick)
            clefs := r.clefs ++ at'.clefs.map (fun c => (clefStaff c, { tick := r.tick, content := c.content })) } a b h

theorem readMeasures_declares {env : REnv} {ms : List (List (Elem P))} (h : ∀ m ∈ ms.head?, declares m = true) (hne : ms ≠ []) (a b : Int) :
    readMeasures env a ms = readMeasures env b ms := by
  cases ms with
  | nil => exact absurd rfl hne
  | cons m ms =>
    simp only [readMeasures]
    have := readElems_declares (env := env) m (initRSt 0) a b (h m (by simp))
    have e : ∀ x : Int, ({ (initRSt 0 : RSt P) with ticksPerQuarter := x } : RSt P) = initRSt x := fun _ => rfl
    rw [e, e] at this
    rw [this]

/-- All measures of a part. -/
theorem readMeasures_placed {G : Int} (hG : 0 < G) {numStaves : Int} : ∀ (ms : List (List (Elem P))) (d : Int), 0 < d → d ∣ G →
    PartTimed numStaves d ms → (∀ m ∈ ms, DividesAll G m) →
    ∃ rs t, readMeasures ⟨numStaves, G⟩ d ms = some (rs, t) ∧ (ms ≠ [] → 0 < t) ∧
      rs.map (fun r => r.notes.map (ReadNote.place G)) = (partPlaced d ms).map (fun ps => ps.map Placed.place) := by
  intro ms
  induction ms with
  | nil => intro d _ _ _ _; exact ⟨[], d, rfl, by simp, rfl⟩
  | cons m ms ih =>
    intro d hd0 hdG hp ha
    obtain ⟨h1, h2, h3⟩ := hp
    have hw := wholeDivisions_of_whole _ _ _ h1
    have hwt := wellTimed_of_whole m (Clock.init d) none d hd0 rfl hdG (ha m (by simp)) h1
    obtain ⟨r, hr, hn⟩ := read_follows hG (env := ⟨numStaves, G⟩) rfl m (Clock.init d) none (initRSt d) hwt h2
      ⟨hd0, rfl, by simp [initRSt, Clock.init], wellTimed_none hwt⟩
    have htp := readElems_tpq m (initRSt d) r hw hr
    have hd' : (initRSt d : RSt P).ticksPerQuarter = d := rfl
    rw [hd'] at htp
    obtain ⟨hd1, hd2⟩ := divisionsAfter_ok m d hd0 hdG hw (ha m (by simp))
    obtain ⟨rs, t, g1, g2, g3⟩ := ih (divisionsAfter d m) hd1 hd2 h3 (fun x hx => ha x (by simp [hx]))
    refine ⟨r :: rs, t, ?_, ?_, ?_⟩
    · simp only [readMeasures, Option.bind_eq_bind]
      rw [hr]
      simp only [Option.bind_some]
      rw [htp, g1]; rfl
    · intro _
      by_cases hms : ms = []
      · subst hms
        simp only [readMeasures, Option.some.injEq, Prod.mk.injEq] at g1
        rw [← g1.2]; exact hd1
      · exact g2 hms
    · simp only [List.map_cons, partPlaced]
      rw [g3, hn]
      simp [initRSt]

end Mx.Measure
