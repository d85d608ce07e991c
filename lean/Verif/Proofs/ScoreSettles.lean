import Verif.Spec.ScoreSettles
import Verif.Props.StaffProps
import Verif.Props.SettlesProps
import Verif.Proofs.Attributes

/-! Whole scores, saved and loaded. -/
namespace Mx.Measure
open _root_.Spec Mx.Props

variable {P : Type}

/-! ### the scale while reading -/

theorem divisionsAfter_same {t : Int} : ∀ (es : List (Elem P)), (∀ a, Elem.attributes a ∈ es → ∀ d, a.divisions = some d → d = t * MICRO) → divisionsAfter t es = t := by
  intro es
  induction es with
  | nil => intro _; rfl
  | cons e es ih =>
    intro h
    have ih := ih (fun a ha => h a (by simp [ha]))
    cases e with
    | attributes a =>
      simp only [divisionsAfter]
      cases hd : a.divisions with
      | none => exact ih
      | some x =>
        have := h a (by simp) x hd
        have : x / 1000000 = t := by rw [this]; unfold MICRO; omega
        simp only [this]
        exact ih
    | note n => exact ih
    | backup n => exact ih
    | forward n => exact ih
    | direction s o p => exact ih
    | barline l p => exact ih
    | other => exact ih

theorem readElems_scale {env : REnv} {t : Int} (ht : 0 < t) {es : List (Elem P)} {r r' : RSt P} (h : ∀ a, Elem.attributes a ∈ es → ∀ d, a.divisions = some d → d = t * MICRO)
    (hr : r.ticksPerQuarter = t) (he : readElems env false es r = some r') : r'.ticksPerQuarter = t := by
  rw [readElems_tpq es r r' (fun a ha d hd => ⟨t, ht, by rw [h a ha d hd]; rfl⟩) he, hr]
  exact divisionsAfter_same es h

/-- every `<divisions>` of a part is the same -/
def OneScale (t : Int) (p : List (List (Elem P))) : Prop := ∀ es ∈ p, ∀ a, Elem.attributes a ∈ es → ∀ d, a.divisions = some d → d = t * MICRO

theorem readMeasures_scale {env : REnv} {t : Int} (ht : 0 < t) : ∀ {p : List (List (Elem P))} {rs : List (RSt P)} {t' : Int}, OneScale t p → readMeasures env t p = some (rs, t') → t' = t := by
  intro p
  induction p with
  | nil => intro rs t' _ h; simp only [readMeasures, Option.some.injEq, Prod.mk.injEq] at h; exact h.2.symm
  | cons es p ih =>
    intro rs t' h he
    simp only [readMeasures, Option.bind_eq_bind, Option.bind_eq_some_iff, Option.some.injEq, Prod.mk.injEq] at he
    obtain ⟨r, h1, ⟨rs', t1⟩, h2, -, h3⟩ := he
    have hs : r.ticksPerQuarter = t := readElems_scale ht (h es (by simp)) rfl h1
    rw [hs] at h2
    have := ih (fun m hm => h m (by simp [hm])) h2
    simp only at h3
    rw [← h3]; exact this

theorem writePart_scale (tpq : Int) (ht : 0 < tpq) (tr : Option Extras) (ms : List (Extras × MeasureData P)) : OneScale tpq (writePart tpq tr ms) := by
  cases ms with
  | cons x ms => exact (written_divisions tpq ht tr (x :: ms) (by simp)).2
  | nil =>
    cases tr with
    | none => intro es hes a ha; simp [writePart] at hes; subst hes; simp at ha
    | some x => exact (written_divisions tpq ht none [(x, { staves := [], keys := [], barlines := [] })] (by simp)).2

theorem writePart_says (tpq : Int) (ht : 0 < tpq) (tr : Option Extras) (ms : List (Extras × MeasureData P)) (h : ms ≠ [] ∨ tr.isSome = true) :
    ∃ es ∈ writePart tpq tr ms, ∃ a, Elem.attributes a ∈ es ∧ a.divisions = some (tpq * MICRO) := by
  cases ms with
  | cons x ms => exact (written_divisions tpq ht tr (x :: ms) (by simp)).1
  | nil =>
    cases tr with
    | none => simp at h
    | some x => exact (written_divisions tpq ht none [(x, { staves := [], keys := [], barlines := [] })] (by simp)).1

/-- The ticks per quarter of a written score are found again if one part has a measure. -/
theorem written_scale_some (tpq : Int) (ht : 0 < tpq) (hm : tpq ≤ INT_MAX) (parts : List (List (List (Elem P))))
    (hs : ∃ p ∈ parts, ∃ es ∈ p, ∃ a, Elem.attributes a ∈ es ∧ a.divisions = some (tpq * MICRO)) (h : ∀ p ∈ parts, OneScale tpq p) :
    findMaxDivisionsPerQuarter parts = .ok tpq := by
  have hr : roundMicro (tpq * MICRO) = tpq := roundMicro_mul tpq
  have hall : ∀ d ∈ foundDivisions parts, d = tpq := by
    intro d hd
    obtain ⟨_, p, hp, m, hm, a, ha, x, hx, rfl⟩ := (mem_foundDivisions parts d).mp hd
    rw [h p hp m hm a ha x hx, hr]
  have hmem : tpq ∈ foundDivisions parts := by
    obtain ⟨p, hp, es, hes, a, ha, hx⟩ := hs
    exact (mem_foundDivisions parts tpq).mpr ⟨ht, p, hp, es, hes, a, ha, _, hx, hr⟩
  obtain ⟨l, l0, l1, l2, l3⟩ := C06_lcm_set (foundDivisions parts)
    (fun x hx => by rw [hall x hx]; exact ⟨⟨by unfold INT_MAX; omega, hm⟩, by omega⟩) (List.ne_nil_of_mem hmem)
  have e1 : tpq ∣ l := l1 tpq hmem
  have e2 : l ∣ tpq := l2 tpq (fun x hx => by rw [hall x hx])
  have e3 : l = tpq := Int.dvd_antisymm (by omega) (by omega) e2 e1
  unfold findMaxDivisionsPerQuarter
  rw [l3, e3, if_pos hm]

/-! ### one part at a time -/

/-- A part that is saved and loaded by itself. -/
def partAgain (tpq : Int) (p : PartData P) : Option (List (MeasureData P)) :=
  (getPartData tpq tpq (asChildren (writePart tpq p.transposition p.measures))).map (·.1)

theorem getPartData_scale {tpq dv : Int} (ht : 0 < tpq) (hd : dv = -1 ∨ dv = tpq) (p : PartData P) :
    getPartData tpq dv (asChildren (writePart tpq p.transposition p.measures)) = (partAgain tpq p).map (fun o => (o, tpq)) := by
  have e : getPartData tpq dv (asChildren (writePart tpq p.transposition p.measures)) = getPartData tpq tpq (asChildren (writePart tpq p.transposition p.measures)) := by
    unfold getPartData readPart partEnv
    rcases hd with rfl | rfl
    · simp
    · rfl
  rw [e]
  unfold partAgain
  cases h : getPartData tpq tpq (asChildren (writePart tpq p.transposition p.measures)) with
  | none => rfl
  | some r =>
    obtain ⟨o, t⟩ := r
    simp only [Option.map_some, Option.some.injEq, Prod.mk.injEq, true_and]
    unfold getPartData readPart at h
    simp only [Option.map_eq_some_iff, Prod.mk.injEq] at h
    obtain ⟨⟨rs, t'⟩, h1, _, h2⟩ := h
    simp only at h2
    rw [partElems_asChildren] at h1
    have h1' : readMeasures (partEnv tpq (asChildren (writePart tpq p.transposition p.measures))) tpq (writePart tpq p.transposition p.measures) = some (rs, t') := by
      simpa [partEnv] using h1
    rw [← h2]
    exact readMeasures_scale ht (writePart_scale tpq ht p.transposition p.measures) h1'

theorem getParts_each (tpq : Int) (ht : 0 < tpq) : ∀ (ps : List (PartData P)) (dv : Int), (dv = -1 ∨ dv = tpq) →
    getParts tpq dv (ps.map (fun p => asChildren (writePart tpq p.transposition p.measures))) = ps.mapM (partAgain tpq) := by
  intro ps
  induction ps with
  | nil => intro dv _; rfl
  | cons p ps ih =>
    intro dv hd
    simp only [List.map_cons, getParts, Option.bind_eq_bind, List.mapM_cons]
    rw [getPartData_scale ht hd p]
    cases partAgain tpq p with
    | none => rfl
    | some o =>
      simp only [Option.map_some, Option.bind_some]
      rw [ih tpq (.inr rfl)]
      rfl

/-- The part that is found by the id of a part. -/
def found (parts : List (PartData P)) (p : PartData P) : PartData P := (parts.find? (fun q => decide (xsID q.uniqueId = xsID p.uniqueId))).getD p

theorem found_spec {parts : List (PartData P)} {p : PartData P} (h : p ∈ parts) :
    found parts p ∈ parts ∧ xsID (found parts p).uniqueId = xsID p.uniqueId ∧ parts.find? (fun q => decide (xsID q.uniqueId = xsID p.uniqueId)) = some (found parts p) := by
  unfold found
  cases hf : parts.find? (fun q => decide (xsID q.uniqueId = xsID p.uniqueId)) with
  | none =>
    have := List.find?_eq_none.mp hf p h
    simp at this
  | some q =>
    have h1 := List.mem_of_find?_eq_some hf
    have h2 := List.find?_some hf
    have h2 := of_decide_eq_true h2
    exact ⟨h1, h2, rfl⟩

theorem found_same (parts : List (PartData P)) {p q : PartData P} (hp : p ∈ parts) (h : xsID p.uniqueId = xsID q.uniqueId) : found parts p = found parts q := by
  have := (found_spec hp).2.2
  unfold found at this ⊢
  rw [h] at this ⊢
  rw [this]
  rfl

theorem reconcile_found {tpq : Int} (parts : List (PartData P)) :
    reconcileParts (parts.map (fun q => xsID q.uniqueId)) (parts.map (fun q => (xsID q.uniqueId, asChildren (writePart tpq q.transposition q.measures)))) =
      (parts.map (found parts)).map (fun p => asChildren (writePart tpq p.transposition p.measures)) := by
  unfold reconcileParts
  rw [List.filterMap_map, List.map_map, ← List.filterMap_eq_map (f := (fun p => asChildren (writePart tpq p.transposition p.measures)) ∘ found parts)]
  apply List.filterMap_congr
  intro p hp
  have h := (found_spec hp).2.2
  simp only [Function.comp_def, List.find?_map]
  rw [h]
  rfl

/-- A score that has a measure is loaded part by part. -/
theorem rereadScore_eq (tpq : Int) (parts : List (PartData P)) (ht : 0 < tpq) (hm : tpq ≤ INT_MAX) (h : HasMeasure parts) :
    rereadScore tpq parts = ((parts.map (found parts)).mapM (partAgain tpq)).map (fun o => (tpq, o)) := by
  obtain ⟨p0, hp0, h0⟩ := h
  have hw : writeScore tpq parts = (parts.map (fun q => xsID q.uniqueId), parts.map (fun q => (xsID q.uniqueId, writePart tpq q.transposition q.measures))) := by
    obtain ⟨p, ps, rfl⟩ := List.exists_cons_of_ne_nil (List.ne_nil_of_mem hp0)
    rfl
  unfold rereadScore getScore
  rw [hw]
  simp only [List.map_map]
  have hs : findMaxDivisionsPerQuarter (parts.map ((fun p : Str × List (List (Child P)) => partElems p.2) ∘
      ((fun p : Str × List (List (Elem P)) => (p.1, asChildren p.2)) ∘ fun q : PartData P => (xsID q.uniqueId, writePart tpq q.transposition q.measures)))) = .ok tpq := by
    apply written_scale_some tpq ht hm
    · refine ⟨_, List.mem_map_of_mem hp0, ?_⟩
      simp only [Function.comp_def, partElems_asChildren]
      exact writePart_says tpq ht p0.transposition p0.measures h0
    · intro p hp
      obtain ⟨q, hq, rfl⟩ := List.mem_map.mp hp
      simp only [Function.comp_def, partElems_asChildren]
      exact writePart_scale tpq ht q.transposition q.measures
  rw [hs]
  simp only
  have hr := reconcile_found (tpq := tpq) parts
  have hr' : reconcileParts (parts.map (fun q => xsID q.uniqueId)) (parts.map ((fun p : Str × List (List (Elem P)) => (p.1, asChildren p.2)) ∘
      fun q : PartData P => (xsID q.uniqueId, writePart tpq q.transposition q.measures))) =
      (parts.map (found parts)).map (fun p => asChildren (writePart tpq p.transposition p.measures)) := hr
  rw [hr', getParts_each tpq ht _ _ (.inl rfl)]

theorem mapM_pairs {A B : Type} {f : A → Option B} : ∀ {l : List A} {o : List B}, l.mapM f = some o → AllPairs (fun a b => f a = some b) l o := by
  intro l
  induction l with
  | nil => intro o h; simp at h; subst h; exact allPairs_nil
  | cons a l ih =>
    intro o h
    simp only [List.mapM_cons, Option.bind_eq_bind, Option.bind_eq_some_iff, Option.pure_def, Option.some.injEq] at h
    obtain ⟨b, h1, bs, h2, rfl⟩ := h
    exact allPairs_cons h1 (ih h2)

theorem mapM_some {A B : Type} {f : A → Option B} : ∀ {l : List A}, (∀ a ∈ l, ∃ b, f a = some b) → ∃ o, l.mapM f = some o := by
  intro l
  induction l with
  | nil => intro _; exact ⟨[], rfl⟩
  | cons a l ih =>
    intro h
    obtain ⟨b, hb⟩ := h a (by simp)
    obtain ⟨o, ho⟩ := ih (fun x hx => h x (by simp [hx]))
    exact ⟨b :: o, by simp [hb, ho]⟩

/-! ### what has been loaded -/

/-- What is known of the measures of a part that has been loaded. -/
structure GoodPart (N : Nat) (ms : List (MeasureData P)) : Prop where
  nonempty : ms ≠ []
  staff : 1 ≤ N
  staves : ∀ m ∈ ms, m.staves.length = N
  kept : ∀ m ∈ ms, MeasureKept m
  numbered : ∀ m ∈ ms, ∀ s ∈ m.staves, VoicesNumbered s

/-- The elements of a measure that was written, or none. -/
theorem writePart_mem {tpq : Int} {tr : Option Extras} {ms : List (Extras × MeasureData P)} {es : List (Elem P)} (h : es ∈ writePart tpq tr ms) :
    es = [] ∨ ∃ env m, es = writeMeasure env m := by
  cases ms with
  | cons x ms =>
    obtain ⟨y, _, b, h⟩ := mem_writeMeasuresFrom (ms := x :: ms) (first := true) h
    exact .inr ⟨_, _, h⟩
  | nil =>
    cases tr with
    | none => simp [writePart] at h; exact .inl h
    | some x =>
      obtain ⟨y, _, b, h⟩ := mem_writeMeasuresFrom (ms := [(x, { staves := [], keys := [], barlines := [] })]) (first := true) h
      exact .inr ⟨_, _, h⟩

theorem writePart_ne (tpq : Int) (tr : Option Extras) (ms : List (Extras × MeasureData P)) : writePart tpq tr ms ≠ [] := by
  cases ms with
  | cons x ms => obtain ⟨x, m⟩ := x; simp [writePart, writeMeasuresFrom]
  | nil => cases tr <;> simp [writePart, writeMeasuresFrom]

theorem readMeasures_loaded {env : REnv} (hG : 0 ≤ env.globalTicksPerQuarter) : ∀ {p : List (List (Elem P))} {d t : Int} {rs : List (RSt P)}, 0 ≤ d →
    (∀ es ∈ p, (∀ e ∈ es, TimesForward e) ∧ ChordsOnOneStaff none es) → readMeasures env d p = some (rs, t) →
    rs.length = p.length ∧ ∀ r ∈ rs, MeasureKept (measureOf env r) ∧ ∀ s ∈ (measureOf env r).staves, VoicesNumbered s := by
  intro p
  induction p with
  | nil => intro d t rs _ _ h; simp only [readMeasures, Option.some.injEq, Prod.mk.injEq] at h; rw [← h.1]; simp
  | cons es p ih =>
    intro d t rs hd hw he
    simp only [readMeasures, Option.bind_eq_bind, Option.bind_eq_some_iff, Option.some.injEq, Prod.mk.injEq] at he
    obtain ⟨r, h1, ⟨rs', t1⟩, h2, rfl, _⟩ := he
    obtain ⟨w1, w2⟩ := hw es (by simp)
    have hm : readMeasure env d es = some (measureOf env r) := by unfold readMeasure; rw [h1]; rfl
    obtain ⟨k1, k2, _⟩ := loaded_kept hG hd hm w1 w2
    have hs : 0 ≤ r.ticksPerQuarter := by
      obtain ⟨prev, hr⟩ := reading_elems hG es none (initRSt d) r ⟨by simp [initRSt], by simpa [initRSt] using hd, by simp [initRSt], by simp [initRSt], by simp [initRSt, line],
        by simp [initRSt, line]⟩ w1 w2 h1
      exact hr.scale
    obtain ⟨i1, i2⟩ := ih hs (fun es' h' => hw es' (by simp [h'])) h2
    refine ⟨by simp [i1], ?_⟩
    intro x hx
    rcases List.mem_cons.mp hx with rfl | hx
    · exact ⟨k1, k2⟩
    · exact i2 x hx

/-- Whatever is saved, what is loaded is good. -/
theorem partAgain_good {tpq : Int} (ht : 0 < tpq) {p : PartData P} {o : List (MeasureData P)} (h : partAgain tpq p = some o) : ∃ N, GoodPart N o := by
  unfold partAgain at h
  simp only [Option.map_eq_some_iff] at h
  obtain ⟨⟨o', t⟩, h, rfl⟩ := h
  obtain ⟨hl, n, hn, hst⟩ := C48_same_staves_in_every_measure _ _ _ _ _ h
  unfold getPartData readPart at h
  simp only [Option.map_eq_some_iff, Prod.mk.injEq] at h
  obtain ⟨⟨rs, t'⟩, h1, rfl, _⟩ := h
  rw [partElems_asChildren] at h1
  obtain ⟨a1, a2⟩ := readMeasures_loaded (by simp [partEnv]; omega) (by split <;> omega) (fun es hes => by
    rcases writePart_mem hes with rfl | ⟨env, m, rfl⟩
    · simp [ChordsOnOneStaff]
    · exact written_forward env m) h1
  refine ⟨n, ?_, by have := hn.one; omega, hst, ?_, ?_⟩
  · intro e
    have := writePart_ne tpq p.transposition p.measures
    simp only at e
    rw [e] at hl
    simp [asChildren] at hl
    exact this (List.length_eq_zero_iff.mp hl.symm)
  · intro m hm
    obtain ⟨r, hr, rfl⟩ := List.mem_map.mp hm
    exact (a2 r hr).1
  · intro m hm
    obtain ⟨r, hr, rfl⟩ := List.mem_map.mp hm
    exact (a2 r hr).2

/-! ### saving and loading what has been loaded -/

theorem measure_divisions {tpq : Int} (ht : 0 < tpq) (env : WEnv) (he : env.ticksPerQuarter = tpq) (m : MeasureData P) :
    ∀ a, Elem.attributes a ∈ writeMeasure env m → ∀ d, a.divisions = some d → d = tpq * MICRO := by
  refine written_only env m (fun a => a.divisions) (tpq * MICRO) (fun _ _ _ => rfl) (fun _ _ _ => rfl) rfl ?_
  intro z hz
  simp only [globalsStart] at hz
  split at hz
  · simp only [Option.some.injEq] at hz
    rw [← hz, he]; unfold durMicro; rw [if_pos ht]
  · simp at hz

theorem measures_again (N : Nat) (tpq : Int) (ht : 0 < tpq) (hN : 1 ≤ N) : ∀ (ms : List (Extras × MeasureData P)) (first : Bool), (∀ x ∈ ms, x.2.staves.length = N) →
    ∃ rs, readMeasures ⟨N, tpq⟩ tpq (writeMeasuresFrom N tpq first ms) = some (rs, tpq) ∧
      AllPairs (fun x r => ∃ b, writeThenRead (x.1.env N tpq b) tpq x.2 = some (measureOf ⟨N, tpq⟩ r)) ms rs := by
  intro ms
  induction ms with
  | nil => intro _ _; exact ⟨[], rfl, allPairs_nil⟩
  | cons x ms ih =>
    intro first hl
    obtain ⟨x, m⟩ := x
    have h1 := hl (x, m) (by simp)
    simp only at h1
    have hsuit : Suits (x.env N tpq first) tpq m := ⟨ht, fun _ => rfl, by simp only [Extras.env]; omega, by simp only [Extras.env]; rw [h1]⟩
    obtain ⟨m', hm', _⟩ := C71_notes (x.env N tpq first) tpq m hsuit
    have hm := hm'
    unfold writeThenRead readMeasure at hm'
    simp only [Option.bind_eq_bind, Option.bind_eq_some_iff, Option.some.injEq] at hm'
    obtain ⟨r, r1, r2⟩ := hm'
    have hs : r.ticksPerQuarter = tpq := by
      refine readElems_scale ht ?_ rfl r1
      exact measure_divisions ht _ rfl m
    obtain ⟨rs, i1, i2⟩ := ih false (fun y hy => hl y (by simp [hy]))
    refine ⟨r :: rs, ?_, allPairs_cons ⟨first, by rw [hm, ← r2]; rfl⟩ i2⟩
    have r1' : readElems ⟨N, tpq⟩ false (writeMeasure (x.env N tpq first) m) (initRSt tpq) = some r := r1
    simp only [writeMeasuresFrom, readMeasures, Option.bind_eq_bind]
    rw [r1']
    simp only [Option.bind_some]
    rw [hs, i1]
    rfl

theorem partAgain_steps {N : Nat} {tpq : Int} (ht : 0 < tpq) {p : PartData P} (h : GoodPart N (p.measures.map (·.2))) :
    ∃ o, partAgain tpq p = some o ∧ AllPairs (fun x m' => ∃ b, writeThenRead (x.1.env N tpq b) tpq x.2 = some m') p.measures o := by
  obtain ⟨id, tr, ms⟩ := p
  simp only at h ⊢
  have hne : ms ≠ [] := by intro e; exact h.nonempty (by simp [e])
  have hl : ∀ x ∈ ms, x.2.staves.length = N := fun x hx => h.staves x.2 (List.mem_map_of_mem hx)
  obtain ⟨⟨x, m⟩, rest, rfl⟩ := List.exists_cons_of_ne_nil hne
  have hl0 := hl (x, m) (by simp)
  simp only at hl0
  have hw : writePart tpq tr ((x, m) :: rest) = writeMeasuresFrom N tpq true ((x, m) :: rest) := by
    unfold writePart
    simp only
    rw [hl0]
  obtain ⟨rs, e1, e3⟩ := measures_again N tpq ht h.staff ((x, m) :: rest) true hl
  refine ⟨rs.map (measureOf ⟨N, tpq⟩), ?_, ?_⟩
  · unfold partAgain getPartData partEnv readPart
    simp only
    rw [hw, written_staffCount N tpq h.staff x m rest hl, partElems_asChildren]
    simp only [gt_iff_lt, ht, if_true]
    rw [e1]
    rfl
  · refine ⟨by rw [List.length_map]; exact e3.1, ?_⟩
    intro i a b ha hb
    rw [List.getElem?_map, Option.map_eq_some_iff] at hb
    obtain ⟨r, hr, rfl⟩ := hb
    exact e3.2 i a r ha hr

/-- A measure that does not change any more. -/
structure SettledMeasure (m : MeasureData P) : Prop where
  ok : MeasureKept m
  readable : ∀ s ∈ m.staves, StaffReadable s
  noEmpty : ∀ s ∈ m.staves, NoEmpty s.voices
  flags : ∀ (i : Nat) (s : StaffData P), m.staves[i]? = some s → i ≠ 0 → ∀ d ∈ s.directions, d.isStaffValueSpecified = true

theorem suits_of {N : Nat} {tpq : Int} (ht : 0 < tpq) (hN : 1 ≤ N) (x : Extras) (b : Bool) {m : MeasureData P} (h : m.staves.length = N) : Suits (x.env N tpq b) tpq m :=
  ⟨ht, fun _ => rfl, by simp only [Extras.env]; omega, by simp only [Extras.env]; rw [h]⟩

/-- Parts of which all measures have settled. -/
structure SettledPart (ms : List (MeasureData P)) : Prop where
  good : ∃ N, GoodPart N ms
  measures : ∀ m ∈ ms, SettledMeasure m

theorem pairs_left {A B : Type} {R : A → B → Prop} {as : List A} {bs : List B} (h : AllPairs R as bs) {b : B} (hb : b ∈ bs) : ∃ a ∈ as, R a b := by
  obtain ⟨i, hi⟩ := List.getElem?_of_mem hb
  have hlt := (List.getElem?_eq_some_iff.mp hi).1
  have ha : as[i]? = some (as[i]'(by rw [h.1]; exact hlt)) := List.getElem?_eq_getElem _
  exact ⟨_, List.mem_of_getElem? ha, h.2 i _ b ha hi⟩

theorem pairs_map {A B C : Type} {f : A → C} {g : B → C} : ∀ {as : List A} {bs : List B}, AllPairs (fun a b => g b = f a) as bs → bs.map g = as.map f := by
  intro as bs h
  apply List.ext_getElem?
  intro i
  rw [List.getElem?_map, List.getElem?_map]
  by_cases hi : i < as.length
  · have ha : as[i]? = some as[i] := List.getElem?_eq_getElem hi
    have hb : bs[i]? = some (bs[i]'(by rw [← h.1]; exact hi)) := List.getElem?_eq_getElem _
    rw [ha, hb]
    simp only [Option.map_some, Option.some.injEq]
    exact h.2 i _ _ ha hb
  · have h1 : as[i]? = none := List.getElem?_eq_none (by omega)
    have h2 : bs[i]? = none := List.getElem?_eq_none (by rw [← h.1]; omega)
    rw [h1, h2]
    rfl

/-- The second time, what is loaded has settled. -/
theorem partAgain_settles {tpq : Int} (ht : 0 < tpq) {p : PartData P} {o : List (MeasureData P)} (hg : ∃ N, GoodPart N (p.measures.map (·.2))) (h : partAgain tpq p = some o) : SettledPart o := by
  obtain ⟨N, hg⟩ := hg
  obtain ⟨o', h1, h2⟩ := partAgain_steps ht hg
  rw [h] at h1
  cases h1
  refine ⟨partAgain_good ht h, ?_⟩
  intro m' hm'
  obtain ⟨x, hx, b, hr⟩ := pairs_left h2 hm'
  have hx' := List.mem_map_of_mem (f := (·.2)) hx
  obtain ⟨m'', e1, e2⟩ := settled_first (x.1.env N tpq b) tpq x.2 (suits_of ht hg.staff x.1 b (hg.staves _ hx')) (hg.kept _ hx') (hg.numbered _ hx')
  rw [hr] at e1
  cases e1
  exact ⟨e2.ok, e2.readable, e2.noEmpty, e2.flags⟩

/-- What is heard of a measure. -/
def heardOf (m : MeasureData P) : List (List (Int × List (NoteData P))) × List (List (DirectionData P)) × List (List P) :=
  (music m, directionsOf m, m.staves.map (fun st => st.clefs.map (·.content)))

/-- From then on nothing changes. -/
theorem partAgain_same {tpq : Int} (ht : 0 < tpq) {p : PartData P} (hs : SettledPart (p.measures.map (·.2))) :
    ∃ o, partAgain tpq p = some o ∧ AllPairs (fun x m' => heardOf m' = heardOf x.2 ∧ m'.staves.map (·.voices) = x.2.staves.map voicesExpected) p.measures o := by
  obtain ⟨⟨N, hg⟩, hm⟩ := hs
  obtain ⟨o, h1, h2⟩ := partAgain_steps ht hg
  refine ⟨o, h1, h2.1, ?_⟩
  intro i x m' hx hm'
  obtain ⟨b, hr⟩ := h2.2 i x m' hx hm'
  have hx' := List.mem_map_of_mem (f := (·.2)) (List.mem_of_getElem? hx)
  have hsuit := suits_of ht hg.staff x.1 b (hg.staves _ hx')
  have hset := hm _ hx'
  obtain ⟨m'', e1, _, e3, e4⟩ := settled_next (env := x.1.env N tpq b) (divisionsBefore := tpq) (m := x.2) ⟨hsuit, hset.ok, hset.readable, hset.noEmpty, hset.flags⟩
  rw [hr] at e1
  cases e1
  obtain ⟨m'', g1, g2⟩ := C71_clefs (x.1.env N tpq b) tpq x.2 hsuit
  rw [hr] at g1
  cases g1
  refine ⟨?_, e3⟩
  unfold heardOf
  rw [settled_music hset.noEmpty e3, e4, g2]

/-! ### scores -/

/-- A score that has been loaded. -/
structure LoadedScore (s : Score P) : Prop where
  scale : 0 < s.ticksPerQuarter ∧ s.ticksPerQuarter ≤ INT_MAX
  nonempty : s.parts ≠ []
  parts : ∀ p ∈ s.parts, ∃ N, GoodPart N (p.measures.map (·.2))

/-- A score that has been loaded after it was saved. -/
structure GoodScore (s : Score P) : Prop extends LoadedScore s where
  ids : ∀ p ∈ s.parts, xsID p.uniqueId = p.uniqueId
  same : ∀ p ∈ s.parts, ∀ q ∈ s.parts, p.uniqueId = q.uniqueId → p.measures.map (·.2) = q.measures.map (·.2)

theorem LoadedScore.hasMeasure {s : Score P} (h : LoadedScore s) : HasMeasure s.parts := by
  obtain ⟨p, hp⟩ := List.exists_mem_of_ne_nil _ h.nonempty
  obtain ⟨N, hg⟩ := h.parts p hp
  exact ⟨p, hp, .inl (by intro e; exact hg.nonempty (by simp [e]))⟩

theorem writeScore_ids (tpq : Int) {parts : List (PartData P)} (h : parts ≠ []) : (writeScore tpq parts).1 = parts.map (fun q => xsID q.uniqueId) := by
  obtain ⟨p, ps, rfl⟩ := List.exists_cons_of_ne_nil h
  rfl

/-- One save and load, part by part. -/
theorem savedAndLoaded_parts {s s' : Score P} (ht : 0 < s.ticksPerQuarter) (hm : s.ticksPerQuarter ≤ INT_MAX) (hh : HasMeasure s.parts) (h : SavedAndLoaded s s') :
    s'.ticksPerQuarter = s.ticksPerQuarter ∧
    AllPairs (fun p p' => p'.uniqueId = xsID p.uniqueId ∧ partAgain s.ticksPerQuarter (found s.parts p) = some (p'.measures.map (·.2))) s.parts s'.parts := by
  obtain ⟨h1, h2⟩ := h
  have hne : s.parts ≠ [] := by obtain ⟨p, hp, _⟩ := hh; exact List.ne_nil_of_mem hp
  rw [rereadScore_eq _ _ ht hm hh, Option.map_eq_some_iff] at h1
  obtain ⟨o, ho, h1⟩ := h1
  simp only [Prod.mk.injEq] at h1
  obtain ⟨e1, rfl⟩ := h1
  rw [writeScore_ids _ hne] at h2
  have hp := mapM_pairs ho
  refine ⟨e1.symm, by have := hp.1; simpa using this, ?_⟩
  intro i p p' hi hi'
  constructor
  · have := congrArg (fun l => l[i]?) h2
    simp only [List.getElem?_map, hi, hi', Option.map_some, Option.some.injEq] at this
    exact this
  · exact hp.2 i (found s.parts p) _ (by rw [List.getElem?_map, hi]; rfl) (by rw [List.getElem?_map, hi']; rfl)

theorem savedAndLoaded_good {s s' : Score P} (ht : 0 < s.ticksPerQuarter) (hm : s.ticksPerQuarter ≤ INT_MAX) (hh : HasMeasure s.parts) (h : SavedAndLoaded s s') : GoodScore s' := by
  obtain ⟨e1, e2⟩ := savedAndLoaded_parts ht hm hh h
  have hne : s.parts ≠ [] := by obtain ⟨p, hp, _⟩ := hh; exact List.ne_nil_of_mem hp
  refine ⟨⟨by rw [e1]; exact ⟨ht, hm⟩, ?_, ?_⟩, ?_, ?_⟩
  · intro e
    have := e2.1
    rw [e] at this
    exact hne (List.length_eq_zero_iff.mp this)
  · intro p' hp'
    obtain ⟨p, _, _, h2⟩ := pairs_left e2 hp'
    exact partAgain_good ht h2
  · intro p' hp'
    obtain ⟨p, _, h1, _⟩ := pairs_left e2 hp'
    rw [h1, id_idem]
  · intro p' hp' q' hq' hid
    obtain ⟨p, hp, h1, h2⟩ := pairs_left e2 hp'
    obtain ⟨q, hq, h3, h4⟩ := pairs_left e2 hq'
    rw [h1, h3] at hid
    rw [found_same s.parts hp hid, h4] at h2
    simpa using h2.symm

/-- A score of which nothing changes any more. -/
structure SettledScore (s : Score P) : Prop where
  good : GoodScore s
  parts : ∀ p ∈ s.parts, SettledPart (p.measures.map (·.2))

theorem savedAndLoaded_settled {s s' : Score P} (hg : LoadedScore s) (h : SavedAndLoaded s s') : SettledScore s' := by
  obtain ⟨e1, e2⟩ := savedAndLoaded_parts hg.scale.1 hg.scale.2 hg.hasMeasure h
  refine ⟨savedAndLoaded_good hg.scale.1 hg.scale.2 hg.hasMeasure h, ?_⟩
  intro p' hp'
  obtain ⟨p, hp, _, h2⟩ := pairs_left e2 hp'
  exact partAgain_settles hg.scale.1 (hg.parts _ (found_spec hp).1) h2

theorem settled_same {s s' : Score P} (hs : SettledScore s) (h : SavedAndLoaded s s') : scoreMusic s' = scoreMusic s := by
  have hg := hs.good
  obtain ⟨e1, e2⟩ := savedAndLoaded_parts hg.scale.1 hg.scale.2 hg.hasMeasure h
  unfold scoreMusic
  rw [e1]
  congr 1
  refine pairs_map (f := fun p : PartData P => (p.uniqueId, p.measures.map (fun x => heardOf x.2))) (g := fun p : PartData P => (p.uniqueId, p.measures.map (fun x => heardOf x.2))) ⟨e2.1, ?_⟩
  intro i p p' hi hi'
  obtain ⟨h1, h2⟩ := e2.2 i p p' hi hi'
  have hp := List.mem_of_getElem? hi
  obtain ⟨f1, f2, _⟩ := found_spec hp
  obtain ⟨o, o1, o2⟩ := partAgain_same hg.scale.1 (hs.parts _ f1)
  rw [h2] at o1
  simp only [Option.some.injEq] at o1
  have hm := pairs_map (f := fun x : Extras × MeasureData P => heardOf x.2) (g := heardOf) ⟨o2.1, fun i a b ha hb => (o2.2 i a b ha hb).1⟩
  rw [← o1, List.map_map] at hm
  have hsame := hg.same _ f1 p hp (by rw [← hg.ids _ f1, f2, hg.ids p hp])
  have hsame' := congrArg (List.map heardOf) hsame
  rw [List.map_map, List.map_map] at hsame'
  simp only [Prod.mk.injEq]
  refine ⟨by rw [h1, hg.ids p hp], ?_⟩
  exact hm.trans hsame'

/-- The notes carry the numbers of their voices. -/
def NumbersFollow (s : Score P) : Prop := ∀ p ∈ s.parts, ∀ x ∈ p.measures, ∀ st ∈ x.2.staves, ∃ st0 : StaffData P, st.voices = voicesExpected st0

theorem settled_voices {s s' : Score P} (hs : SettledScore s) (h : SavedAndLoaded s s') :
    AllPairs (fun p p' => p'.measures.map (fun x => x.2.staves.map (·.voices)) = p.measures.map (fun x => x.2.staves.map voicesExpected)) s.parts s'.parts := by
  have hg := hs.good
  obtain ⟨e1, e2⟩ := savedAndLoaded_parts hg.scale.1 hg.scale.2 hg.hasMeasure h
  refine ⟨e2.1, ?_⟩
  intro i p p' hi hi'
  obtain ⟨h1, h2⟩ := e2.2 i p p' hi hi'
  have hp := List.mem_of_getElem? hi
  obtain ⟨f1, f2, _⟩ := found_spec hp
  obtain ⟨o, o1, o2⟩ := partAgain_same hg.scale.1 (hs.parts _ f1)
  rw [h2] at o1
  simp only [Option.some.injEq] at o1
  have hm := pairs_map (f := fun x : Extras × MeasureData P => x.2.staves.map voicesExpected) (g := fun m : MeasureData P => m.staves.map (·.voices))
    ⟨o2.1, fun i a b ha hb => (o2.2 i a b ha hb).2⟩
  rw [← o1, List.map_map] at hm
  have hsame := hg.same _ f1 p hp (by rw [← hg.ids _ f1, f2, hg.ids p hp])
  have hsame' := congrArg (List.map (fun m : MeasureData P => m.staves.map voicesExpected)) hsame
  rw [List.map_map, List.map_map] at hsame'
  exact hm.trans hsame'

theorem settled_numbers {s s' : Score P} (hs : SettledScore s) (h : SavedAndLoaded s s') : NumbersFollow s' := by
  have hv := settled_voices hs h
  intro p' hp' x' hx' st' hst'
  obtain ⟨p, hp, e⟩ := pairs_left hv hp'
  have hm : x'.2.staves.map (·.voices) ∈ p'.measures.map (fun x => x.2.staves.map (·.voices)) := List.mem_map_of_mem (f := fun x : Extras × MeasureData P => x.2.staves.map (·.voices)) hx'
  rw [e] at hm
  obtain ⟨x, _, hx⟩ := List.mem_map.mp hm
  have hm : st'.voices ∈ x'.2.staves.map (·.voices) := List.mem_map_of_mem hst'
  rw [← hx] at hm
  obtain ⟨st, _, e⟩ := List.mem_map.mp hm
  exact ⟨st, e.symm⟩

theorem settled_voices_same {s s' : Score P} (hs : SettledScore s) (hn : NumbersFollow s) (h : SavedAndLoaded s s') : scoreVoices s' = scoreVoices s := by
  have hv := settled_voices hs h
  unfold scoreVoices
  refine pairs_map (f := fun p : PartData P => p.measures.map (fun x => x.2.staves.map (·.voices))) (g := fun p : PartData P => p.measures.map (fun x => x.2.staves.map (·.voices))) ⟨hv.1, ?_⟩
  intro i p p' hi hi'
  rw [hv.2 i p p' hi hi']
  apply List.map_congr_left
  intro x hx
  apply List.map_congr_left
  intro st hst
  obtain ⟨st0, e⟩ := hn p (List.mem_of_getElem? hi) x hx st hst
  exact expected_expected e

/-! ### files of other programs -/

theorem chkR_small {a r : Int} (h : chkR a = .ok r) : r ≤ INT_MAX := by
  unfold chkR at h
  split at h
  · rename_i hh
    simp only [Except.ok.injEq] at h
    subst h
    exact hh.2
  · cases h

theorem lcm2_small {a b r : Int} (h : LcmGcd.lcm2 a b = .ok r) : r ≤ INT_MAX := by
  unfold LcmGcd.lcm2 at h
  simp only [bind, Except.bind] at h
  split at h
  · cases h
  · rename_i g _
    by_cases hg : g ≠ 0
    · rw [if_pos hg] at h
      cases hv : chkR (a.tdiv g * b) with
      | error e => rw [hv] at h; cases h
      | ok v =>
        rw [hv] at h
        simp only at h
        split at h
        · exact chkR_small h
        · simp only [Except.ok.injEq] at h
          subst h
          exact chkR_small hv
    · rw [if_neg hg] at h
      simp only [lt_irrefl, if_false, Except.ok.injEq] at h
      subst h
      decide

theorem lcmRest_small : ∀ (bs : List Int) (a r : Int), a ≤ INT_MAX → LcmGcd.lcmRest a bs = .ok r → r ≤ INT_MAX := by
  intro bs
  induction bs with
  | nil => intro a r ha h; simp only [LcmGcd.lcmRest, Except.ok.injEq] at h; omega
  | cons b bs ih =>
    intro a r ha h
    simp only [LcmGcd.lcmRest] at h
    split at h
    · cases h
    · simp only [bind, Except.bind] at h
      split at h
      · cases h
      · rename_i v hv
        exact ih v r (lcm2_small hv) h

theorem lcmSet_small {xs : List Int} {r : Int} (h : LcmGcd.lcmSet xs = .ok r) : r ≤ INT_MAX := by
  match xs with
  | [] => simp only [LcmGcd.lcmSet, Except.ok.injEq] at h; rw [← h]; decide
  | [a] =>
    simp only [LcmGcd.lcmSet] at h
    split at h
    · cases h
    · exact chkR_small h
  | a :: b :: rest =>
    simp only [LcmGcd.lcmSet] at h
    split at h
    · cases h
    · simp only [bind, Except.bind] at h
      split at h
      · cases h
      · rename_i v hv
        exact lcmRest_small _ v r (lcm2_small hv) h

theorem getParts_good {G : Int} (hG : 0 ≤ G) : ∀ {ps : List (List (List (Child P)))} {dv : Int} {o : List (List (MeasureData P))},
    (∀ p ∈ ps, p ≠ [] ∧ ∀ m ∈ p, (∀ c ∈ m, TimesForward c.elem) ∧ ChordsOnOneStaff none (m.map (·.elem))) → getParts G dv ps = some o → ∀ ms ∈ o, ∃ N, GoodPart N ms := by
  intro ps
  induction ps with
  | nil => intro dv o _ h; simp only [getParts, Option.some.injEq] at h; subst h; simp
  | cons p ps ih =>
    intro dv o hp h
    simp only [getParts, Option.bind_eq_bind, Option.bind_eq_some_iff, Option.some.injEq] at h
    obtain ⟨⟨ms, t⟩, h1, os, h2, rfl⟩ := h
    intro x hx
    rcases List.mem_cons.mp hx with rfl | hx
    · obtain ⟨hl, n, hn, hst⟩ := C48_same_staves_in_every_measure _ _ _ _ _ h1
      unfold getPartData readPart at h1
      simp only [Option.map_eq_some_iff, Prod.mk.injEq] at h1
      obtain ⟨⟨rs, t'⟩, h1, rfl, _⟩ := h1
      obtain ⟨q1, q2⟩ := hp p (by simp)
      obtain ⟨a1, a2⟩ := readMeasures_loaded (by simpa [partEnv] using hG) (by
        split
        · omega
        · exact hG) (fun es hes => by
        obtain ⟨m, hm, rfl⟩ := List.mem_map.mp hes
        refine ⟨?_, (q2 m hm).2⟩
        intro e he
        obtain ⟨c, hc, rfl⟩ := List.mem_map.mp he
        exact (q2 m hm).1 c hc) h1
      refine ⟨n, ?_, by have := hn.one; omega, hst, ?_, ?_⟩
      · intro e
        simp only at e hl
        rw [e] at hl
        exact q1 (List.length_eq_zero_iff.mp hl.symm)
      · intro m hm
        obtain ⟨r, hr, rfl⟩ := List.mem_map.mp hm
        exact (a2 r hr).1
      · intro m hm
        obtain ⟨r, hr, rfl⟩ := List.mem_map.mp hm
        exact (a2 r hr).2
    · exact ih (fun q hq => hp q (by simp [hq])) h2 x hx

/-! ### the first time -/

/-- the numbers of what is written -/
def Fits (N : Int) (b : Attributes P) (o : List (Elem P)) : Prop :=
  ((∀ cl ∈ b.clefs, ∀ k, cl.number = some k → 1 ≤ k ∧ k ≤ N) ∧ ∀ ke ∈ b.keys, ∀ k, ke.number = some k → 1 ≤ k) ∧
  ∀ e ∈ o, (∀ n, e = .note n → ∀ k, n.staff = some k → 1 ≤ k) ∧ (∀ k off x, e = .direction (some k) off x → 1 ≤ k) ∧
    (∀ a, e = .attributes a → (∀ cl ∈ a.clefs, ∀ k, cl.number = some k → 1 ≤ k ∧ k ≤ N) ∧ (∀ ke ∈ a.keys, ∀ k, ke.number = some k → 1 ≤ k))

theorem fits_snoc {N : Int} {b b' : Attributes P} {o : List (Elem P)} {e : Elem P} (h : Fits N b o) (hb : (∀ cl ∈ b'.clefs, ∀ k, cl.number = some k → 1 ≤ k ∧ k ≤ N) ∧ ∀ ke ∈ b'.keys, ∀ k, ke.number = some k → 1 ≤ k)
    (he : (∀ n, e = .note n → ∀ k, n.staff = some k → 1 ≤ k) ∧ (∀ k off x, e = .direction (some k) off x → 1 ≤ k) ∧
      (∀ a, e = .attributes a → (∀ cl ∈ a.clefs, ∀ k, cl.number = some k → 1 ≤ k ∧ k ≤ N) ∧ (∀ ke ∈ a.keys, ∀ k, ke.number = some k → 1 ≤ k))) : Fits N b' (o ++ [e]) := by
  refine ⟨hb, ?_⟩
  intro x hx
  rcases List.mem_append.mp hx with hx | hx
  · exact h.2 x hx
  · simp only [List.mem_singleton] at hx
    subst hx
    exact he

theorem closed_fits (N : Int) : Closed N (Fits (P := P) N) where
  key := by
    intro i k b o h
    refine ⟨⟨h.1.1, ?_⟩, h.2⟩
    intro ke hke n hn
    simp only [writeKey, List.mem_append, List.mem_singleton] at hke
    rcases hke with hke | rfl
    · exact h.1.2 ke hke n hn
    · simp only at hn
      split at hn
      · simp only [Option.some.injEq] at hn; omega
      · simp at hn
  clef := by
    intro i k b o hi h
    refine ⟨⟨?_, h.1.2⟩, h.2⟩
    intro ke hke n hn
    simp only [writeClef, List.mem_append, List.mem_singleton] at hke
    rcases hke with hke | rfl
    · exact h.1.1 ke hke n hn
    · simp only at hn
      split at hn
      · simp only [Option.some.injEq] at hn; omega
      · simp at hn
  full := fun b o _ h => fits_snoc h (by simp) ⟨by simp, by simp, fun a ha => by cases ha; exact h.1⟩
  empty := fun b o _ h => ⟨by simp, h.2⟩
  forward := fun d b o h => fits_snoc h h.1 (by simp)
  backup := fun d b o h => fits_snoc h h.1 (by simp)
  direction := fun s off c b o hs h => fits_snoc h h.1 ⟨by simp, fun k off' x e => by cases e; exact (hs k rfl).1, by simp⟩
  note := fun n b o hs h => fits_snoc h h.1 ⟨fun n' e k hk => by cases e; exact (hs k hk).1, by simp, by simp⟩

theorem written_fits (env : WEnv) (m : MeasureData P) : Fits (m.staves.length : Int) {} (writeMeasure env m) := by
  refine closed_measure (closed_fits _) env m (le_refl _) ?_ ?_ ?_
  · intro o b _ a h; exact fits_snoc h h.1 (by simp [barlineElem])
  · intro o a h; exact fits_snoc h h.1 (by simp)
  · exact ⟨by simp [globalsStart], by simp⟩

theorem partAgain_first {tpq : Int} (ht : 0 < tpq) {p : PartData P} (h : StavesFit p.measures) : ∃ o, partAgain tpq p = some o := by
  have hs := calculateNumStaves_spec (asChildren (writePart tpq p.transposition p.measures))
  -- every measure that is written fits the number of staves
  have key : ∀ es ∈ writePart tpq p.transposition p.measures, ∃ k, Fits k {} es ∧ k ≤ calculateNumStaves (asChildren (writePart tpq p.transposition p.measures)) := by
    obtain ⟨id, tr, ms⟩ := p
    simp only at h hs ⊢
    intro es hes
    cases ms with
    | nil =>
      cases tr with
      | none => simp [writePart] at hes; subst hes; exact ⟨0, ⟨by simp, by simp⟩, by have := hs.one; omega⟩
      | some x =>
        obtain ⟨y, hy, b, rfl⟩ := mem_writeMeasuresFrom (ms := [(x, { staves := [], keys := [], barlines := [] })]) (first := true) hes
        simp only [List.mem_singleton] at hy
        subst hy
        exact ⟨_, written_fits _ _, by have := hs.one; simp only [List.length_nil, Nat.cast_zero]; omega⟩
    | cons x rest =>
      obtain ⟨x, m⟩ := x
      have hfirst : (m.staves.length : Int) ≤ calculateNumStaves (asChildren (writePart tpq tr ((x, m) :: rest))) := by
        by_cases h1 : m.staves.length ≤ 1
        · have := hs.one; omega
        · obtain ⟨a, ha, hst⟩ := written_seen (x.env m.staves.length tpq true) m (fun a => a.staves) (m.staves.length : Int) (fun _ _ _ => rfl) (fun _ _ _ => rfl)
            (fun b hb => hasContents_staves hb) (by
              simp only [globalsStart, Extras.env]
              simp; omega)
          refine hs.enough _ ⟨(writeMeasure (x.env m.staves.length tpq true) m).map (fun e => { elem := e }), ?_, { elem := .attributes a }, ?_, ?_⟩
          · simp [asChildren, writePart, writeMeasuresFrom]
          · exact List.mem_map.mpr ⟨_, ha, rfl⟩
          · exact .inr (.inr (.inr ⟨a, rfl, hst⟩))
      obtain ⟨y, hy, b, rfl⟩ := mem_writeMeasuresFrom (ms := (x, m) :: rest) (first := true) hes
      refine ⟨_, written_fits _ _, ?_⟩
      rcases List.mem_cons.mp hy with rfl | hy
      · exact hfirst
      · have := h (x, m) rest rfl y hy
        have h1 := hs.one
        simp only at this
        omega
  have hchild : ∀ es ∈ asChildren (writePart tpq p.transposition p.measures), ∀ c ∈ es, ∃ es0 ∈ writePart tpq p.transposition p.measures, c.elem ∈ es0 := by
    intro es hes c hc
    obtain ⟨es0, h0, rfl⟩ := List.mem_map.mp hes
    obtain ⟨e, he, rfl⟩ := List.mem_map.mp hc
    exact ⟨es0, h0, he⟩
  obtain ⟨r, hr⟩ := C48_every_part_loads tpq tpq _ (asChildren (writePart tpq p.transposition p.measures)) ht hs (by
    intro es hes c hc
    obtain ⟨es0, h0, he⟩ := hchild es hes c hc
    obtain ⟨k, hk, _⟩ := key es0 h0
    obtain ⟨f1, f2, f3⟩ := hk.2 _ he
    exact ⟨f1, f2, fun a ha => ⟨fun cl hcl n hn => ((f3 a ha).1 cl hcl n hn).1, (f3 a ha).2⟩⟩) (by
    intro es hes c hc a ha cl hcl n hn
    obtain ⟨es0, h0, he⟩ := hchild es hes c hc
    obtain ⟨k, hk, hle⟩ := key es0 h0
    have := (((hk.2 _ he).2.2 a ha).1 cl hcl n hn).2
    omega) (by
    intro es hes c hc a ha d hd
    obtain ⟨es0, h0, he⟩ := hchild es hes c hc
    rw [ha] at he
    rw [writePart_scale tpq ht p.transposition p.measures es0 h0 a he d hd]
    rw [show roundMicro (tpq * MICRO) = tpq from roundMicro_mul tpq]
    omega)
  exact ⟨r.1, by unfold partAgain; rw [hr]; rfl⟩

/-- A score whose parts can be loaded can be saved and loaded. -/
theorem savedAndLoaded_of_parts {s : Score P} (ht : 0 < s.ticksPerQuarter) (hm : s.ticksPerQuarter ≤ INT_MAX) (hh : HasMeasure s.parts)
    (h : ∀ p ∈ s.parts, ∃ o, partAgain s.ticksPerQuarter p = some o) : ∃ s', SavedAndLoaded s s' := by
  have hne : s.parts ≠ [] := by obtain ⟨p, hp, _⟩ := hh; exact List.ne_nil_of_mem hp
  obtain ⟨o, ho⟩ := mapM_some (f := partAgain s.ticksPerQuarter) (l := s.parts.map (found s.parts)) (by
    intro p hp
    obtain ⟨q, hq, rfl⟩ := List.mem_map.mp hp
    exact h _ (found_spec hq).1)
  have hl : o.length = s.parts.length := by have := (mapM_pairs ho).1; simpa using this.symm
  refine ⟨⟨s.ticksPerQuarter, (s.parts.zip o).map (fun x => { uniqueId := xsID x.1.uniqueId, measures := x.2.map (fun m => (⟨false, false, 0⟩, m)) })⟩, ?_, ?_⟩
  · rw [rereadScore_eq _ _ ht hm hh, ho]
    simp only [Option.map_some, Option.some.injEq, Prod.mk.injEq, true_and, List.map_map]
    apply List.ext_getElem (by simp [hl])
    intro i h1 h2
    simp [Function.comp_def]
  · rw [writeScore_ids _ hne]
    simp only [List.map_map]
    apply List.ext_getElem (by simp [hl])
    intro i h1 h2
    simp

/-- Everything that has been loaded can be saved and loaded. -/
theorem savedAndLoaded_goesOn {s : Score P} (hg : LoadedScore s) : ∃ s', SavedAndLoaded s s' :=
  savedAndLoaded_of_parts hg.scale.1 hg.scale.2 hg.hasMeasure (fun p hp => by
    obtain ⟨N, hN⟩ := hg.parts p hp
    obtain ⟨o, ho, _⟩ := partAgain_steps hg.scale.1 hN
    exact ⟨o, ho⟩)

end Mx.Measure
