import Verif.Spec.DocumentData
import Verif.Proofs.PartStaves
import Verif.Props.StaffProps
import Verif.Props.DirectionProps
import Verif.Props.StringProps

/-
Lemmas for C88.
-/
namespace Mx.DocumentData
open _root_.Spec Mx.Spec Mx.Measure Mx.Directions Mx.Props

/-! ### part groups -/

theorem number_iff {g : PartGroupXml} : (∃ n, parsePartGroupNumber g = .ok n) ↔ Numbered g := by
  unfold parsePartGroupNumber Numbered
  cases hg : g.number with
  | none => simp
  | some s =>
    have h := (C36_canonical_partial s (-1)).1
    constructor
    · rintro ⟨n, hn⟩ s' hs'
      cases hs'
      simp only at hn
      cases hi : stringToInt s (-1) with
      | none => rw [hi] at hn; cases hn
      | some r =>
        obtain ⟨b, v⟩ := r
        cases b with
        | false => rw [hi] at hn; cases hn
        | true => exact ⟨v, (h v).mp hi⟩
    · intro hs
      obtain ⟨v, hv⟩ := hs s rfl
      refine ⟨v, ?_⟩
      simp only
      rw [(h v).mpr hv]

theorem popGroup_length {n : Int} {l l' : List PartGroupData} {g : PartGroupData} (h : popGroup n l = some (g, l')) : l'.length = l.length - 1 := by
  unfold popGroup at h
  cases hf : l.find? (fun g => decide (g.number = n)) with
  | some x =>
    rw [hf] at h
    simp only [Option.some.injEq, Prod.mk.injEq] at h
    rw [← h.2]
    have hm := List.mem_of_find?_eq_some hf
    have hp := List.find?_some hf
    rw [List.length_eraseP, if_pos]
    rw [List.any_eq_true]
    exact ⟨x, hm, hp⟩
  | none =>
    rw [hf] at h
    cases l with
    | nil => cases h
    | cons a l =>
      simp only [Option.some.injEq, Prod.mk.injEq] at h
      rw [← h.2]
      simp

theorem stopGroup_length {n : Int} {r : PartListReader} : (stopGroup n r).stack.length = r.stack.length - 1 := by
  unfold stopGroup
  cases h : popGroup n r.stack with
  | none =>
    have : r.stack = [] := by
      unfold popGroup at h
      cases hf : r.stack.find? (fun g => decide (g.number = n)) with
      | some x => rw [hf] at h; cases h
      | none => rw [hf] at h; cases hs : r.stack with
        | nil => rfl
        | cons a l => rw [hs] at h; cases h
    simp [this]
  | some x =>
    obtain ⟨g, l⟩ := x
    exact popGroup_length h

theorem stopGroup_parts {n : Int} {r : PartListReader} : (stopGroup n r).parts = r.parts := by
  unfold stopGroup
  cases popGroup n r.stack with
  | none => rfl
  | some x => rfl

/-- the condition, from a state with `n` open groups -/
def NumberedFrom (n : Nat) (l : List (Convert.Entry PartGroupXml)) : Prop :=
  ∀ before g after, l = before ++ .partGroup g :: after → (g.isStart = true ∨ 0 < openGroups n before) → Numbered g

theorem from_part {n : Nat} {id : Str} {l : List (Convert.Entry PartGroupXml)} : NumberedFrom n (.scorePart id :: l) ↔ NumberedFrom n l := by
  constructor
  · intro h before g after hl hg
    exact h (.scorePart id :: before) g after (by rw [hl]; rfl) hg
  · intro h before g after hl hg
    cases before with
    | nil => cases hl
    | cons b before =>
      simp only [List.cons_append, List.cons.injEq] at hl
      obtain ⟨rfl, hl⟩ := hl
      exact h before g after hl hg

theorem from_group {n : Nat} {x : PartGroupXml} {l : List (Convert.Entry PartGroupXml)} :
    NumberedFrom n (.partGroup x :: l) ↔ ((x.isStart = true ∨ 0 < n) → Numbered x) ∧ NumberedFrom (if x.isStart then n + 1 else n - 1) l := by
  constructor
  · intro h
    refine ⟨fun hx => h [] x l rfl hx, ?_⟩
    intro before g after hl hg
    exact h (.partGroup x :: before) g after (by rw [hl]; rfl) hg
  · rintro ⟨h1, h2⟩ before g after hl hg
    cases before with
    | nil =>
      simp only [List.nil_append, List.cons.injEq, Convert.Entry.partGroup.injEq] at hl
      rw [← hl.1] at hg ⊢
      exact h1 hg
    | cons b before =>
      simp only [List.cons_append, List.cons.injEq] at hl
      obtain ⟨rfl, hl⟩ := hl
      exact h2 before g after hl hg

theorem handleGroup_iff {g : PartGroupXml} {r : PartListReader} : (∃ r', handlePartGroup g r = .ok r') ↔ ((g.isStart = true ∨ 0 < r.stack.length) → Numbered g) := by
  unfold handlePartGroup
  by_cases hs : g.isStart = true
  · rw [if_pos hs]
    simp only [hs, true_or, true_implies]
    rw [← number_iff]
    cases parsePartGroupNumber g with
    | error f => simp [Except.map]
    | ok n => simp [Except.map]
  · rw [if_neg hs]
    by_cases he : r.stack = []
    · rw [if_pos he]
      simp [hs, he]
    · rw [if_neg he]
      have hp : 0 < r.stack.length := List.length_pos_iff.mpr he
      simp only [hp, or_true, true_implies]
      rw [← number_iff]
      cases parsePartGroupNumber g with
      | error f => simp [Except.map]
      | ok n => simp [Except.map]

theorem handleGroup_stack {g : PartGroupXml} {r r' : PartListReader} (h : handlePartGroup g r = .ok r') :
    r'.stack.length = (if g.isStart then r.stack.length + 1 else r.stack.length - 1) ∧ r'.parts = r.parts := by
  unfold handlePartGroup at h
  by_cases hs : g.isStart = true
  · rw [if_pos hs] at h
    rw [if_pos hs]
    cases hn : parsePartGroupNumber g with
    | error f => rw [hn] at h; cases h
    | ok n =>
      rw [hn] at h
      cases h
      exact ⟨rfl, rfl⟩
  · rw [if_neg hs] at h
    rw [if_neg hs]
    by_cases he : r.stack = []
    · rw [if_pos he] at h
      cases h
      simp [he]
    · rw [if_neg he] at h
      cases hn : parsePartGroupNumber g with
      | error f => rw [hn] at h; cases h
      | ok n =>
        rw [hn] at h
        cases h
        exact ⟨stopGroup_length, stopGroup_parts⟩

theorem entries_iff {ids : List Str} : ∀ {l : List (Convert.Entry PartGroupXml)} {r : PartListReader},
    (∃ r', l.foldlM (handleEntry ids) r = .ok r') ↔ NumberedFrom r.stack.length l := by
  intro l
  induction l with
  | nil =>
    intro r
    refine ⟨fun _ => ?_, fun _ => ⟨r, rfl⟩⟩
    intro before g after hl
    simp at hl
  | cons e l ih =>
    intro r
    rw [List.foldlM_cons]
    cases e with
    | scorePart id =>
      rw [from_part]
      exact ih (r := handleScorePart ids id r)
    | partGroup g =>
      rw [from_group, ← handleGroup_iff]
      show (∃ r', (handlePartGroup g r >>= _) = .ok r') ↔ _
      cases h : handlePartGroup g r with
      | error f =>
        constructor
        · rintro ⟨r', hr⟩; cases hr
        · rintro ⟨⟨r', hr⟩, _⟩; cases hr
      | ok r1 =>
        rw [← (handleGroup_stack h).1, ← ih]
        exact ⟨fun hx => ⟨⟨r1, rfl⟩, hx⟩, fun hx => hx.2⟩

theorem entries_parts {ids : List Str} : ∀ {l : List (Convert.Entry PartGroupXml)} {r r' : PartListReader}, l.foldlM (handleEntry ids) r = .ok r' →
    ∀ id, id ∈ r'.parts ↔ id ∈ r.parts ∨ (.scorePart id ∈ l ∧ id ∈ ids) := by
  intro l
  induction l with
  | nil => intro r r' h id; cases h; simp
  | cons e l ih =>
    intro r r' h id
    rw [List.foldlM_cons] at h
    obtain ⟨r1, h1, h2⟩ := bind_ok h
    rw [ih h2 id]
    cases e with
    | scorePart i =>
      cases h1
      simp only [handleScorePart, List.mem_cons, Convert.Entry.scorePart.injEq]
      by_cases hi : i ∈ ids
      · rw [if_pos hi]
        simp only [List.mem_append, List.mem_singleton]
        constructor
        · rintro ((h | rfl) | h)
          · exact Or.inl h
          · exact Or.inr ⟨Or.inl rfl, hi⟩
          · exact Or.inr ⟨Or.inr h.1, h.2⟩
        · rintro (h | ⟨rfl | h, h'⟩)
          · exact Or.inl (Or.inl h)
          · exact Or.inl (Or.inr rfl)
          · exact Or.inr ⟨h, h'⟩
      · rw [if_neg hi]
        constructor
        · rintro (h | h)
          · exact Or.inl h
          · exact Or.inr ⟨Or.inr h.1, h.2⟩
        · rintro (h | ⟨rfl | h, h'⟩)
          · exact Or.inl h
          · exact absurd h' hi
          · exact Or.inr ⟨h, h'⟩
    | partGroup g =>
      rw [(handleGroup_stack h1).2]
      simp

theorem reconcile_iff {τ : GroupSort} {ids : List Str} {pl : PartList} : (∃ r, Mx.reconcileParts τ ids pl = .ok r) ↔ GroupsNumbered pl.children := by
  have h := entries_iff (ids := ids) (l := pl.children) (r := {})
  show _ ↔ NumberedFrom 0 pl.children
  rw [show (0 : Nat) = ({} : PartListReader).stack.length from rfl, ← h]
  unfold Mx.reconcileParts
  cases hf : pl.children.foldlM (handleEntry ids) {} with
  | error f => simp [Except.map]
  | ok r => simp [Except.map]

theorem reconcile_ids {τ : GroupSort} {ids : List Str} {pl : PartList} {g : List PartGroupData} {out : List Str} (h : Mx.reconcileParts τ ids pl = .ok (g, out)) (id : Str) :
    id ∈ out ↔ .scorePart id ∈ pl.children ∧ id ∈ ids := by
  unfold Mx.reconcileParts at h
  cases hf : pl.children.foldlM (handleEntry ids) {} with
  | error f => rw [hf] at h; cases h
  | ok r =>
    rw [hf] at h
    cases h
    rw [entries_parts hf id]
    simp

theorem find_iff {X : Type} {parts : List (Str × X)} {id : Str} {ms : X} :
    (parts.find? (fun p => decide (p.1 = id))).map (·.2) = some ms ↔ ∃ before after, parts = before ++ (id, ms) :: after ∧ ∀ p ∈ before, p.1 ≠ id := by
  induction parts with
  | nil => simp
  | cons p parts ih =>
    rw [List.find?_cons]
    by_cases hp : p.1 = id
    · simp only [hp, decide_true, Option.map_some, Option.some.injEq]
      constructor
      · rintro rfl
        exact ⟨[], parts, by rw [← hp]; rfl, by simp⟩
      · rintro ⟨before, after, h1, h2⟩
        cases before with
        | nil =>
          simp only [List.nil_append, List.cons.injEq] at h1
          rw [h1.1]
        | cons b before =>
          simp only [List.cons_append, List.cons.injEq] at h1
          exact absurd hp (h2 p (by rw [h1.1]; simp))
    · simp only [hp, decide_false]
      rw [ih]
      constructor
      · rintro ⟨before, after, h1, h2⟩
        refine ⟨p :: before, after, by rw [h1]; rfl, ?_⟩
        intro q hq
        rcases List.mem_cons.mp hq with rfl | hq
        · exact hp
        · exact h2 q hq
      · rintro ⟨before, after, h1, h2⟩
        cases before with
        | nil =>
          simp only [List.nil_append, List.cons.injEq] at h1
          exact absurd (by rw [h1.1]) hp
        | cons b before =>
          simp only [List.cons_append, List.cons.injEq] at h1
          exact ⟨before, after, h1.2, fun q hq => h2 q (by simp [hq])⟩

theorem listed_iff {τ : GroupSort} {pl : PartList} {parts : Parts} {g : List PartGroupData} {ids : List Str} (h : Mx.reconcileParts τ (parts.map (·.1)) pl = .ok (g, ids))
    (ms : List (List (Child Content))) : ms ∈ Mx.Measure.reconcileParts ids parts ↔ Listed pl parts ms := by
  unfold Mx.Measure.reconcileParts Listed
  rw [List.mem_filterMap]
  constructor
  · rintro ⟨id, h1, h2⟩
    exact ⟨id, ((reconcile_ids h id).mp h1).1, find_iff.mp h2⟩
  · rintro ⟨id, h1, h2⟩
    refine ⟨id, (reconcile_ids h id).mpr ⟨h1, ?_⟩, find_iff.mpr h2⟩
    obtain ⟨before, after, e, _⟩ := h2
    rw [e]
    simp

/-! ### measures -/

variable {P : Type}

theorem convertDuration_same {t G d : Int} (h : t = G ∨ t ≠ 0) : ∃ x, convertDuration t G d = some x := by
  rcases h with rfl | h
  · unfold convertDuration
    rw [if_pos rfl]
    exact ⟨_, rfl⟩
  · exact convertDuration_isSome h

theorem parseElem_reads {env : REnv} {nc : Bool} {c : Child P} {st : RSt P} (h1 : 1 ≤ env.numStaves) (hc : ChildOk env.numStaves c)
    (hr : ChildReads env.numStaves c) (ht : st.ticksPerQuarter = env.globalTicksPerQuarter ∨ st.ticksPerQuarter ≠ 0) :
    ∃ st', parseElem env nc c.elem st = some st' ∧ (st'.ticksPerQuarter = env.globalTicksPerQuarter ∨ st'.ticksPerQuarter ≠ 0) := by
  rcases c with ⟨e, f⟩
  cases e with
  | note n =>
    have hs := noteStaffIndex_eq (n := n) (fun k hk => (hc.note n rfl k hk).1)
    have hlt : ¬ env.numStaves ≤ noteStaffIndex n := by
      rw [hs]; unfold staffIndexOf
      cases hn : n.staff with
      | none => simp; omega
      | some k => have := hc.note n rfl k hn; simp; omega
    obtain ⟨x, hx⟩ := convertDuration_same (d := if n.kind = .grace then 0 else n.dur) ht
    simp only [parseElem, parseNote, Option.bind_eq_bind]
    rw [hx]
    simp only [Option.bind_some]
    rw [if_neg hlt]
    exact ⟨_, rfl, ht⟩
  | backup d =>
    obtain ⟨x, hx⟩ := convertDuration_same (d := d) ht
    simp only [parseElem, parseBackup, Option.bind_eq_bind]
    rw [hx]
    exact ⟨_, rfl, ht⟩
  | forward d =>
    obtain ⟨x, hx⟩ := convertDuration_same (d := d) ht
    simp only [parseElem, parseForward, Option.bind_eq_bind]
    rw [hx]
    exact ⟨_, rfl, ht⟩
  | direction s o x =>
    simp only [parseElem, parseDirection]
    rw [if_neg (by omega)]
    exact ⟨_, rfl, ht⟩
  | attributes a =>
    have hcl : a.clefs.any (fun c => decide (env.numStaves ≤ clefStaff c)) = false := by
      rw [List.any_eq_false]
      intro x hx
      have h2 := (hr a rfl).1 x hx
      simp only [decide_eq_true_eq, not_le, clefStaff_eq, staffIndexOf]
      cases hn : x.number with
      | none => simp; omega
      | some k => have := h2 k hn; simp; omega
    simp only [parseElem, parseProperties, hcl, Bool.false_eq_true, if_false]
    refine ⟨_, rfl, ?_⟩
    simp only
    cases hd : a.divisions with
    | none => exact ht
    | some d => exact Or.inr ((hr a rfl).2 d hd)
  | barline l x => exact ⟨_, rfl, ht⟩
  | other => exact ⟨_, rfl, ht⟩

theorem readElems_reads {env : REnv} {d : Bool} (h1 : 1 ≤ env.numStaves) : ∀ {m : List (Child P)} {st : RSt P},
    (∀ c ∈ m, ChildOk env.numStaves c ∧ ChildReads env.numStaves c) → (st.ticksPerQuarter = env.globalTicksPerQuarter ∨ st.ticksPerQuarter ≠ 0) →
    ∃ st', readElems env d (m.map (·.elem)) st = some st' ∧ (st'.ticksPerQuarter = env.globalTicksPerQuarter ∨ st'.ticksPerQuarter ≠ 0) := by
  intro m
  induction m with
  | nil => intro st _ h; exact ⟨st, rfl, h⟩
  | cons c m ih =>
    intro st hc ht
    obtain ⟨s1, e1, e2⟩ := parseElem_reads (nc := nextNoteIsChord d (m.map (·.elem))) h1 (hc c (by simp)).1 (hc c (by simp)).2 ht
    obtain ⟨s2, e3, e4⟩ := ih (st := s1) (fun x hx => hc x (by simp [hx])) e2
    refine ⟨s2, ?_, e4⟩
    simp only [List.map_cons, readElems, Option.bind_eq_bind, e1, Option.bind_some]
    exact e3

theorem readMeasures_reads {env : REnv} (h1 : 1 ≤ env.numStaves) : ∀ {ms : List (List (Child P))} {tpq : Int},
    (∀ m ∈ ms, ∀ c ∈ m, ChildOk env.numStaves c ∧ ChildReads env.numStaves c) → (tpq = env.globalTicksPerQuarter ∨ tpq ≠ 0) →
    ∃ r, readMeasures env tpq (partElems ms) = some r := by
  intro ms
  induction ms with
  | nil => intro tpq _ h; exact ⟨_, rfl⟩
  | cons m ms ih =>
    intro tpq hm ht
    obtain ⟨s1, e1, e2⟩ := readElems_reads (d := false) (st := initRSt tpq) h1 (hm m (by simp)) ht
    obtain ⟨r, e3⟩ := ih (fun x hx => hm x (by simp [hx])) e2
    refine ⟨(s1 :: r.1, r.2), ?_⟩
    show readMeasures env tpq (m.map (·.elem) :: partElems ms) = _
    simp only [readMeasures, Option.bind_eq_bind]
    rw [e1]
    simp only [Option.bind_some]
    rw [e3]
    rfl

theorem readElems_clefs {env : REnv} {d : Bool} : ∀ {m : List (Child P)} {st st' : RSt P}, readElems env d (m.map (·.elem)) st = some st' →
    ∀ c ∈ m, ∀ a, c.elem = .attributes a → ∀ cl ∈ a.clefs, ∀ k, cl.number = some k → k ≤ env.numStaves := by
  intro m
  induction m with
  | nil => intro st st' _ c hc; cases hc
  | cons x m ih =>
    intro st st' h c hc a ha cl hcl k hk
    simp only [List.map_cons, readElems, Option.bind_eq_bind] at h
    obtain ⟨s1, h1, h2⟩ := Option.bind_eq_some_iff.mp h
    rcases List.mem_cons.mp hc with rfl | hc
    · rw [ha] at h1
      simp only [parseElem, parseProperties] at h1
      by_cases hany : a.clefs.any (fun c => decide (env.numStaves ≤ clefStaff c)) = true
      · rw [if_pos hany] at h1; cases h1
      · rw [List.any_eq_true] at hany
        by_contra hgt
        apply hany
        refine ⟨cl, hcl, ?_⟩
        simp only [decide_eq_true_eq, clefStaff, hk]
        omega
    · exact ih h2 c hc a ha cl hcl k hk

theorem readMeasures_clefs {env : REnv} : ∀ {ms : List (List (Child P))} {tpq : Int} {r : List (RSt P) × Int}, readMeasures env tpq (partElems ms) = some r →
    ClefsOnStaves env.numStaves ms := by
  intro ms
  induction ms with
  | nil => intro tpq r _ m hm; cases hm
  | cons m ms ih =>
    intro tpq r h
    change readMeasures env tpq (m.map (·.elem) :: partElems ms) = _ at h
    simp only [readMeasures, Option.bind_eq_bind] at h
    obtain ⟨s1, h1, h2⟩ := Option.bind_eq_some_iff.mp h
    obtain ⟨r2, h3, _⟩ := Option.bind_eq_some_iff.mp h2
    intro m' hm'
    rcases List.mem_cons.mp hm' with rfl | hm'
    · exact readElems_clefs h1
    · exact ih h3 m' hm'

theorem getPartData_iff {G t : Int} {ms : List (List (Child P))} (hp : NumbersPositive ms)
    (hd : ∀ m ∈ ms, ∀ c ∈ m, ∀ a, c.elem = .attributes a → ∀ d, a.divisions = some d → roundMicro d ≠ 0) :
    (∃ r, getPartData G t ms = some r) ↔ ClefsOnStaves (calculateNumStaves ms) ms := by
  have hs := calculateNumStaves_spec ms
  have hok := childOk_of hs hp
  unfold getPartData readPart
  show (∃ r, Option.map _ (readMeasures (partEnv G ms) (if t > 0 then t else G) (partElems ms)) = some r) ↔ _
  constructor
  · rintro ⟨r, hr⟩
    obtain ⟨r', h1, _⟩ := Option.map_eq_some_iff.mp hr
    exact readMeasures_clefs h1
  · intro hc
    obtain ⟨r, hr⟩ := readMeasures_reads (env := partEnv G ms) (tpq := if t > 0 then t else G) hs.one
      (fun m hm c hcm => ⟨hok m hm c hcm, fun a ha => ⟨hc m hm c hcm a ha, hd m hm c hcm a ha⟩⟩)
      (by show (if t > 0 then t else G) = G ∨ _
          split
          · exact Or.inr (by omega)
          · exact Or.inl rfl)
    rw [hr]
    exact ⟨_, rfl⟩

theorem getParts_iff {G : Int} : ∀ {l : List (List (List (Child P)))} {t : Int}, (∀ ms ∈ l, NumbersPositive ms ∧
      ∀ m ∈ ms, ∀ c ∈ m, ∀ a, c.elem = .attributes a → ∀ d, a.divisions = some d → roundMicro d ≠ 0) →
    ((∃ r, getParts G t l = some r) ↔ ∀ ms ∈ l, ClefsOnStaves (calculateNumStaves ms) ms) := by
  intro l
  induction l with
  | nil => intro t _; simp [getParts]
  | cons p l ih =>
    intro t h
    have hp := getPartData_iff (G := G) (t := t) (h p (by simp)).1 (h p (by simp)).2
    rw [List.forall_mem_cons, ← hp]
    simp only [getParts, Option.bind_eq_bind]
    cases hg : getPartData G t p with
    | none => simp
    | some r =>
      have := ih (t := r.2) (fun ms hms => h ms (by simp [hms]))
      rw [← this]
      simp only [Option.bind_some]
      cases getParts G r.2 l with
      | none => simp
      | some x => simp

/-! ### directions -/

theorem parse_throws {e : Env} {d : DirectionData} {y : DirectionTypeXml} (h : parseDirectionType e d y = .error .throws) : y = .metronome .noteRelation := by
  cases y with
  | metronome m =>
    cases m with
    | noteRelation => rfl
    | beatUnits => cases h
    | perMinute u n t =>
      simp only [parseDirectionType] at h
      rcases bind_throws h with h | ⟨_, _, h⟩
      · simp only [readTempo] at h
        rcases bind_throws h with h | ⟨_, _, h⟩
        · exact absurd h orUndefined_throws
        · cases h
      · cases h
  | wedge w =>
    simp only [parseDirectionType] at h
    split at h
    · rcases bind_throws h with h | ⟨_, _, h⟩
      · exact absurd h orUndefined_throws
      · cases h
    · rcases bind_throws h with h | ⟨_, _, h⟩
      · exact absurd h orUndefined_throws
      · cases h
  | bracket b =>
    simp only [parseDirectionType] at h
    split at h
    · rcases bind_throws h with h | ⟨_, _, h⟩
      · exact absurd h orUndefined_throws
      · cases h
    · split at h
      · rcases bind_throws h with h | ⟨_, _, h⟩
        · exact absurd h orUndefined_throws
        · cases h
      · cases h
  | pedal p =>
    simp only [parseDirectionType] at h
    split at h
    · rcases bind_throws h with h | ⟨_, _, h⟩
      · exact absurd h orUndefined_throws
      · cases h
    · cases h
  | octaveShift s =>
    simp only [parseDirectionType] at h
    split at h
    · cases h
    · split at h
      · rcases bind_throws h with h | ⟨_, _, h⟩
        · exact absurd h orUndefined_throws
        · cases h
      · rcases bind_throws h with h | ⟨_, _, h⟩
        · exact absurd h orUndefined_throws
        · cases h
  | other => cases h
  | _ =>
    simp only [parseDirectionType] at h
    rcases bind_throws h with h | ⟨_, _, h⟩
    · exact absurd h orUndefined_throws
    · cases h

theorem fold_throws {e : Env} : ∀ {l : List DirectionTypeXml} {d : DirectionData}, l.foldlM (parseDirectionType e) d = .error .throws → .metronome .noteRelation ∈ l := by
  intro l
  induction l with
  | nil => intro d h; cases h
  | cons y l ih =>
    intro d h
    rw [List.foldlM_cons] at h
    rcases bind_throws h with h | ⟨_, _, h⟩
    · rw [parse_throws h]; simp
    · exact List.mem_cons_of_mem _ (ih h)

theorem fold_ok {e : Env} : ∀ {l : List DirectionTypeXml} {d d' : DirectionData}, l.foldlM (parseDirectionType e) d = .ok d' → .metronome .noteRelation ∉ l := by
  intro l
  induction l with
  | nil => intro d d' _ h; cases h
  | cons y l ih =>
    intro d d' h hm
    rw [List.foldlM_cons] at h
    obtain ⟨d1, h1, h2⟩ := bind_ok h
    rcases List.mem_cons.mp hm with rfl | hm
    · cases h1
    · exact ih h2 hm

theorem direction_iff {t : Int} {x : DirectionXml} (h : getDirectionData t (.direction x) ≠ .error .undefined) :
    (∃ d, getDirectionData t (.direction x) = .ok d) ↔ .metronome .noteRelation ∉ x.types := by
  constructor
  · rintro ⟨d, hd⟩
    obtain ⟨tick, _, h2⟩ := bind_ok hd
    exact fold_ok h2
  · intro hn
    cases hg : getDirectionData t (.direction x) with
    | ok d => exact ⟨d, rfl⟩
    | error f =>
      cases f with
      | undefined => exact absurd hg h
      | throws =>
        rcases bind_throws hg with h1 | ⟨_, _, h1⟩
        · exact absurd h1 orUndefined_throws
        · exact absurd (fold_throws h1) hn

theorem instructions_ok : ∀ {l : List Str}, (∀ s ∈ l, ∃ i, readInstruction s = .ok i) → l.mapM readInstruction ≠ .error .throws := by
  intro l
  induction l with
  | nil => intro _ h; cases h
  | cons s l ih =>
    intro hs h
    obtain ⟨i, hi⟩ := hs s (by simp)
    rw [List.mapM_cons, hi] at h
    change (l.mapM readInstruction >>= _) = _ at h
    rcases bind_throws h with h | ⟨_, _, h⟩
    · exact ih (fun x hx => hs x (by simp [hx])) h
    · cases h

theorem harmony_ok {t : Int} {x : HarmonyXml} (h : getDirectionData t (.harmony x) ≠ .error .undefined) (hi : ∀ s ∈ x.instructions, ∃ i, readInstruction s = .ok i) :
    ∃ d, getDirectionData t (.harmony x) = .ok d := by
  cases hg : getDirectionData t (.harmony x) with
  | ok d => exact ⟨d, rfl⟩
  | error f =>
    cases f with
    | undefined => exact absurd hg h
    | throws =>
      rcases bind_throws hg with h1 | ⟨_, _, h1⟩
      · exact absurd h1 orUndefined_throws
      rcases bind_throws h1 with h1 | ⟨_, _, h1⟩
      · exact absurd h1 (instructions_ok hi)
      rcases bind_throws h1 with h1 | ⟨_, _, h1⟩
      · exact absurd h1 orUndefined_throws
      cases h1

theorem isOk_iff {α : Type} {x : Res α} : x.isOk = true ↔ ∃ a, x = .ok a := by
  cases x with
  | ok a => simp [Except.isOk, Except.toBool]
  | error f => simp [Except.isOk, Except.toBool]

theorem directions_iff {ms : List (List (Child Content))} (h : PartDefined ms) : directionsRead ms = true ↔ NoNoteRelations ms := by
  unfold directionsRead NoNoteRelations
  rw [List.all_eq_true]
  constructor
  · intro hr m hm c hc s o d hcd
    have hx : directionOf c = some (.direction d) := by unfold directionOf; rw [hcd]
    have := hr (.direction d) (List.mem_filterMap.mpr ⟨c, List.mem_flatten.mpr ⟨m, hm, hc⟩, hx⟩)
    exact (direction_iff (h.directions m hm c hc _ hx)).mp (isOk_iff.mp this)
  · intro hn x hx
    obtain ⟨c, hc, hx⟩ := List.mem_filterMap.mp hx
    obtain ⟨m, hm, hc⟩ := List.mem_flatten.mp hc
    rw [isOk_iff]
    cases x with
    | direction d =>
      refine (direction_iff (h.directions m hm c hc _ hx)).mpr ?_
      cases he : c.elem with
      | direction s o y =>
        have hy : y = some (.direction d) := by unfold directionOf at hx; rw [he] at hx; exact hx
        exact hn m hm c hc s o d (by rw [he, hy])
      | _ => unfold directionOf at hx; rw [he] at hx; cases hx
    | harmony y => exact harmony_ok (h.directions m hm c hc _ hx) (h.instructions m hm c hc y hx)

/-! ### documents -/

theorem getData_iff {τ : GroupSort} {pl : PartList} {parts : Parts} {G : Int} (hG : findMaxDivisionsPerQuarter (parts.map (fun p => partElems p.2)) = .ok G)
    (hd : ∀ ms, Listed pl parts ms → PartDefined ms) :
    (∃ r, getData τ pl parts = some r) ↔ GroupsNumbered pl.children ∧ ∀ ms, Listed pl parts ms → ClefsOnStaves (calculateNumStaves ms) ms ∧ NoNoteRelations ms := by
  rw [← reconcile_iff (τ := τ) (ids := parts.map (·.1))]
  unfold getData
  cases hr : Mx.reconcileParts τ (parts.map (·.1)) pl with
  | error f => simp
  | ok r =>
    obtain ⟨groups, ids⟩ := r
    have hl := listed_iff hr
    have hp := getParts_iff (G := G) (t := -1) (l := Mx.Measure.reconcileParts ids parts)
      (fun ms hms => ⟨(hd ms ((hl ms).mp hms)).numbers, (hd ms ((hl ms).mp hms)).divisions⟩)
    have hdir : (Mx.Measure.reconcileParts ids parts).all directionsRead = true ↔ ∀ ms, Listed pl parts ms → NoNoteRelations ms := by
      rw [List.all_eq_true]
      constructor
      · intro h ms hms
        exact (directions_iff (hd ms hms)).mp (h ms ((hl ms).mpr hms))
      · intro h ms hms
        exact (directions_iff (hd ms ((hl ms).mp hms))).mpr (h ms ((hl ms).mp hms))
    have hcl : (∃ r, getParts G (-1) (Mx.Measure.reconcileParts ids parts) = some r) ↔ ∀ ms, Listed pl parts ms → ClefsOnStaves (calculateNumStaves ms) ms := by
      rw [hp]
      exact ⟨fun h ms hms => h ms ((hl ms).mpr hms), fun h ms hms => h ms ((hl ms).mp hms)⟩
    have e : (∃ r, (Except.ok (groups, ids) : Res (List PartGroupData × List Str)) = .ok r) := ⟨_, rfl⟩
    simp only [getScore, hG]
    rw [show (∀ ms, Listed pl parts ms → ClefsOnStaves (calculateNumStaves ms) ms ∧ NoNoteRelations ms) ↔
      (∀ ms, Listed pl parts ms → ClefsOnStaves (calculateNumStaves ms) ms) ∧ ∀ ms, Listed pl parts ms → NoNoteRelations ms from
      ⟨fun h => ⟨fun ms hm => (h ms hm).1, fun ms hm => (h ms hm).2⟩, fun h ms hm => ⟨h.1 ms hm, h.2 ms hm⟩⟩, ← hcl, ← hdir]
    cases getParts G (-1) (Mx.Measure.reconcileParts ids parts) with
    | none => simp
    | some out =>
      simp only [Option.map_some, e, true_and]
      by_cases ha : (Mx.Measure.reconcileParts ids parts).all directionsRead = true
      · rw [if_pos ha]; simp [ha]
      · rw [if_neg ha]; simp [ha]

end Mx.DocumentData
