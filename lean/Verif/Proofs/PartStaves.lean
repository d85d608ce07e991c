import Verif.Spec.PartStaves
import Verif.Proofs.MeasureRoundTripVoices
import Verif.Proofs.ScoreTime

/-! Lemmas about the staves of a part. -/
namespace Mx.Measure
open Spec

variable {P : Type}

/-! ### counting -/

theorem Child.staff_iff (c : Child P) (n : Int) : c.staff = some n ↔ Mentions c n := by
  rcases c with ⟨e, f⟩
  cases e <;> simp [Child.staff, Mentions]

theorem updateNumStaves_eq (s : Option Int) (n : Int) : updateNumStaves s n = max n (s.getD n) := by
  unfold updateNumStaves
  cases s with
  | none => simp
  | some t => simp only [Option.getD_some]; split <;> omega

theorem foldl_staves (cs : List (Child P)) : ∀ n : Int,
    n ≤ cs.foldl (fun n c => updateNumStaves c.staff n) n ∧
    (∀ c ∈ cs, ∀ k, c.staff = some k → k ≤ cs.foldl (fun n c => updateNumStaves c.staff n) n) ∧
    (cs.foldl (fun n c => updateNumStaves c.staff n) n = n ∨ ∃ c ∈ cs, c.staff = some (cs.foldl (fun n c => updateNumStaves c.staff n) n)) := by
  induction cs with
  | nil => intro n; exact ⟨le_refl _, by simp, .inl rfl⟩
  | cons c cs ih =>
    intro n
    simp only [List.foldl_cons]
    obtain ⟨h1, h2, h3⟩ := ih (updateNumStaves c.staff n)
    have hle : n ≤ updateNumStaves c.staff n := by rw [updateNumStaves_eq]; omega
    refine ⟨le_trans hle h1, ?_, ?_⟩
    · intro x hx k hk
      rcases List.mem_cons.mp hx with rfl | hx
      · refine le_trans ?_ h1
        rw [updateNumStaves_eq, hk]; simp
      · exact h2 x hx k hk
    · rcases h3 with h3 | ⟨x, hx, h3⟩
      · rw [h3]
        cases hs : c.staff with
        | none => left; simp [updateNumStaves]
        | some t =>
          by_cases ht : t > n
          · right
            refine ⟨c, by simp, ?_⟩
            rw [hs]; simp [updateNumStaves, ht]
          · left; simp [updateNumStaves, ht]
      · exact .inr ⟨x, by simp [hx], h3⟩

theorem calculateNumStaves_spec (ms : List (List (Child P))) : IsStaffCount (calculateNumStaves ms) ms := by
  obtain ⟨h1, h2, h3⟩ := foldl_staves ms.flatten 1
  refine ⟨h1, ?_, ?_⟩
  · rintro k ⟨m, hm, c, hc, hk⟩
    exact h2 c (List.mem_flatten.mpr ⟨m, hm, hc⟩) k ((Child.staff_iff c k).mpr hk)
  · rcases h3 with h3 | ⟨c, hc, h3⟩
    · exact .inl h3
    · obtain ⟨m, hm, hc⟩ := List.mem_flatten.mp hc
      exact .inr ⟨m, hm, c, hc, (Child.staff_iff c _).mp h3⟩

theorem staffCount_unique {ms : List (List (Child P))} {a b : Int} (ha : IsStaffCount a ms) (hb : IsStaffCount b ms) : a = b := by
  have h1 : a ≤ b := by
    rcases ha.tight with h | h
    · rw [h]; exact hb.one
    · exact hb.enough _ h
  have h2 : b ≤ a := by
    rcases hb.tight with h | h
    · rw [h]; exact ha.one
    · exact ha.enough _ h
  omega

/-! ### reading a measure -/

/-- contents of the notes read for a staff -/
def notesOn (i : Int) (st : RSt P) : List P := (st.notes.filter (fun r => r.staff = i)).map (fun r => r.note.content)

/-- directions read for a staff -/
def dirsOn (i : Int) (st : RSt P) : List (Bool × P) :=
  (st.directions.filter (fun d => d.1 = i)).map (fun d => (d.2.isStaffValueSpecified, d.2.content))

/-- clefs read for a staff -/
def clefsOn (i : Int) (st : RSt P) : List P := (st.clefs.filter (fun c => c.1 = i)).map (fun c => c.2.content)

/-- the numbers of a child are fine for `N` staves -/
structure ChildOk (N : Int) (c : Child P) : Prop where
  note : ∀ n, c.elem = .note n → ∀ k, n.staff = some k → 1 ≤ k ∧ k ≤ N
  direction : ∀ k o x, c.elem = .direction (some k) o x → 1 ≤ k ∧ k ≤ N
  clefs : ∀ a, c.elem = .attributes a → ∀ cl ∈ a.clefs, ∀ k, cl.number = some k → 1 ≤ k
  keys : ∀ a, c.elem = .attributes a → ∀ ke ∈ a.keys, ∀ k, ke.number = some k → 1 ≤ k

theorem noteStaffIndex_eq {n : NoteElem P} (h : ∀ k, n.staff = some k → 1 ≤ k) : noteStaffIndex n = staffIndexOf n.staff := by
  unfold noteStaffIndex staffIndexOf
  cases hs : n.staff with
  | none => simp
  | some k =>
    have := h k hs
    simp only [Option.getD_some]
    rw [if_neg (by omega)]

theorem clefStaff_eq (c : ClefElem P) : clefStaff c = staffIndexOf c.number := by
  rcases c with ⟨n, x⟩
  cases n <;> rfl

/-- the staves of keys are fine -/
def KeysOk (N : Int) (st : RSt P) : Prop := ∀ k ∈ st.keys, -1 ≤ k.staffIndex ∧ k.staffIndex < N

theorem parseKey_staff {env : REnv} {tick : Int} {k : KeyElem P} (h1 : 1 ≤ env.numStaves) (h : ∀ n, k.number = some n → 1 ≤ n) :
    -1 ≤ (parseKey env tick k).staffIndex ∧ (parseKey env tick k).staffIndex < env.numStaves := by
  unfold parseKey
  split
  · simp only
    cases hn : k.number with
    | none => simp; omega
    | some n =>
      have := h n hn
      simp only
      split <;> omega
  · simp; omega

theorem parseElem_contents {env : REnv} {nc : Bool} {c : Child P} {st st' : RSt P} (h1 : 1 ≤ env.numStaves) (hc : ChildOk env.numStaves c)
    (h : parseElem env nc c.elem st = some st') (i : Int) :
    notesOn i st' = notesOn i st ++ noteContents i [c] ∧ dirsOn i st' = dirsOn i st ++ directionContents i [c] ∧
    clefsOn i st' = clefsOn i st ++ clefContents i [c] ∧ (KeysOk env.numStaves st → KeysOk env.numStaves st') := by
  rcases c with ⟨e, f⟩
  cases e with
  | note n =>
    simp only [parseElem, parseNote, Option.bind_eq_bind, Option.bind_eq_some_iff] at h
    obtain ⟨t, ht, h⟩ := h
    have hs := noteStaffIndex_eq (n := n) (fun k hk => (hc.note n rfl k hk).1)
    split at h
    · simp at h
    · simp only [Option.some.injEq] at h
      subst h
      refine ⟨?_, ?_, ?_, id⟩
      · simp only [notesOn, List.filter_append, List.map_append, noteContents, List.filterMap_cons, List.filterMap_nil]
        congr 1
        rw [hs]
        by_cases hi : staffIndexOf n.staff = i
        · simp [hi, parseNoteData]
        · simp [hi]
      · simp [dirsOn, directionContents]
      · simp [clefsOn, clefContents]
  | backup d =>
    simp only [parseElem, parseBackup, Option.bind_eq_bind, Option.bind_eq_some_iff] at h
    obtain ⟨t, ht, h⟩ := h
    simp only [Option.some.injEq] at h
    subst h
    exact ⟨by simp [notesOn, noteContents], by simp [dirsOn, directionContents], by simp [clefsOn, clefContents], id⟩
  | forward d =>
    simp only [parseElem, parseForward, Option.bind_eq_bind, Option.bind_eq_some_iff] at h
    obtain ⟨t, ht, h⟩ := h
    simp only [Option.some.injEq] at h
    subst h
    exact ⟨by simp [notesOn, noteContents], by simp [dirsOn, directionContents], by simp [clefsOn, clefContents], id⟩
  | direction s o x =>
    simp only [parseElem, parseDirection] at h
    rw [if_neg (by omega)] at h
    simp only [Option.some.injEq] at h
    subst h
    refine ⟨by simp [notesOn, noteContents], ?_, by simp [clefsOn, clefContents], id⟩
    simp only [dirsOn, List.filter_append, List.map_append, directionContents, List.filterMap_cons, List.filterMap_nil]
    congr 1
    cases s with
    | none =>
      by_cases hi : (0 : Int) = i
      · simp [staffIndexOf, hi]
      · simp [staffIndexOf, hi]
    | some k =>
      have hk := hc.direction k o x rfl
      have hlt : k - 1 < env.numStaves := by omega
      by_cases hi : k - 1 = i
      · subst hi; simp [staffIndexOf, hlt]
      · simp [staffIndexOf, hi, hlt]
  | attributes a =>
    simp only [parseElem, parseProperties] at h
    split at h
    · simp at h
    · simp only [Option.some.injEq] at h
      subst h
      refine ⟨by simp [notesOn, noteContents], by simp [dirsOn, directionContents], ?_, ?_⟩
      · simp only [clefsOn, List.filter_append, List.map_append, clefContents, List.flatMap_cons, List.flatMap_nil, List.append_nil]
        congr 1
        rw [List.filter_map, List.map_map]
        have : ∀ x : ClefElem P, ((fun c : Int × Timed P => decide (c.1 = i)) ∘ (fun c : ClefElem P => (clefStaff c, ({ tick := st.tick, content := c.content } : Timed P)))) x =
            decide (staffIndexOf x.number = i) := by
          intro x
          simp only [Function.comp, clefStaff_eq]
        rw [funext this]
        rfl
      · intro hk k hkm
        simp only [List.mem_append, List.mem_map] at hkm
        rcases hkm with hkm | ⟨x, hx, rfl⟩
        · exact hk k hkm
        · exact parseKey_staff h1 (hc.keys a rfl x hx)
  | barline l x =>
    simp only [parseElem, Option.some.injEq] at h
    subst h
    exact ⟨by simp [notesOn, noteContents, parseBarline], by simp [dirsOn, directionContents, parseBarline], by simp [clefsOn, clefContents, parseBarline], id⟩
  | other =>
    simp only [parseElem, Option.some.injEq] at h
    subst h
    exact ⟨by simp [notesOn, noteContents], by simp [dirsOn, directionContents], by simp [clefsOn, clefContents], id⟩

theorem noteContents_cons (i : Int) (c : Child P) (m : List (Child P)) : noteContents i (c :: m) = noteContents i [c] ++ noteContents i m :=
  List.filterMap_append (l := [c])

theorem directionContents_cons (i : Int) (c : Child P) (m : List (Child P)) :
    directionContents i (c :: m) = directionContents i [c] ++ directionContents i m := List.filterMap_append (l := [c])

theorem clefContents_cons (i : Int) (c : Child P) (m : List (Child P)) : clefContents i (c :: m) = clefContents i [c] ++ clefContents i m := by
  simp [clefContents]

theorem readElems_contents {env : REnv} {d : Bool} (h1 : 1 ≤ env.numStaves) : ∀ {m : List (Child P)} {st st' : RSt P},
    (∀ c ∈ m, ChildOk env.numStaves c) → readElems env d (m.map (·.elem)) st = some st' → ∀ i : Int,
    notesOn i st' = notesOn i st ++ noteContents i m ∧ dirsOn i st' = dirsOn i st ++ directionContents i m ∧
    clefsOn i st' = clefsOn i st ++ clefContents i m ∧ (KeysOk env.numStaves st → KeysOk env.numStaves st') := by
  intro m
  induction m with
  | nil =>
    intro st st' _ h i
    simp only [List.map_nil, readElems, Option.some.injEq] at h
    subst h
    exact ⟨by simp [noteContents], by simp [directionContents], by simp [clefContents], id⟩
  | cons c m ih =>
    intro st st' hc h i
    simp only [List.map_cons, readElems, Option.bind_eq_bind, Option.bind_eq_some_iff] at h
    obtain ⟨s1, e1, e2⟩ := h
    obtain ⟨a1, a2, a3, a4⟩ := parseElem_contents h1 (hc c (by simp)) e1 i
    obtain ⟨b1, b2, b3, b4⟩ := ih (fun x hx => hc x (by simp [hx])) e2 i
    refine ⟨?_, ?_, ?_, fun h => b4 (a4 h)⟩
    · rw [noteContents_cons, b1, a1, List.append_assoc]
    · rw [directionContents_cons, b2, a2, List.append_assoc]
    · rw [clefContents_cons, b3, a3, List.append_assoc]

/-! ### reading a part -/

theorem readMeasures_some {env : REnv} : ∀ {ms : List (List (Child P))} {tpq t : Int} {rs : List (RSt P)},
    readMeasures env tpq (partElems ms) = some (rs, t) →
    rs.length = ms.length ∧ ∀ (k : Nat) (m : List (Child P)) (r : RSt P), ms[k]? = some m → rs[k]? = some r →
      ∃ tpq', readElems env false (m.map (·.elem)) (initRSt tpq') = some r := by
  intro ms
  induction ms with
  | nil =>
    intro tpq t rs h
    simp only [partElems, List.map_nil, readMeasures, Option.some.injEq, Prod.mk.injEq] at h
    rw [← h.1]
    exact ⟨rfl, by simp⟩
  | cons m ms ih =>
    intro tpq t rs h
    simp only [partElems, List.map_cons, readMeasures, Option.bind_eq_bind, Option.bind_eq_some_iff] at h
    obtain ⟨r, hr, ⟨rs', t'⟩, hrs, h⟩ := h
    simp only [Option.some.injEq, Prod.mk.injEq] at h
    obtain ⟨h, _⟩ := h
    obtain ⟨i1, i2⟩ := ih hrs
    subst h
    refine ⟨by simp [i1], ?_⟩
    intro k x y hx hy
    cases k with
    | zero =>
      simp only [List.getElem?_cons_zero, Option.some.injEq] at hx hy
      subst hx hy
      exact ⟨tpq, hr⟩
    | succ k =>
      simp only [List.getElem?_cons_succ] at hx hy
      exact i2 k x y hx hy

theorem convertDuration_isSome {t G d : Int} (h : t ≠ 0) : ∃ x, convertDuration t G d = some x := by
  unfold convertDuration
  by_cases h1 : t = G
  · rw [if_pos h1]; exact ⟨_, rfl⟩
  · rw [if_neg h1, if_neg h]
    split <;> exact ⟨_, rfl⟩

/-- a child that can be read -/
def ChildReads (N : Int) (c : Child P) : Prop :=
  ∀ a, c.elem = .attributes a → (∀ cl ∈ a.clefs, ∀ k, cl.number = some k → k ≤ N) ∧ ∀ d, a.divisions = some d → roundMicro d ≠ 0

theorem parseElem_some {env : REnv} {nc : Bool} {c : Child P} {st : RSt P} (h1 : 1 ≤ env.numStaves) (hc : ChildOk env.numStaves c)
    (hr : ChildReads env.numStaves c) (ht : st.ticksPerQuarter ≠ 0) :
    ∃ st', parseElem env nc c.elem st = some st' ∧ st'.ticksPerQuarter ≠ 0 := by
  rcases c with ⟨e, f⟩
  cases e with
  | note n =>
    have hs := noteStaffIndex_eq (n := n) (fun k hk => (hc.note n rfl k hk).1)
    have hlt : ¬ env.numStaves ≤ noteStaffIndex n := by
      rw [hs]; unfold staffIndexOf
      cases hn : n.staff with
      | none => simp; omega
      | some k => have := hc.note n rfl k hn; simp; omega
    obtain ⟨x, hx⟩ := convertDuration_isSome (G := env.globalTicksPerQuarter) (d := if n.kind = .grace then 0 else n.dur) ht
    simp only [parseElem, parseNote, Option.bind_eq_bind]
    rw [hx]
    simp only [Option.bind_some]
    rw [if_neg hlt]
    exact ⟨_, rfl, ht⟩
  | backup d =>
    obtain ⟨x, hx⟩ := convertDuration_isSome (G := env.globalTicksPerQuarter) (d := d) ht
    simp only [parseElem, parseBackup, Option.bind_eq_bind]
    rw [hx]
    exact ⟨_, rfl, ht⟩
  | forward d =>
    obtain ⟨x, hx⟩ := convertDuration_isSome (G := env.globalTicksPerQuarter) (d := d) ht
    simp only [parseElem, parseForward, Option.bind_eq_bind]
    rw [hx]
    exact ⟨_, rfl, ht⟩
  | direction s o x =>
    simp only [parseElem, parseDirection]
    rw [if_neg (by omega)]
    exact ⟨_, rfl, ht⟩
  | attributes a =>
    have hcl : a.clefs.any (fun c => decide (env.numStaves ≤ clefStaff c)) = false := by
      rw [List.any_eq_false]
      intro x hx
      have h2 := (hr a rfl).1 x hx
      simp only [decide_eq_true_eq, not_le, clefStaff_eq, staffIndexOf]
      cases hn : x.number with
      | none => simp; omega
      | some k => have := h2 k hn; simp; omega
    simp only [parseElem, parseProperties, hcl, Bool.false_eq_true, if_false]
    refine ⟨_, rfl, ?_⟩
    simp only
    cases hd : a.divisions with
    | none => exact ht
    | some d => exact (hr a rfl).2 d hd
  | barline l x => exact ⟨_, rfl, ht⟩
  | other => exact ⟨_, rfl, ht⟩

theorem readElems_some {env : REnv} {d : Bool} (h1 : 1 ≤ env.numStaves) : ∀ {m : List (Child P)} {st : RSt P},
    (∀ c ∈ m, ChildOk env.numStaves c ∧ ChildReads env.numStaves c) → st.ticksPerQuarter ≠ 0 →
    ∃ st', readElems env d (m.map (·.elem)) st = some st' ∧ st'.ticksPerQuarter ≠ 0 := by
  intro m
  induction m with
  | nil => intro st _ h; exact ⟨st, rfl, h⟩
  | cons c m ih =>
    intro st hc ht
    obtain ⟨s1, e1, e2⟩ := parseElem_some (nc := nextNoteIsChord d (m.map (·.elem))) h1 (hc c (by simp)).1 (hc c (by simp)).2 ht
    obtain ⟨s2, e3, e4⟩ := ih (st := s1) (fun x hx => hc x (by simp [hx])) e2
    refine ⟨s2, ?_, e4⟩
    simp only [List.map_cons, readElems, Option.bind_eq_bind, e1, Option.bind_some]
    exact e3

theorem readMeasures_loads {env : REnv} (h1 : 1 ≤ env.numStaves) : ∀ {ms : List (List (Child P))} {tpq : Int},
    (∀ m ∈ ms, ∀ c ∈ m, ChildOk env.numStaves c ∧ ChildReads env.numStaves c) → tpq ≠ 0 →
    ∃ r, readMeasures env tpq (partElems ms) = some r ∧ r.2 ≠ 0 := by
  intro ms
  induction ms with
  | nil => intro tpq _ h; exact ⟨_, rfl, h⟩
  | cons m ms ih =>
    intro tpq hm ht
    obtain ⟨s1, e1, e2⟩ := readElems_some (d := false) (st := initRSt tpq) h1 (hm m (by simp)) ht
    obtain ⟨r, e3, e4⟩ := ih (fun x hx => hm x (by simp [hx])) e2
    refine ⟨(s1 :: r.1, r.2), ?_, e4⟩
    show readMeasures env tpq (m.map (·.elem) :: partElems ms) = _
    simp only [readMeasures, Option.bind_eq_bind]
    rw [e1]
    simp only [Option.bind_some]
    rw [e3]
    rfl

/-! ### what the writer can do -/

/-- A relation between buffer and output that every step of the writer keeps; staff numbers are those of `N` staves. -/
structure Closed (N : Int) (I : Attributes P → List (Elem P) → Prop) : Prop where
  key : ∀ i k b o, I b o → I (writeKey i k b) o
  clef : ∀ i c b o, i < N → I b o → I (writeClef i c b) o
  full : ∀ b o, b.hasContents = true → I b o → I {} (o ++ [.attributes b])
  empty : ∀ b o, b.hasContents = false → I b o → I {} o
  forward : ∀ d b o, I b o → I b (o ++ [.forward d])
  backup : ∀ d b o, I b o → I b (o ++ [.backup d])
  direction : ∀ s off c b o, (∀ n, s = some n → 1 ≤ n ∧ n ≤ N) → I b o → I b (o ++ [.direction s off c])
  note : ∀ e b o, (∀ n, e.staff = some n → 1 ≤ n ∧ n ≤ N) → I b o → I b (o ++ [.note e])

section writer
variable {N : Int} {I : Attributes P → List (Elem P) → Prop}

theorem closed_flush (h : Closed N I) {st : WSt P} (hi : I st.buf st.out) : I (flush st).buf (flush st).out := by
  unfold flush
  split
  · exact h.full _ _ (by assumption) hi
  · rename_i hh
    exact h.empty _ _ (by simpa using hh) hi

theorem closed_keys (h : Closed N I) {o : List (Elem P)} (f : KeyData P → Int) : ∀ (l : List (KeyData P)) (b : Attributes P), I b o →
    I (l.foldl (fun b x => writeKey (f x) x b) b) o := by
  intro l
  induction l with
  | nil => intro b hb; exact hb
  | cons x l ih => intro b hb; exact ih _ (h.key _ _ _ _ hb)

theorem closed_clefs (h : Closed N I) {o : List (Elem P)} (i : Int) (hN : i < N) : ∀ (l : List (Timed P)) (b : Attributes P), I b o →
    I (l.foldl (fun b x => writeClef i x b) b) o := by
  intro l
  induction l with
  | nil => intro b hb; exact hb
  | cons x l ih => intro b hb; exact ih _ (h.clef _ _ _ _ hN hb)

theorem closed_backup (h : Closed N I) {st : WSt P} {t : Int} (hi : I st.buf st.out) : I (backup t st).buf (backup t st).out := by
  have : ∀ s : Int, I (if s = 0 then st else { st with out := st.out ++ [.backup (durMicro s)], tick := st.tick + -1 * s }).buf
      (if s = 0 then st else { st with out := st.out ++ [.backup (durMicro s)], tick := st.tick + -1 * s }).out := by
    intro s
    by_cases hs : s = 0
    · rw [if_pos hs]; exact hi
    · rw [if_neg hs]; exact h.backup _ _ _ hi
  exact this _

theorem closed_forwardOrBackup (h : Closed N I) {st : WSt P} {n : NoteData P} (hi : I st.buf st.out) :
    I (writeForwardOrBackupIfNeeded n st).buf (writeForwardOrBackupIfNeeded n st).out := by
  have hf := closed_flush h hi
  unfold writeForwardOrBackupIfNeeded
  simp only
  split
  · exact hf
  · split
    · exact closed_backup h hf
    · split
      · exact h.forward _ _ _ hf
      · exact hf

theorem closed_direction (h : Closed N I) {c : WCtx} (h0 : 0 ≤ c.staffIndex) (hN : c.staffIndex < N) {d : DirectionData P} {st : WSt P}
    (hi : I st.buf st.out) : I (writeDirection c d st).buf (writeDirection c d st).out := by
  have hf := closed_flush h hi
  unfold writeDirection
  refine h.direction _ _ _ _ _ ?_ hf
  intro n hn
  split at hn
  · simp only [Option.some.injEq] at hn; omega
  · simp at hn

theorem closed_directionsWhile (h : Closed N I) {c : WCtx} (h0 : 0 ≤ c.staffIndex) (hN : c.staffIndex < N) (p : Int → Bool) {st : WSt P}
    (hi : I st.buf st.out) : I (writeDirectionsWhile c p st).buf (writeDirectionsWhile c p st).out := by
  unfold writeDirectionsWhile
  simp only
  have : ∀ (ds : List (DirectionData P)) (s : WSt P), I s.buf s.out →
      I (ds.foldl (fun s d => writeDirection c d s) s).buf (ds.foldl (fun s d => writeDirection c d s) s).out := by
    intro ds
    induction ds with
    | nil => intro s hs; exact hs
    | cons d ds ih => intro s hs; exact ih _ (closed_direction h h0 hN hs)
  exact this _ _ hi

theorem closed_directions (h : Closed N I) {c : WCtx} (h0 : 0 ≤ c.staffIndex) (hN : c.staffIndex < N) (prev cur next : Option (NoteData P))
    {st : WSt P} (hi : I st.buf st.out) : I (writeDirections c prev cur next st).buf (writeDirections c prev cur next st).out := by
  cases cur with
  | none => exact closed_directionsWhile h h0 hN _ hi
  | some n =>
    unfold writeDirections
    simp only
    split
    · exact closed_directionsWhile h h0 hN _ hi
    · split
      · exact hi
      · exact closed_directionsWhile h h0 hN _ hi

theorem closed_keysAndClefs (h : Closed N I) {c : WCtx} (hN : c.staffIndex < N) {st : WSt P} (hi : I st.buf st.out) :
    I (writeKeysAndClefs c st).buf (writeKeysAndClefs c st).out := by
  unfold writeKeysAndClefs
  apply closed_flush h
  have h1 : I (writeMeasureKey st).buf (writeMeasureKey st).out := by
    unfold writeMeasureKey
    split
    · split
      · exact h.key _ _ _ _ hi
      · exact hi
    · exact hi
  have h2 : I (writeDueClefs c (writeMeasureKey st)).buf (writeDueClefs c (writeMeasureKey st)).out := closed_clefs h _ hN _ _ h1
  exact closed_keys h (fun _ => c.staffIndex) _ _ h2

theorem closed_notes (h : Closed N I) {c : WCtx} (h0 : 0 ≤ c.staffIndex) (hN : c.staffIndex < N) : ∀ (ns : List (NoteData P)) (isFirst : Bool)
    (pct : Int) (prev : Option (NoteData P)) (st : WSt P), I st.buf st.out →
    I (writeNotes c isFirst pct prev ns st).buf (writeNotes c isFirst pct prev ns st).out := by
  intro ns
  induction ns with
  | nil => intro _ _ _ st hi; exact hi
  | cons n ns ih =>
    intro isFirst pct prev st hi
    unfold writeNotes
    simp only
    apply ih
    have h1 := closed_forwardOrBackup h (n := n) hi
    have h2 := closed_keysAndClefs h (c := c) hN h1
    have h3 := closed_directions h h0 hN prev (some n) ns.head? h2
    have h4 : ∀ b, I (addNote c b n (writeDirections c prev (some n) ns.head? (writeKeysAndClefs c (writeForwardOrBackupIfNeeded n st)))).buf
        (addNote c b n (writeDirections c prev (some n) ns.head? (writeKeysAndClefs c (writeForwardOrBackupIfNeeded n st)))).out := by
      intro b
      refine h.note _ _ _ ?_ h3
      intro k hk
      simp only [noteElem] at hk
      split at hk
      · simp only [Option.some.injEq] at hk; omega
      · simp at hk
    unfold advanceCursorIfNeeded
    split <;> exact h4 _

theorem closed_voice (h : Closed N I) {n i : Int} (h0 : 0 ≤ i) (hN : i < N) (v : Int × List (NoteData P)) {st : WSt P} (hi : I st.buf st.out) :
    I (writeVoice n i v st).buf (writeVoice n i v st).out := by
  unfold writeVoice
  simp only
  apply closed_directions h h0 hN
  apply closed_notes h h0 hN
  exact closed_directions h h0 hN _ _ _ hi

theorem closed_voices (h : Closed N I) {n i : Int} (h0 : 0 ≤ i) (hN : i < N) (s : StaffData P) {st : WSt P} (hi : I st.buf st.out) :
    I (writeVoices n i s st).buf (writeVoices n i s st).out := by
  unfold writeVoices
  simp only
  have hv : ∀ (vs : List (Int × List (NoteData P))) (t : WSt P), I t.buf t.out →
      I (vs.foldl (fun s v => writeVoice n i v s) t).buf (vs.foldl (fun s v => writeVoice n i v s) t).out := by
    intro vs
    induction vs with
    | nil => intro t ht; exact ht
    | cons v vs ih => intro t ht; exact ih _ (closed_voice h h0 hN v ht)
  have hr : ∀ t : WSt P, I t.buf t.out → I (writeRemaining i t).buf (writeRemaining i t).out := by
    intro t ht
    unfold writeRemaining
    split
    · apply closed_flush h
      apply closed_keys h (fun _ => i)
      have h1 : I (t.clefs.foldl (fun b x => writeClef i x b) t.buf) t.out := closed_clefs h _ hN _ _ ht
      unfold writeRemainingMeasureKey
      split
      · split
        · exact h.key _ _ _ _ h1
        · exact h1
      · exact h1
    · exact ht
  apply hr
  refine closed_directions h (c := { numStaves := n, staffIndex := i, voiceIndex := 0 }) h0 hN _ _ _ ?_
  exact hv _ _ hi

theorem closed_staves (h : Closed N I) {n : Int} : ∀ (ss : List (StaffData P)) (i : Int) (st : WSt P), 0 ≤ i → i + ss.length ≤ N →
    I st.buf st.out → I (writeStavesFrom n i ss st).buf (writeStavesFrom n i ss st).out := by
  intro ss
  induction ss with
  | nil => intro _ _ _ _ hi; exact hi
  | cons s ss ih =>
    intro i st h0 hN hi
    simp only [List.length_cons, Nat.cast_add, Nat.cast_one] at hN
    exact ih (i + 1) _ (by omega) (by omega) (closed_voices h h0 (by omega) s hi)

theorem closed_globalClefs (h : Closed N I) {o : List (Elem P)} {n : Int} : ∀ (ss : List (StaffData P)) (i : Int) (b : Attributes P), 0 ≤ i → i + ss.length ≤ N → I b o →
    I (globalClefs n i ss b) o := by
  intro ss
  induction ss with
  | nil => intro _ _ _ _ hb; exact hb
  | cons s ss ih =>
    intro i b h0 hN hb
    simp only [List.length_cons, Nat.cast_add, Nat.cast_one] at hN
    exact ih _ _ (by omega) (by omega) (closed_clefs h _ (by split <;> omega) _ _ hb)

/-- the attributes with which `writeMeasureGlobals` begins -/
def globalsStart (env : WEnv) (m : MeasureData P) : Attributes P :=
  { divisions := if env.isFirstMeasureInPart then some (durMicro env.ticksPerQuarter) else none
    staves := if env.isFirstMeasureInPart ∧ m.staves.length > 1 then some m.staves.length else none
    hasTime := env.writesTime
    hasTranspose := env.writesTranspose }

/-- A relation that holds at the start and is kept by every step holds for the written measure. -/
theorem closed_measure (h : Closed N I) (env : WEnv) (m : MeasureData P) (hN : (m.staves.length : Int) ≤ N)
    (hb : ∀ o b, (b ∈ m.barlines) → ∀ a, I a o → I a (o ++ [barlineElem b])) (ho : ∀ o a, I a o → I a (o ++ [Elem.other]))
    (h0 : I (globalsStart env m) []) : I {} (writeMeasure env m) := by
  have hbs : ∀ (bs : List (BarlineData P)) (o : List (Elem P)) (a : Attributes P), (∀ b ∈ bs, b ∈ m.barlines) → I a o → I a (o ++ bs.map barlineElem) := by
    intro bs
    induction bs with
    | nil => intro o a _ hi; simpa using hi
    | cons b bs ih =>
      intro o a hsub hi
      have h1 := hb o b (hsub b (by simp)) a hi
      have h2 := ih _ _ (fun x hx => hsub x (by simp [hx])) h1
      simpa using h2
  have hos : ∀ (k : Nat) (o : List (Elem P)) (a : Attributes P), I a o → I a (o ++ List.replicate k Elem.other) := by
    intro k
    induction k with
    | zero => intro o a hi; simpa using hi
    | succ k ih =>
      intro o a hi
      have h2 := ih _ _ (ho o a hi)
      simpa [List.replicate_succ] using h2
  unfold writeMeasure
  simp only
  have hsub1 : ∀ b ∈ m.barlines.takeWhile (fun b => decide (b.tick ≤ 0)), b ∈ m.barlines := fun b hb => List.takeWhile_subset _ hb
  have hsub2 : ∀ b ∈ (m.barlines.dropWhile (fun b => decide (b.tick ≤ 0))).takeWhile (fun b => decide (b.tick ≤ TICK_TIME_INFINITY)), b ∈ m.barlines :=
    fun b hb => List.dropWhile_subset _ (List.takeWhile_subset _ hb)
  have g1 : I (globalsStart env m) ((m.barlines.takeWhile (fun b => decide (b.tick ≤ 0))).map barlineElem ++ List.replicate env.printElements .other) := by
    apply hos
    have := hbs _ [] _ hsub1 h0
    simpa using this
  have g2 := closed_keys h (fun k : KeyData P => k.staffIndex) (m.keys.takeWhile (fun k => decide (k.tick = 0))) _
    (closed_globalClefs h (n := env.numStaves) m.staves 0 _ (le_refl _) (by omega) g1)
  refine hbs _ _ _ hsub2 ?_
  have g3 := closed_flush h (closed_staves h (n := env.numStaves) m.staves 0
    { tick := 0, prevChord := false, dirs := [], clefs := [], keys := []
      mkeys := m.keys.dropWhile (fun k => k.tick = 0)
      buf := globals env m
      out := (m.barlines.takeWhile (fun b => decide (b.tick ≤ 0))).map barlineElem ++ List.replicate env.printElements .other }
    (le_refl _) (by omega) g2)
  rw [flush_buf] at g3
  exact g3

end writer

end Mx.Measure
