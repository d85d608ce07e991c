import Verif.Spec.DocumentManager
import Verif.Proofs.ScoreConversions
import Mathlib.Data.List.Induction

/-! Invariants of the document manager. -/
namespace Mx.Manager
open Spec Mx.Convert

variable {H G A M S T : Type} [DecidableEq T] {lib : Lib H G A M S}

theorem upd_self {α : Type} (f : T → α) (t : T) (a : α) : upd f t a t = a := by simp [upd]
theorem upd_other {α : Type} (f : T → α) {t u : T} (a : α) (h : u ≠ t) : upd f t a u = f u := by simp [upd, h]

def isInside : Phase H G A M S → Bool
  | .inside _ _ _ => true
  | _ => false

/-- The history without the names of the threads. -/
def hist (s : Sys T H G A M S) : History H G A M S := s.log.map Prod.snd

/-- The invariant: only the owner of the lock is inside a call, and the manager is in the state after the completed calls, followed by
the first steps of the owner's call. -/
def Inv (lib : Lib H G A M S) (s : Sys T H G A M S) : Prop :=
  match s.owner with
  | none => (∀ t, isInside (s.phase t) = false) ∧ Sequential lib (hist s) s.mem
  | some t => (∀ u, u ≠ t → isInside (s.phase u) = false) ∧
      ∃ op rest l m0, s.phase t = .inside op rest l ∧ op ≠ .create none ∧ Sequential lib (hist s) m0 ∧
        runOp lib op m0 = runSteps rest s.mem l

theorem runOp_code {op : Op H G A M} (h : op ≠ .create none) (m : Mem H G A M) : runOp lib op m = runSteps (code lib op) m {} := by
  unfold runOp
  split
  · exact absurd rfl h
  · rfl

theorem owner_of_inside {s : Sys T H G A M S} (h : Inv lib s) {t : T} (ht : isInside (s.phase t) = true) : s.owner = some t := by
  unfold Inv at h
  split at h
  · rw [h.1 t] at ht; cases ht
  · rename_i u hu
    by_cases e : t = u
    · rw [hu, e]
    · rw [h.1 t e] at ht; cases ht

theorem inv_step {s s' : Sys T H G A M S} (h : Inv lib s) (hs : Step lib s s') : Inv lib s' := by
  have other : ∀ (t : T) (p : Phase H G A M S), isInside (s.phase t) = false → isInside p = false →
      ∀ u, isInside (s.phase u) = false → isInside (upd s.phase t p u) = false := by
    intro t p _ hp u hu
    by_cases e : u = t
    · rw [e, upd_self]; exact hp
    · rw [upd_other _ _ e]; exact hu
  cases hs with
  | call t op rest h1 h2 =>
    have hi : isInside (s.phase t) = false := by rw [h2]; rfl
    unfold Inv at h ⊢
    cases ho : s.owner with
    | none =>
      rw [ho] at h
      exact ⟨fun u => other t _ hi rfl u (h.1 u), h.2⟩
    | some o =>
      rw [ho] at h
      obtain ⟨g1, op', rest', l, m0, g2, g3⟩ := h
      have hne : o ≠ t := by rintro rfl; rw [g2] at hi; cases hi
      refine ⟨fun u hu => other t _ hi rfl u (g1 u hu), op', rest', l, m0, ?_, g3⟩
      simp only; rw [upd_other _ _ hne]; exact g2
  | fail t h1 =>
    have hi : isInside (s.phase t) = false := by rw [h1]; rfl
    have happ : ∀ m, Sequential lib (hist s) m →
        Sequential lib ((s.log ++ [(t, Op.create none, Ret.exception)]).map Prod.snd) m := by
      intro m hm
      rw [List.map_append]
      exact Sequential.snoc hm rfl
    unfold Inv at h ⊢
    cases ho : s.owner with
    | none =>
      rw [ho] at h
      exact ⟨fun u => other t _ hi rfl u (h.1 u), happ _ h.2⟩
    | some o =>
      rw [ho] at h
      obtain ⟨g1, op', rest', l, m0, g2, g3, g4, g5⟩ := h
      have hne : o ≠ t := by rintro rfl; rw [g2] at hi; cases hi
      refine ⟨fun u hu => other t _ hi rfl u (g1 u hu), op', rest', l, m0, ?_, g3, happ _ g4, g5⟩
      simp only; rw [upd_other _ _ hne]; exact g2
  | acquire t op h1 h2 h3 =>
    unfold Inv at h ⊢
    rw [h3] at h
    refine ⟨fun u hu => ?_, op, code lib op, {}, s.mem, upd_self _ _ _, h2, h.2, runOp_code h2 _⟩
    simp only; rw [upd_other _ _ hu]; exact h.1 u
  | exec t op i rest l m' l' h1 h2 h3 =>
    have ho := owner_of_inside h (t := t) (by rw [h1]; rfl)
    unfold Inv at h ⊢
    simp only [ho] at h ⊢
    obtain ⟨g1, op', rest', l1, m0, g2, g3, g4, g5⟩ := h
    rw [h1] at g2
    injection g2 with e1 e2 e3
    subst e1 e2 e3
    refine ⟨fun u hu => ?_, op, rest, l', m0, upd_self _ _ _, g3, g4, ?_⟩
    · rw [upd_other _ _ hu]; exact g1 u hu
    · rw [g5]
      conv_lhs => unfold runSteps
      simp only [h2, h3, Option.bind_some]
  | release t op rest l r h1 h2 =>
    have ho := owner_of_inside h (t := t) (by rw [h1]; rfl)
    unfold Inv at h ⊢
    simp only [ho] at h ⊢
    obtain ⟨g1, op', rest', l1, m0, g2, g3, g4, g5⟩ := h
    rw [h1] at g2
    injection g2 with e1 e2 e3
    subst e1 e2 e3
    refine ⟨fun u => ?_, ?_⟩
    · by_cases e : u = t
      · rw [e, upd_self]; rfl
      · rw [upd_other _ _ e]; exact g1 u e
    · unfold hist
      rw [List.map_append]
      refine Sequential.snoc g4 ?_
      rw [g5]
      unfold runSteps
      simp only [h2]

theorem inv_reach {prog : T → List (Op H G A M)} {s : Sys T H G A M S} (h : Reach lib prog s) : Inv lib s := by
  induction h with
  | start => exact ⟨fun _ => rfl, Sequential.nil⟩
  | step _ hs ih => exact inv_step ih hs

/-- There is a sequential execution of the completed calls. -/
theorem seq_of_reach {prog : T → List (Op H G A M)} {s : Sys T H G A M S} (h : Reach lib prog s) : ∃ m, Sequential lib (hist s) m := by
  have := inv_reach h
  unfold Inv at this
  split at this
  · exact ⟨_, this.2⟩
  · obtain ⟨_, _, _, _, m0, _, _, h1, _⟩ := this
    exact ⟨m0, h1⟩

/-- Calls of a thread are completed in the order in which it makes them. -/
theorem order_reach {prog : T → List (Op H G A M)} {s : Sys T H G A M S} (h : Reach lib prog s) (t : T) :
    prog t = (s.log.filter (fun e => e.1 = t)).map (fun e => e.2.1) ++ pending (s.phase t) ++ s.todo t := by
  induction h with
  | start => simp [pending]
  | step hr hs ih =>
    cases hs with
    | call t' op rest h1 h2 =>
      by_cases e : t = t'
      · subst e; rw [ih]; simp [upd_self, h1, h2, pending]
      · rw [ih]; simp [upd_other _ _ e]
    | fail t' h1 =>
      by_cases e : t = t'
      · subst e; rw [ih]; simp [upd_self, h1, pending]
      · have e' : ¬ t' = t := fun x => e x.symm
        rw [ih]; simp [upd_other _ _ e, e']
    | acquire t' op h1 h2 h3 =>
      by_cases e : t = t'
      · subst e; rw [ih]; simp [upd_self, h1, pending]
      · rw [ih]; simp [upd_other _ _ e]
    | exec t' op i rest l m' l' h1 h2 h3 =>
      by_cases e : t = t'
      · subst e; rw [ih]; simp [upd_self, h1, pending]
      · rw [ih]; simp [upd_other _ _ e]
    | release t' op rest l r h1 h2 =>
      by_cases e : t = t'
      · subst e; rw [ih]; simp [upd_self, h1, pending]
      · have e' : ¬ t' = t := fun x => e x.symm
        rw [ih]; simp [upd_other _ _ e, e']

/-! ### Single calls -/

theorem put_put (m : Mem H G A M) (i : Int) (a b : Option (Doc H G A M)) : (m.put i a).put i b = m.put i b := by
  simp only [Mem.put, Mem.mk.injEq, true_and, and_true]
  funext j; by_cases h : j = i <;> simp [h]

theorem put_docs (m : Mem H G A M) (i j : Int) (a : Option (Doc H G A M)) : (m.put i a).docs j = if j = i then a else m.docs j := rfl

theorem put_none {m : Mem H G A M} {i : Int} (h : m.docs i = none) : m.put i none = m := by
  cases m with
  | mk n d u =>
    simp only [Mem.put, Mem.mk.injEq, true_and, and_true]
    funext j
    by_cases hj : j = i
    · simp only [hj, if_pos]; exact h.symm
    · simp [hj]

theorem run_create (d : Doc H G A M) (m : Mem H G A M) :
    runOp lib (.create (some d)) m =
      (chk (m.nextId + 1)).map (fun n => ({ m.put m.nextId (some d) with nextId := n }, .id m.nextId)) := by
  simp only [runOp, code, runSteps, Option.bind_some, Mem.put]
  cases chk (m.nextId + 1) <;> rfl

theorem run_unique (m : Mem H G A M) :
    runOp lib .getUniqueId m = (chk (m.nextUnique + 1)).map (fun n => ({ m with nextUnique := n }, .id m.nextUnique)) := by
  simp only [runOp, code, runSteps, Option.bind_some]
  cases chk (m.nextUnique + 1) <;> rfl

theorem run_write (i : Int) (m : Mem H G A M) : runOp lib (.write i) m = some (m, .written (m.docs i)) := by
  simp [runOp, code, runSteps]

theorem run_getDocument (i : Int) (m : Mem H G A M) : runOp lib (.getDocument i) m = some (m, .doc (m.docs i)) := by
  simp [runOp, code, runSteps]

theorem run_destroy (i : Int) (m : Mem H G A M) : runOp lib (.destroy i) m = some (m.put i none, .nothing) := by
  cases h : m.docs i with
  | none => simp [runOp, code, runSteps, h, put_none h]
  | some d => simp [runOp, code, runSteps, h]

theorem run_getData_none {i : Int} {m : Mem H G A M} (h : m.docs i = none) : runOp lib (.getData i) m = some (m, .data lib.noData) := by
  simp [runOp, code, runSteps, h]

theorem run_getData_partwise {i : Int} {m : Mem H G A M} {p : Partwise H G A M} (h : m.docs i = some (.partwise p)) :
    runOp lib (.getData i) m = some (m, match lib.read p with | some s => .data s | none => .exception) := by
  cases hr : lib.read p with
  | none => simp [runOp, code, runSteps, h, toPartwise, readScore, hr]
  | some s => simp [runOp, code, runSteps, h, toPartwise, readScore, toTimewise, hr]

theorem run_getData_timewise {i : Int} {m : Mem H G A M} {t : Timewise H G A M} (h : m.docs i = some (.timewise t)) :
    ∃ t', partwiseTimewise lib.fresh (timewisePartwise lib.fresh t) = some t' ∧
      timewisePartwise lib.fresh t' = timewisePartwise lib.fresh t ∧
      runOp lib (.getData i) m = some (match lib.read (timewisePartwise lib.fresh t) with
        | some s => (m.put i (some (.timewise t')), .data (lib.asTimewise s))
        | none => (m.put i (some (.partwise (timewisePartwise lib.fresh t))), .exception)) := by
  obtain ⟨t', h1, h2⟩ := pw_tw_pw lib.fresh t
  refine ⟨t', h1, h2, ?_⟩
  cases hr : lib.read (timewisePartwise lib.fresh t) with
  | none => simp [runOp, code, runSteps, h, toPartwise, readScore, convertContents, put_docs, hr]
  | some s => simp [runOp, code, runSteps, h, toPartwise, readScore, toTimewise, convertContents, put_docs, hr, h1, put_put]

/-! ### The map -/

/-- The stored document `b` stands for the document `a` that was created. -/
def Stands (lib : Lib H G A M S) : Doc H G A M → Doc H G A M → Prop
  | .partwise p, b => b = .partwise p
  | .timewise t, .timewise t' => timewisePartwise lib.fresh t' = timewisePartwise lib.fresh t
  | .timewise t, .partwise p => p = timewisePartwise lib.fresh t ∧ lib.read p = none

def StandsO (lib : Lib H G A M S) : Option (Doc H G A M) → Option (Doc H G A M) → Prop
  | none, b => b = none
  | some a, some b => Stands lib a b
  | some _, none => False

theorem stands_refl (a : Option (Doc H G A M)) : StandsO lib a a := by
  cases a with
  | none => rfl
  | some a => cases a <;> rfl

theorem existing_snoc (h : History H G A M S) (e : Op H G A M × Ret H G A M S) : existing (h ++ [e]) = mapAfter (existing h) e := by
  simp [existing]

/-- One call keeps the correspondence and answers as specified. -/
theorem getData_stands {m m' : Mem H G A M} {a : Option (Doc H G A M)} {i : Int} {r : Ret H G A M S} (h : StandsO lib a (m.docs i))
    (hr : runOp lib (.getData i) m = some (m', r)) :
    r = dataAnswer lib a ∧ StandsO lib a (m'.docs i) ∧ m'.nextId = m.nextId ∧ m'.nextUnique = m.nextUnique ∧ ∀ j, j ≠ i → m'.docs j = m.docs j := by
  cases a with
  | none =>
    rw [run_getData_none h] at hr
    injection hr with hr; injection hr with h1 h2
    subst h1 h2
    exact ⟨rfl, h, rfl, rfl, fun _ _ => rfl⟩
  | some a =>
    cases hb : m.docs i with
    | none => rw [hb] at h; exact h.elim
    | some b =>
      rw [hb] at h
      cases b with
      | partwise p =>
        rw [run_getData_partwise hb] at hr
        injection hr with hr; injection hr with h1 h2
        subst h1 h2
        rw [hb]
        refine ⟨?_, h, rfl, rfl, fun _ _ => rfl⟩
        cases a with
        | partwise p' =>
          have : p = p' := by injection h
          subst this; rfl
        | timewise t =>
          obtain ⟨rfl, h2⟩ := h
          simp [dataAnswer, dataOf, h2]
      | timewise t =>
        cases a with
        | partwise p' => exact absurd h (by simp [StandsO, Stands])
        | timewise t0 =>
          have h : timewisePartwise lib.fresh t = timewisePartwise lib.fresh t0 := h
          obtain ⟨t', h1, h2, h3⟩ := run_getData_timewise (lib := lib) hb
          rw [h3] at hr
          injection hr with hr
          rw [h] at hr h2
          cases hs : lib.read (timewisePartwise lib.fresh t0) with
          | none =>
            simp only [hs, Prod.mk.injEq] at hr
            obtain ⟨rfl, rfl⟩ := hr
            refine ⟨by simp [dataAnswer, dataOf, hs], ?_, rfl, rfl, ?_⟩
            · rw [put_docs, if_pos rfl]; exact ⟨rfl, hs⟩
            · intro j hj; rw [put_docs, if_neg hj]
          | some s =>
            simp only [hs, Prod.mk.injEq] at hr
            obtain ⟨rfl, rfl⟩ := hr
            refine ⟨by simp [dataAnswer, dataOf, hs], ?_, rfl, rfl, ?_⟩
            · rw [put_docs, if_pos rfl]; exact h2
            · intro j hj; rw [put_docs, if_neg hj]

theorem getData_stable {m m' : Mem H G A M} {i : Int} {r : Ret H G A M S} (h : ∀ d, m.docs i = some d → Stable lib d)
    (hr : runOp lib (.getData i) m = some (m', r)) : m'.docs = m.docs := by
  cases hb : m.docs i with
  | none =>
    rw [run_getData_none hb] at hr
    injection hr with hr; injection hr with h1 h2
    rw [h1]
  | some b =>
    cases b with
    | partwise p =>
      rw [run_getData_partwise hb] at hr
      injection hr with hr; injection hr with h1 h2
      rw [h1]
    | timewise t =>
      obtain ⟨g1, g2⟩ := h _ hb
      obtain ⟨t', h1, h2, h3⟩ := run_getData_timewise (lib := lib) hb
      rw [g1] at h1
      injection h1 with h1
      subst h1
      rw [h3] at hr
      injection hr with hr
      obtain ⟨s, hs⟩ := Option.isSome_iff_exists.mp g2
      simp only [hs, Prod.mk.injEq] at hr
      rw [← hr.1]
      funext j
      rw [put_docs]
      split
      · rename_i e; rw [e, hb]
      · rfl

/-- The main invariant of sequential executions. -/
def SeqInv (lib : Lib H G A M S) (h : History H G A M S) (m : Mem H G A M) : Prop :=
    (∀ i, StandsO lib (existing h i) (m.docs i)) ∧
    m.nextId = 1 + ((h.filterMap createdId).length : Int) ∧
    h.filterMap createdId = (List.range (h.filterMap createdId).length).map (fun (k : Nat) => 1 + (k : Int)) ∧
    m.nextUnique = 1000000 + ((h.filterMap uniqueId).length : Int) ∧
    h.filterMap uniqueId = (List.range (h.filterMap uniqueId).length).map (fun (k : Nat) => 1000000 + (k : Int))

theorem seq_inv {h : History H G A M S} {m : Mem H G A M} (hs : Sequential lib h m) : SeqInv lib h m := by
  induction hs with
  | nil => exact ⟨fun _ => rfl, rfl, rfl, rfl, rfl⟩
  | @snoc h m op m' r hs hr ih =>
    obtain ⟨i1, i2, i3, i4, i5⟩ := ih
    have keep : (∀ x : Ret H G A M S, createdId (op, x) = none) → (∀ x : Ret H G A M S, uniqueId (op, x) = none) →
        (∀ i, StandsO lib (existing (h ++ [(op, r)]) i) (m'.docs i)) → m'.nextId = m.nextId → m'.nextUnique = m.nextUnique → SeqInv lib (h ++ [(op, r)]) m' := by
      intro k1 k2 k3 k4 k5
      unfold SeqInv
      rw [List.filterMap_append, List.filterMap_append]
      simp only [List.filterMap_cons, k1, k2, List.filterMap_nil, List.append_nil, k4, k5]
      exact ⟨k3, i2, i3, i4, i5⟩
    cases op with
    | create d =>
      cases d with
      | none =>
        have : m' = m ∧ r = .exception := by
          simp only [runOp, Option.some.injEq, Prod.mk.injEq] at hr
          exact ⟨hr.1.symm, hr.2.symm⟩
        obtain ⟨rfl, rfl⟩ := this
        exact keep (fun _ => rfl) (fun _ => rfl) (by intro i; rw [existing_snoc]; exact i1 i) rfl rfl
      | some d =>
        rw [run_create] at hr
        cases hc : chk (m.nextId + 1) with
        | none => rw [hc] at hr; cases hr
        | some n =>
          rw [hc] at hr
          simp only [Option.map_some, Option.some.injEq, Prod.mk.injEq] at hr
          obtain ⟨rfl, rfl⟩ := hr
          have hn : n = m.nextId + 1 := by
            unfold chk at hc
            split at hc
            · injection hc with hc; exact hc.symm
            · cases hc
          refine ⟨?_, ?_, ?_, ?_, ?_⟩
          · intro i
            rw [existing_snoc]
            simp only [mapAfter, put_docs]
            split
            · exact stands_refl _
            · exact i1 i
          · rw [List.filterMap_append]
            simp only [List.filterMap_cons, createdId, List.filterMap_nil, List.length_append, List.length_singleton]
            rw [hn, i2]; omega
          · rw [List.filterMap_append]
            simp only [List.filterMap_cons, createdId, List.filterMap_nil, List.length_append, List.length_singleton]
            rw [List.range_succ, List.map_append, ← i3, i2]
            rfl
          · rw [List.filterMap_append]; simp only [List.filterMap_cons, uniqueId, List.filterMap_nil, List.append_nil]; exact i4
          · rw [List.filterMap_append]; simp only [List.filterMap_cons, uniqueId, List.filterMap_nil, List.append_nil]; exact i5
    | write i =>
      rw [run_write] at hr
      injection hr with hr; injection hr with h1 h2
      subst h1
      exact keep (fun _ => rfl) (fun _ => rfl) (by intro j; rw [existing_snoc]; exact i1 j) rfl rfl
    | getDocument i =>
      rw [run_getDocument] at hr
      injection hr with hr; injection hr with h1 h2
      subst h1
      exact keep (fun _ => rfl) (fun _ => rfl) (by intro j; rw [existing_snoc]; exact i1 j) rfl rfl
    | destroy i =>
      rw [run_destroy] at hr
      injection hr with hr; injection hr with h1 h2
      subst h1
      refine keep (fun _ => rfl) (fun _ => rfl) ?_ rfl rfl
      intro j
      rw [existing_snoc]
      simp only [mapAfter, put_docs]
      split
      · rfl
      · exact i1 j
    | getData i =>
      obtain ⟨_, g2, g3, g4, g5⟩ := getData_stands (i1 i) hr
      refine keep (fun _ => rfl) (fun _ => rfl) ?_ g3 g4
      intro j
      rw [existing_snoc]
      by_cases e : j = i
      · subst e; exact g2
      · rw [g5 j e]; exact i1 j
    | getUniqueId =>
      rw [run_unique] at hr
      cases hc : chk (m.nextUnique + 1) with
      | none => rw [hc] at hr; cases hr
      | some n =>
        rw [hc] at hr
        simp only [Option.map_some, Option.some.injEq, Prod.mk.injEq] at hr
        obtain ⟨rfl, rfl⟩ := hr
        have hn : n = m.nextUnique + 1 := by
          unfold chk at hc
          split at hc
          · injection hc with hc; exact hc.symm
          · cases hc
        refine ⟨?_, ?_, ?_, ?_, ?_⟩
        · intro j; rw [existing_snoc]; exact i1 j
        · rw [List.filterMap_append]; simp only [List.filterMap_cons, createdId, List.filterMap_nil, List.append_nil]; exact i2
        · rw [List.filterMap_append]; simp only [List.filterMap_cons, createdId, List.filterMap_nil, List.append_nil]; exact i3
        · rw [List.filterMap_append]
          simp only [List.filterMap_cons, uniqueId, List.filterMap_nil, List.length_append, List.length_singleton]
          rw [hn, i4]; omega
        · rw [List.filterMap_append]
          simp only [List.filterMap_cons, uniqueId, List.filterMap_nil, List.length_append, List.length_singleton]
          rw [List.range_succ, List.map_append, ← i5, i4]
          rfl

/-- All documents created in a history have a property. -/
def AllCreated (P : Doc H G A M → Prop) (h : History H G A M S) : Prop := ∀ d r, (Op.create (some d), r) ∈ h → P d

theorem existing_created {P : Doc H G A M → Prop} {h : History H G A M S} (hp : AllCreated P h) : ∀ i d, existing h i = some d → P d := by
  induction h using List.reverseRecOn with
  | nil => intro i d hd; cases hd
  | append_singleton h e ih =>
    have ih := ih (fun d r hm => hp d r (by simp [hm]))
    intro i d hd
    rw [existing_snoc] at hd
    obtain ⟨op, r⟩ := e
    cases op with
    | create d0 =>
      cases d0 with
      | none => exact ih i d hd
      | some d0 =>
        cases r with
        | id i' =>
          simp only [mapAfter] at hd
          by_cases hi : i = i'
          · rw [if_pos hi] at hd
            injection hd with hd
            subst hd
            exact hp d0 _ (List.mem_append_right _ List.mem_cons_self)
          · rw [if_neg hi] at hd; exact ih i d hd
        | _ => exact ih i d hd
    | destroy i' =>
      simp only [mapAfter] at hd
      by_cases hi : i = i'
      · rw [if_pos hi] at hd; cases hd
      · rw [if_neg hi] at hd; exact ih i d hd
    | _ => exact ih i d hd

/-- With stable documents the manager stores exactly the documents that were created. -/
theorem seq_stable {h : History H G A M S} {m : Mem H G A M} (hs : Sequential lib h m) (hp : AllCreated (Stable lib) h) :
    m.docs = existing h := by
  induction hs with
  | nil => rfl
  | @snoc h m op m' r hs hr ih =>
    have ih := ih (fun d r hm => hp d r (by simp [hm]))
    have hst : ∀ i d, m.docs i = some d → Stable lib d := by
      rw [ih]; exact existing_created (fun d r hm => hp d r (by simp [hm]))
    rw [existing_snoc]
    cases op with
    | create d =>
      cases d with
      | none =>
        simp only [runOp, Option.some.injEq, Prod.mk.injEq] at hr
        rw [← hr.1]; exact ih
      | some d =>
        rw [run_create] at hr
        cases hc : chk (m.nextId + 1) with
        | none => rw [hc] at hr; cases hr
        | some n =>
          rw [hc] at hr
          simp only [Option.map_some, Option.some.injEq, Prod.mk.injEq] at hr
          obtain ⟨rfl, rfl⟩ := hr
          simp only [mapAfter, ← ih]; rfl
    | write i =>
      rw [run_write] at hr
      injection hr with hr; injection hr with h1 h2
      rw [← h1]; exact ih
    | getDocument i =>
      rw [run_getDocument] at hr
      injection hr with hr; injection hr with h1 h2
      rw [← h1]; exact ih
    | destroy i =>
      rw [run_destroy] at hr
      injection hr with hr; injection hr with h1 h2
      rw [← h1]; simp only [mapAfter, ← ih]; rfl
    | getData i =>
      rw [getData_stable (hst i) hr]; exact ih
    | getUniqueId =>
      rw [run_unique] at hr
      cases hc : chk (m.nextUnique + 1) with
      | none => rw [hc] at hr; cases hr
      | some n =>
        rw [hc] at hr
        simp only [Option.map_some, Option.some.injEq, Prod.mk.injEq] at hr
        rw [← hr.1]; exact ih

/-- Every history of a sequential execution can be cut before each of its calls. -/
theorem seq_cut {h : History H G A M S} {m : Mem H G A M} (hs : Sequential lib h m) :
    ∀ {pre post : History H G A M S} {op r}, h = pre ++ (op, r) :: post → ∃ m1 m2, Sequential lib pre m1 ∧ runOp lib op m1 = some (m2, r) := by
  induction hs with
  | nil => intro pre post op r e; simp at e
  | @snoc h m op' m' r' hs hr ih =>
    intro pre post op r e
    rcases List.eq_nil_or_concat post with rfl | ⟨post', x, rfl⟩
    · have := List.append_inj' e (by simp)
      obtain ⟨rfl, e2⟩ := this
      simp only [List.cons.injEq, Prod.mk.injEq, and_true] at e2
      obtain ⟨rfl, rfl⟩ := e2
      exact ⟨m, m', hs, hr⟩
    · rw [List.concat_eq_append, ← List.cons_append, ← List.append_assoc] at e
      have := List.append_inj' e (by simp)
      exact ih this.1

/-- No call is undefined while the counters are in range. -/
theorem run_defined {h : History H G A M S} {m : Mem H G A M} (hs : Sequential lib h m)
    (h1 : ((h.filterMap createdId).length : Int) < INT_MAX - 1) (h2 : ((h.filterMap uniqueId).length : Int) < INT_MAX - 1000000) (op : Op H G A M) :
    (runOp lib op m).isSome := by
  obtain ⟨i1, i2, _, i4, _⟩ := seq_inv hs
  have c1 : ∀ x : Int, 0 ≤ x → x ≤ INT_MAX → chk x = some x := by
    intro x h0 h1; exact if_pos ⟨by unfold INT_MIN; omega, h1⟩
  cases op with
  | create d =>
    cases d with
    | none => rfl
    | some d => rw [run_create, c1 _ (by omega) (by omega)]; rfl
  | write i => rw [run_write]; rfl
  | getDocument i => rw [run_getDocument]; rfl
  | destroy i => rw [run_destroy]; rfl
  | getUniqueId => rw [run_unique, c1 _ (by omega) (by omega)]; rfl
  | getData i =>
    cases hb : m.docs i with
    | none => rw [run_getData_none hb]; rfl
    | some b =>
      cases b with
      | partwise p => rw [run_getData_partwise hb]; rfl
      | timewise t =>
        obtain ⟨t', _, _, h3⟩ := run_getData_timewise (lib := lib) hb
        rw [h3]; rfl

/-- The next step of a thread, if it can take one (for the examples). -/
def next (lib : Lib H G A M S) (s : Sys T H G A M S) (t : T) : Option (Sys T H G A M S) :=
  match s.phase t with
  | .idle => match s.todo t with
    | [] => none
    | op :: rest => some { s with todo := upd s.todo t rest, phase := upd s.phase t (.waiting op) }
  | .waiting (.create none) => some { s with phase := upd s.phase t .idle, log := s.log ++ [(t, .create none, .exception)] }
  | .waiting op => match s.owner with
    | none => some { s with owner := some t, phase := upd s.phase t (.inside op (code lib op) {}) }
    | some _ => none
  | .inside op rest l => match l.ret with
    | some r => some { s with owner := none, phase := upd s.phase t .idle, log := s.log ++ [(t, op, r)] }
    | none => match rest with
      | [] => none
      | i :: rest => match i s.mem l with
        | some x => some { s with mem := x.1, phase := upd s.phase t (.inside op rest x.2) }
        | none => none

theorem next_sound {s s' : Sys T H G A M S} {t : T} (h : next lib s t = some s') : Step lib s s' := by
  unfold next at h
  split at h
  · rename_i hp
    split at h
    · cases h
    · rename_i op rest ht; injection h with h; subst h; exact Step.call s t op rest ht hp
  · rename_i hp; injection h with h; subst h; exact Step.fail s t hp
  · rename_i op hne hp
    split at h
    · rename_i ho; injection h with h; subst h; exact Step.acquire s t op hp (fun e => hne e) ho
    · cases h
  · rename_i op rest l hp
    split at h
    · rename_i r hr; injection h with h; subst h; exact Step.release s t op rest l r hp hr
    · rename_i hr
      split at h
      · cases h
      · rename_i i rest'
        split at h
        · rename_i x hx; injection h with h; subst h; exact Step.exec s t op i rest' l x.1 x.2 hp hr hx
        · cases h

/-- The threads take steps in the given order. -/
def schedule (lib : Lib H G A M S) : Sys T H G A M S → List T → Option (Sys T H G A M S)
  | s, [] => some s
  | s, t :: ts => (next lib s t).bind (fun s' => schedule lib s' ts)

theorem schedule_sound {prog : T → List (Op H G A M)} : ∀ (ts : List T) {s s' : Sys T H G A M S}, Reach lib prog s → schedule lib s ts = some s' →
    Reach lib prog s' := by
  intro ts
  induction ts with
  | nil => intro s s' hr h; injection h with h; subst h; exact hr
  | cons t ts ih =>
    intro s s' hr h
    simp only [schedule] at h
    cases hn : next lib s t with
    | none => rw [hn] at h; cases h
    | some s1 => rw [hn] at h; exact ih (Reach.step hr (next_sound hn)) h

end Mx.Manager
