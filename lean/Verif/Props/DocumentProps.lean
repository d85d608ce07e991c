import Verif.Proofs.DocumentManager

/-!
# Properties C07-C10: documents and the document manager
Specification: `Verif/Spec/DocumentManager.lean` (a map from ids to documents), `Verif/Spec/ScoreConversions.lean`.
Executions: `Reach` in `Verif/Model/DocumentManager.lean` -- any number of threads, any calls, any interleaving.
-/
namespace Mx.Props
open Spec Mx.Convert Mx.Manager

variable {H G A M S T : Type} [DecidableEq T] {lib : Lib H G A M S} {prog : T → List (Op H G A M)}

/-! ## C09 -/

/-- **C09** Converting a rectangular partwise score to timewise succeeds, and each part has the same music in each measure. -/
theorem C09_timewise_contents (f : Fresh A M) (s : Partwise H G A M) (n : Nat) (h : Rectangular s n) :
    ∃ t, partwiseTimewise f s = some t ∧ t.header = s.header ∧ t.version = s.version ∧ t.measures.length = n ∧
      (∀ m ∈ t.measures, m.2.map Prod.fst = s.parts.map Prod.fst) ∧ ∀ id i, musicAtT t id i = musicAt s id i := by
  obtain ⟨F, hF⟩ := rect_eq f h
  obtain ⟨v, hd, ps⟩ := s
  simp only at hF
  subst hF
  refine ⟨_, tw_eq h.2.2.1 F, rfl, rfl, by simp, ?_, ?_⟩
  · intro m hm
    obtain ⟨i, _, rfl⟩ := List.mem_map.mp hm
    simp
  · intro id i
    unfold musicAtT musicAt
    simp only [List.getElem?_map]
    by_cases hi : i < n
    · rw [List.getElem?_range hi]
      simp only [Option.map_some, Option.bind_eq_bind, Option.bind_some]
      by_cases hid : id ∈ partIds hd
      · rw [find_map _ hid, find_map _ hid]
        simp only [Option.bind_some, List.getElem?_map, List.getElem?_range hi, Option.map_some]
      · have hno : ∀ {β : Type} (K : Str → β), ((partIds hd).map (fun x => (x, K x))).find? (fun p => p.1 = id) = none := by
          intro β K
          apply List.find?_eq_none.mpr
          intro x hx
          obtain ⟨y, hy, rfl⟩ := List.mem_map.mp hx
          simp only [decide_eq_true_eq]
          rintro rfl; exact hid hy
        rw [hno, hno]; rfl
    · have h1 : (List.range n)[i]? = none := by simp; omega
      rw [h1]
      simp only [Option.map_none, Option.bind_eq_bind, Option.bind_none]
      by_cases hid : id ∈ partIds hd
      · rw [find_map _ hid]
        simp only [Option.bind_some, List.getElem?_map, h1, Option.map_none, Option.bind_none]
      · have : ((partIds hd).map (fun x => (x, (List.range n).map (F x)))).find? (fun p => p.1 = id) = none := by
          apply List.find?_eq_none.mpr
          intro x hx
          obtain ⟨y, hy, rfl⟩ := List.mem_map.mp hx
          simp only [decide_eq_true_eq]
          rintro rfl; exact hid hy
        rw [this]; rfl

/-- **C09** Partwise to timewise and back, for every rectangular score: the same header, the same parts in the same order, the
same number of measures, the same music in each. -/
theorem C09_round_trip (f : Fresh A M) (s : Partwise H G A M) (n : Nat) (h : Rectangular s n) :
    ∃ t, partwiseTimewise f s = some t ∧ (timewisePartwise f t).header = s.header ∧ (timewisePartwise f t).version = s.version ∧
      (timewisePartwise f t).parts.map (fun p => (p.1, p.2.map Prod.snd)) = s.parts.map (fun p => (p.1, p.2.map Prod.snd)) := by
  obtain ⟨F, hF⟩ := rect_eq f h
  obtain ⟨v, hd, ps⟩ := s
  simp only at hF
  subst hF
  refine ⟨_, tw_eq h.2.2.1 F, rfl, rfl, ?_⟩
  rw [pw_eq h.2.2.1 (fun i => (F ((partIds hd).getLast (partIds_ne hd)) i).1) (fun id i => (F id i).2)]
  simp [List.map_map, Function.comp_def]

/-- **C09** If the attributes of each measure are the same in all parts, the score that comes back is equal to the original. -/
theorem C09_round_trip_exact (f : Fresh A M) (s : Partwise H G A M) (n : Nat) (h : Rectangular s n) (ha : SameAttributes s) :
    ∃ t, partwiseTimewise f s = some t ∧ timewisePartwise f t = s := by
  obtain ⟨F, hF⟩ := rect_eq f h
  obtain ⟨v, hd, ps⟩ := s
  simp only at hF
  subst hF
  refine ⟨_, tw_eq h.2.2.1 F, ?_⟩
  rw [pw_eq h.2.2.1 (fun i => (F ((partIds hd).getLast (partIds_ne hd)) i).1) (fun id i => (F id i).2)]
  simp only [Partwise.mk.injEq, true_and]
  apply List.map_congr_left
  intro id hid
  simp only [Prod.mk.injEq, true_and]
  have key := ha (_, _) (List.mem_map_of_mem (f := fun id => (id, (List.range n).map (F id))) (List.getLast_mem (partIds_ne hd))) (_, _)
    (List.mem_map_of_mem (f := fun id => (id, (List.range n).map (F id))) hid)
  simp only [List.map_map] at key
  apply List.map_congr_left
  intro i hi
  have := List.map_inj_left.mp key i hi
  simp only [Function.comp] at this
  rw [this]

/-- an example score with two parts of two measures, with a part group between them -/
def exScore : Partwise Unit String (Nat × Nat) String :=
  { version := some "3.0".toList, header := { other := (), groups := [], scorePart := "P1".toList, entries := [.partGroup "g", .scorePart "P2".toList] },
    parts := [("P1".toList, [((1, 200), "a"), ((2, 150), "b")]), ("P2".toList, [((1, 200), "c"), ((2, 150), "d")])] }

def exFresh : Fresh (Nat × Nat) String := ⟨[], (0, 0), ""⟩

example : Rectangular exScore 2 ∧ SameAttributes exScore := by
  refine ⟨⟨rfl, by decide, by decide, by decide⟩, by unfold SameAttributes; decide⟩

/-- its timewise form -/
def exTimewise : Timewise Unit String (Nat × Nat) String :=
  { version := some "3.0".toList, header := exScore.header,
    measures := [((1, 200), [("P1".toList, "a"), ("P2".toList, "c")]), ((2, 150), [("P1".toList, "b"), ("P2".toList, "d")])] }

example : partwiseTimewise exFresh exScore = some exTimewise := by decide +kernel

/-- **C09 does not hold for the attributes of measures**: if a measure has another width in another part, the last part wins. -/
theorem C09_attributes_of_last_part :
    ∃ t, partwiseTimewise exFresh { exScore with parts := [("P1".toList, [((1, 200), "a")]), ("P2".toList, [((1, 300), "c")])] } = some t ∧
      (timewisePartwise exFresh t).parts = [("P1".toList, [((1, 300), "a")]), ("P2".toList, [((1, 300), "c")])] :=
  ⟨{ exTimewise with measures := [((1, 300), [("P1".toList, "a"), ("P2".toList, "c")])] }, by decide +kernel, by decide +kernel⟩

/-- **C09 does not hold for ragged scores**: a part with fewer measures than another one is read past its end. -/
theorem C09_ragged_undefined :
    partwiseTimewise exFresh { exScore with parts := [("P1".toList, [((1, 200), "a"), ((2, 150), "b")]), ("P2".toList, [((1, 200), "c")])] } = none := by
  decide +kernel

/-- **C09 does not hold for parts missing from the part list**: they are dropped. -/
theorem C09_unlisted_part_lost :
    ∃ t, partwiseTimewise exFresh { exScore with parts := exScore.parts ++ [("P3".toList, [((1, 200), "x"), ((2, 150), "y")])] } = some t ∧
      timewisePartwise exFresh t = exScore := ⟨exTimewise, by decide +kernel, by decide +kernel⟩

/-! ## C10 -/

/-- **C10** For every timewise score that is rectangular: converting to partwise and back, as `getData` does, gives the same score. -/
theorem C10_timewise_unchanged (f : Fresh A M) (s : Timewise H G A M) (h : RectangularT s) :
    partwiseTimewise f (timewisePartwise f s) = some s := by
  obtain ⟨h1, h2, h3⟩ := h
  obtain ⟨v, hd, ms⟩ := s
  simp only at h1 h2 h3
  -- the score as functions
  have key : ms = (List.range ms.length).map (fun i => (((ms[i]?).map Prod.fst).getD f.attr,
      (partIds hd).map (fun id => (id, ((ms[i]?).map (musicOf f id)).getD f.music)))) := by
    apply List.ext_getElem (by simp)
    intro i g1 g2
    simp only [List.getElem_map, List.getElem_range, List.getElem?_eq_getElem g1, Option.map_some, Option.getD_some]
    apply Prod.ext
    · rfl
    · simp only
      have hm := h3 ms[i] (List.getElem_mem g1)
      rw [← hm] at h1 ⊢
      rw [List.map_map]
      conv_lhs => rw [← List.map_id (ms[i].2)]
      apply List.map_congr_left
      intro p hp
      have hf : ms[i].2.find? (fun q => q.1 = p.1) = some p := by
        obtain ⟨q, hq⟩ : ∃ q, ms[i].2.find? (fun q => q.1 = p.1) = some q := by
          cases hx : ms[i].2.find? (fun q => q.1 = p.1) with
          | some q => exact ⟨q, rfl⟩
          | none => have := List.find?_eq_none.mp hx p hp; simp at this
        have hq1 := List.find?_some hq
        have hq2 := List.mem_of_find?_eq_some hq
        rw [hq, List.inj_on_of_nodup_map h1 hq2 hp (by simpa using hq1)]
      simp only [id, Function.comp, musicOf, hf]
  have hn : 0 < ms.length := List.length_pos_iff.mpr h2
  generalize ha : (fun (i : Nat) => ((ms[i]?).map Prod.fst).getD f.attr) = a at key
  generalize hF : (fun (id : Str) (i : Nat) => ((ms[i]?).map (musicOf f id)).getD f.music) = F at key
  have key2 : ms = (List.range ms.length).map (fun i => (a i, (partIds hd).map (fun id => (id, F id i)))) := by
    rw [← ha, ← hF]; exact key
  clear key ha hF
  generalize ms.length = n at key2 hn
  subst key2
  rw [pw_eq hn a F]
  exact tw_eq hn (fun id i => (a i, F id i))

/-- **C10** In every history of calls by any threads, all answers of `getData` for the same document are the same: they are the data of
the document that was created, for partwise and for all timewise documents, rectangular or not. -/
theorem C10_getData_repeatable (s : Sys T H G A M S) (hs : Reach lib prog s) (pre post : History H G A M S) (i : Int) (r : Ret H G A M S)
    (h : s.log.map Prod.snd = pre ++ (.getData i, r) :: post) : r = dataAnswer lib (existing pre i) := by
  obtain ⟨m, hm⟩ := seq_of_reach hs
  obtain ⟨m1, m2, h1, h2⟩ := seq_cut hm h
  exact (getData_stands ((seq_inv h1).1 i) h2).1

/-- **C10** A rectangular timewise document whose data can be read is stable: no number of `getData` calls changes it. -/
theorem C10_rectangular_stable (t : Timewise H G A M) (h : RectangularT t) (hr : (lib.read (timewisePartwise lib.fresh t)).isSome) :
    Stable lib (.timewise t) := ⟨C10_timewise_unchanged lib.fresh t h, hr⟩

example : RectangularT exTimewise := ⟨by decide, by decide, by decide⟩

/-- a library that reads the music of the first part -/
def exLib : Lib Unit String (Nat × Nat) String (Bool × List String) :=
  { fresh := exFresh, read := fun p => match p.parts with | (_, ms) :: _ => if ms.any (fun m => m.2 = "bad") then none else some (false, ms.map Prod.snd) | [] => none,
    asTimewise := fun s => (true, s.2), noData := (false, []) }

/-- **C10 does not hold if the reader throws**: the document stays in the other layout and is then written as partwise. -/
theorem C10_exception_leaves_partwise :
    let bad : Timewise Unit String (Nat × Nat) String := { exTimewise with measures := [((1, 200), [("P1".toList, "bad"), ("P2".toList, "c")])] }
    ∃ m, runOp exLib (.getData 1) ({ nextId := 2, docs := fun i => if i = 1 then some (.timewise bad) else none, nextUnique := 1000000 }) =
      some (m, .exception) ∧ m.docs 1 = some (.partwise (timewisePartwise exFresh bad)) := ⟨_, rfl, rfl⟩

/-- **C10 does not hold for measures without some part**: `getData` adds an empty part to the stored document. -/
theorem C10_missing_part_is_added :
    partwiseTimewise exFresh (timewisePartwise exFresh { exTimewise with measures := [((1, 200), [("P2".toList, "c")])] }) =
      some { exTimewise with measures := [((1, 200), [("P1".toList, ""), ("P2".toList, "c")])] } := by decide +kernel

/-! ## C08 -/

/-- **C08** Every interleaving of any number of threads has the same results as calling one after the other, in the order in
which the calls released the lock; each thread's calls are in its own order. -/
theorem C08_linearizable (s : Sys T H G A M S) (hs : Reach lib prog s) :
    (∃ m, Sequential lib (s.log.map Prod.snd) m ∧ (s.owner = none → m = s.mem)) ∧
    ∀ t, prog t = (s.log.filter (fun e => e.1 = t)).map (fun e => e.2.1) ++ pending (s.phase t) ++ s.todo t := by
  refine ⟨?_, order_reach hs⟩
  cases ho : s.owner with
  | some t => obtain ⟨m, hm⟩ := seq_of_reach hs; exact ⟨m, hm, fun h => by cases h⟩
  | none =>
    have := inv_reach hs
    unfold Manager.Inv at this
    rw [ho] at this
    exact ⟨s.mem, this.2, fun _ => rfl⟩

/-- **C08** The manager is a map from ids to documents: in every history of any threads whose documents are stable (partwise, or timewise and
rectangular) each call answers what the map of the documents created and not yet destroyed says. -/
theorem C08_map (s : Sys T H G A M S) (hs : Reach lib prog s) (hst : ∀ d r, (Op.create (some d), r) ∈ s.log.map Prod.snd → Stable lib d)
    (pre post : History H G A M S) (op : Op H G A M) (r : Ret H G A M S) (h : s.log.map Prod.snd = pre ++ (op, r) :: post) :
    match op with
    | .create none => r = .exception
    | .create (some _) => ∃ i, r = .id i
    | .write i => r = .written (existing pre i)
    | .getData i => r = dataAnswer lib (existing pre i)
    | .destroy _ => r = .nothing
    | .getDocument i => r = .doc (existing pre i)
    | .getUniqueId => ∃ i, r = .id i := by
  obtain ⟨m, hm⟩ := seq_of_reach hs
  obtain ⟨m1, m2, h1, h2⟩ := seq_cut hm h
  have hd : m1.docs = existing pre := seq_stable h1 (fun d r hmem => hst d r (by rw [h]; simp [hmem]))
  cases op with
  | create d =>
    cases d with
    | none => simp only [runOp, Option.some.injEq, Prod.mk.injEq] at h2; exact h2.2.symm
    | some d =>
      rw [run_create] at h2
      cases hc : chk (m1.nextId + 1) with
      | none => rw [hc] at h2; cases h2
      | some n => rw [hc] at h2; simp only [Option.map_some, Option.some.injEq, Prod.mk.injEq] at h2; exact ⟨_, h2.2.symm⟩
  | write i => rw [run_write, hd] at h2; injection h2 with h2; injection h2 with _ h2; exact h2.symm
  | getDocument i => rw [run_getDocument, hd] at h2; injection h2 with h2; injection h2 with _ h2; exact h2.symm
  | destroy i => rw [run_destroy] at h2; injection h2 with h2; injection h2 with _ h2; exact h2.symm
  | getData i => exact (getData_stands ((seq_inv h1).1 i) h2).1
  | getUniqueId =>
    rw [run_unique] at h2
    cases hc : chk (m1.nextUnique + 1) with
    | none => rw [hc] at h2; cases h2
    | some n => rw [hc] at h2; simp only [Option.map_some, Option.some.injEq, Prod.mk.injEq] at h2; exact ⟨_, h2.2.symm⟩

/-- **C08** Threads cannot block each other for ever: while the counters are in range, as long as some thread has a call to make or is in one,
some thread can take a step. -/
theorem C08_no_deadlock (s : Sys T H G A M S) (hs : Reach lib prog s)
    (h1 : (((s.log.map Prod.snd).filterMap createdId).length : Int) < INT_MAX - 1)
    (h2 : (((s.log.map Prod.snd).filterMap uniqueId).length : Int) < INT_MAX - 1000000)
    (t : T) (ht : pending (s.phase t) ++ s.todo t ≠ []) : ∃ s', Step lib s s' := by
  have hi := inv_reach hs
  unfold Manager.Inv at hi
  cases ho : s.owner with
  | none =>
    rw [ho] at hi
    cases hp : s.phase t with
    | idle =>
      rw [hp] at ht
      cases htd : s.todo t with
      | nil => rw [htd] at ht; exact absurd rfl ht
      | cons op rest => exact ⟨_, Step.call s t op rest htd hp⟩
    | waiting op =>
      by_cases hc : ∃ d, op = .create d ∧ d = none
      · obtain ⟨_, rfl, rfl⟩ := hc
        exact ⟨_, Step.fail s t hp⟩
      · exact ⟨_, Step.acquire s t op hp (fun e => hc ⟨none, e, rfl⟩) ho⟩
    | inside op rest l =>
      have := hi.1 t
      rw [hp] at this; cases this
  | some o =>
    rw [ho] at hi
    obtain ⟨_, op, rest, l, m0, g1, g2, g3, g4⟩ := hi
    have hd := run_defined g3 h1 h2 op
    rw [g4] at hd
    cases hr : l.ret with
    | some r => exact ⟨_, Step.release s o op rest l r g1 hr⟩
    | none =>
      unfold runSteps at hd
      simp only [hr] at hd
      cases rest with
      | nil => simp at hd
      | cons i rest =>
        cases hx : i s.mem l with
        | none => simp [hx] at hd
        | some x => exact ⟨_, Step.exec s o op i rest l x.1 x.2 g1 hr hx⟩

/-! ## C07 -/

/-- **C07** In every execution by any number of threads the ids of all documents ever created are different -- they are 1, 2, 3, ...
in the order of creation, whatever has been destroyed in between -- and so are the numbers given out by `getUniqueId`. -/
theorem C07_ids_unique (s : Sys T H G A M S) (hs : Reach lib prog s) :
    let ids := (s.log.map Prod.snd).filterMap createdId
    let uniques := (s.log.map Prod.snd).filterMap uniqueId
    ids.Nodup ∧ uniques.Nodup ∧ ids = (List.range ids.length).map (fun (k : Nat) => 1 + (k : Int)) := by
  obtain ⟨m, hm⟩ := seq_of_reach hs
  obtain ⟨_, _, h3, _, h5⟩ := seq_inv hm
  have nd : ∀ (n : Nat) (c : Int), ((List.range n).map (fun (k : Nat) => c + (k : Int))).Nodup := by
    intro n c
    rw [List.nodup_map_iff (fun a b h => by omega)]
    exact List.nodup_range
  refine ⟨?_, ?_, h3⟩
  · exact h3 ▸ nd _ _
  · exact h5 ▸ nd _ _

/-- **C07** The counter overflows only after 2147483646 documents (or 2146483647 unique ids); before that no call is undefined, in whatever state
the calls of all threads have brought the manager. -/
theorem C07_defined (h : History H G A M S) (m : Mem H G A M) (hs : Sequential lib h m)
    (h1 : ((h.filterMap createdId).length : Int) < 2147483646) (h2 : ((h.filterMap uniqueId).length : Int) < 2146483647) (op : Op H G A M) :
    (runOp lib op m).isSome := run_defined hs h1 h2 op

/-- two threads: the first creates a document and destroys it, the second creates one -/
def exProg : Bool → List (Op Unit String (Nat × Nat) String)
  | false => [.create (some (.partwise exScore)), .destroy 1]
  | true => [.create (some (.timewise exTimewise)), .getData 1]

/-- An execution of them in which the threads alternate: the second thread creates its document first, and its `getData`
comes after the first thread has destroyed it. -/
example : ∃ s, Reach exLib exProg s ∧
    s.log.map Prod.snd = [(.create (some (.timewise exTimewise)), .id 1), (.create (some (.partwise exScore)), .id 2), (.destroy 1, .nothing),
      (.getData 1, .data (false, []))] :=
  ⟨_, schedule_sound [false, true, true, true, true, true, true, true, false, false, false, true, false, false, false,
    false, false, false, false, false, false, true, true, true] Reach.start rfl, rfl⟩

end Mx.Props
