import Verif.Proofs.LazyMembers

/-
C77: `const` functions of element objects may be called from several threads.
-/
open Mx.Spec Mx.Lazy
namespace Mx.Props

/-- No thread can ever write a member while another thread reads or writes it. -/
theorem C77_no_race (protos : Protos) (h : Heap) (s : State) (hp : ProtosOk protos) (hh : HeapOk h) (hr : Reach protos constOf h s) : ¬ Race s := no_race (inv_reach hp hh hr)

/-- Whatever calls have returned for a member of an object is what the member is now, so all calls have returned the same, and for a member that is created on first use it is a pointer to an object. -/
theorem C77_same_object (protos : Protos) (h : Heap) (s : State) (hp : ProtosOk protos) (hh : HeapOk h) (hr : Reach protos constOf h s) (o i : Nat) (v : Cell) (hv : (o, i, v) ∈ s.log) :
    ∃ x, s.heap[o]? = some x ∧ x.cells[i]? = some v ∧ ((target x.cls i).isSome = true → ∃ a, v = .refs [a] ∧ a < s.heap.length) ∧ ∀ w, (o, i, w) ∈ s.log → w = v := by
  have inv := inv_reach hp hh hr
  obtain ⟨x, h1, h2, h3⟩ := inv.log _ hv
  simp only at h1 h2 h3
  refine ⟨x, h1, h2, ?_, ?_⟩
  · intro ht
    obtain ⟨c, hc⟩ := Option.isSome_iff_exists.mp ht
    have hx := List.mem_of_getElem? h1
    rcases (inv.ok x hx).2.2 i c hc with e | ⟨a, e⟩
    · rw [h2, Option.some.injEq] at e
      rw [h3 e] at hc
      cases hc
    · rw [h2, Option.some.injEq] at e
      subst e
      exact ⟨a, rfl, (inv.ok x hx).1 [a] (List.mem_of_getElem? h2) a (by simp)⟩
  · intro w hw
    obtain ⟨y, k1, k2, _⟩ := inv.log _ hw
    simp only at k1 k2
    cases h1.symm.trans k1
    exact Option.some.inj (k2.symm.trans h2)

/-- As long as any thread is in a call, some thread can go on. -/
theorem C77_no_deadlock (protos : Protos) (h : Heap) (s : State) (hp : ProtosOk protos) (hh : HeapOk h) (hr : Reach protos constOf h s) (t : Nat) (ht : s.run t ≠ none) :
    ∃ u, (step protos u s).isSome = true := someone_steps hp (inv_reach hp hh hr) ht

/-- The calls change nothing that can be seen: down to any depth every object looks as it did before the first call, in whatever order the threads have taken turns. -/
theorem C77_looks_same (protos : Protos) (h : Heap) (s : State) (hp : ProtosOk protos) (hh : HeapOk h) (hr : Reach protos constOf h s) (n a : Nat) (ha : a < h.length) :
    view protos n s.heap a = view protos n h a := (inv_reach hp hh hr).grown.same a ha n

/-! ## The hypotheses are met -/

/-- New objects whose members are all null, which is so for the members that are created on first use. -/
def newObjects : Protos := fun c => [⟨c, List.replicate 25 .null⟩]

theorem newObjects_ok : ProtosOk newObjects := by
  intro c
  refine ⟨?_, ⟨c, List.replicate 25 .null⟩, rfl, rfl⟩
  intro x hx
  rw [newObjects, List.mem_singleton] at hx
  subst hx
  refine ⟨?_, ?_, ?_⟩
  · intro as has
    rw [List.mem_replicate] at has
    cases has.2
  · intro code hc i hi
    have : (constOf c).all (fun code => code.all fun w => match w with | .load i => decide (i < 25) | _ => true) = true := by
      cases c <;> first | decide +kernel | rfl
    have h1 := List.all_eq_true.mp (List.all_eq_true.mp this code hc) _ hi
    simpa using h1
  · intro i k hk
    left
    have : (lazyOf c).all (fun p => decide (p.1 < 25)) = true := by
      cases c <;> first | decide +kernel | rfl
    unfold target at hk
    rw [Option.map_eq_some_iff] at hk
    obtain ⟨p, hp, _⟩ := hk
    have h1 := List.all_eq_true.mp this p (List.mem_of_find?_eq_some hp)
    have h2 := List.find?_some hp
    simp only [decide_eq_true_eq] at h1
    have h3 : p.1 = i := Nat.eq_of_beq_eq_true h2
    rw [List.getElem?_replicate, if_pos (by omega)]

/-- The state after a list of calls and steps: `(t, some (o, code))` is a call, `(t, none)` a step of thread `t`. -/
def play (protos : Protos) : List (Nat × Option (Nat × List Instr)) → State → Option State
  | [], s => some s
  | (t, some (o, code)) :: r, s => play protos r (start t o code s)
  | (t, none) :: r, s => (step protos t s).bind (play protos r)

def callsOk (fns : LCls → List (List Instr)) (protos : Protos) : List (Nat × Option (Nat × List Instr)) → State → Bool
  | [], _ => true
  | (t, some (o, code)) :: r, s => (s.run t).isNone && (match s.heap[o]? with | some x => decide (code ∈ fns x.cls) | none => false) && callsOk fns protos r (start t o code s)
  | (t, none) :: r, s => match step protos t s with | some s' => callsOk fns protos r s' | none => true

theorem play_reach {fns : LCls → List (List Instr)} {protos : Protos} {h : Heap} : ∀ (l : List (Nat × Option (Nat × List Instr))) (s s' : State), Reach protos fns h s → callsOk fns protos l s = true → play protos l s = some s' →
    Reach protos fns h s'
  | [], s, s', hr, _, hp => by cases hp; exact hr
  | (t, some (o, code)) :: r, s, s', hr, hc, hp => by
    unfold callsOk at hc
    rw [Bool.and_eq_true, Bool.and_eq_true] at hc
    obtain ⟨⟨h1, h2⟩, h3⟩ := hc
    cases hx : s.heap[o]? with
    | none => rw [hx] at h2; cases h2
    | some x =>
      rw [hx] at h2
      exact play_reach r _ s' (.start t o x code hr (Option.isNone_iff_eq_none.mp h1) hx (of_decide_eq_true h2)) h3 hp
  | (t, none) :: r, s, s', hr, hc, hp => by
    unfold callsOk at hc
    unfold play at hp
    cases hs : step protos t s with
    | none => rw [hs] at hp; cases hp
    | some s1 =>
      rw [hs] at hc hp
      exact play_reach r s1 s' (.step t hr hs) hc hp

/-- A new note. -/
def noteHeap : Heap := newObjects .Note

def idle : State := ⟨noteHeap, fun _ => none, fun _ => none, []⟩

/-- Two threads ask the same new note for its instrument: the first one locks the note, the second one begins its call, the first one goes on to the end, then the second one. -/
def twoCalls : List (Nat × Option (Nat × List Instr)) :=
  [(0, some (0, getter 2)), (0, none), (1, some (0, getter 2))] ++ List.replicate 6 (0, none) ++ List.replicate 5 (1, none)

example : getter 2 ∈ constOf .Note := by decide +kernel

example : ∃ s, Reach newObjects constOf noteHeap s ∧ s.log = [(0, 2, .refs [1]), (0, 2, .refs [1])] ∧ s.heap.length = 2 := by
  have h : callsOk constOf newObjects twoCalls idle = true := by decide +kernel
  have h2 : ((play newObjects twoCalls idle).map fun s => (s.log, s.heap.length)) = some ([(0, 2, .refs [1]), (0, 2, .refs [1])], 2) := by decide +kernel
  rw [Option.map_eq_some_iff] at h2
  obtain ⟨s, hs, e⟩ := h2
  simp only [Prod.mk.injEq] at e
  exact ⟨s, play_reach _ _ s .init h hs, e⟩

/-! ## Other functions -/

/-- Functions that are not `const` must not be called at the same time as others: the setters of these members write without a lock, so that a race with a call that reads is possible. -/
theorem C77_setter_race : ∃ protos h s, ProtosOk protos ∧ HeapOk h ∧ Reach protos (fun c => constOf c ++ settersOf c 0) h s ∧ Race s := by
  have h : callsOk (fun c => constOf c ++ settersOf c 0) newObjects [(0, some (0, getter 2)), (0, none), (1, some (0, [.store 2 0]))] idle = true := by decide +kernel
  refine ⟨newObjects, noteHeap, _, newObjects_ok, (newObjects_ok .Note).1, play_reach _ _ _ .init h rfl, ?_⟩
  exact ⟨1, 0, 0, .store 2 0, .ensure 2, 2, by decide, ⟨_, _, rfl⟩, ⟨_, _, rfl⟩, rfl, .inl rfl⟩

/-- The same functions as they are compiled without `MX_CONST_THREAD_SAFE` (private/mx/utility/Lock.h 19-24). -/
def withoutLock (c : LCls) : List (List Instr) := (constOf c).map fun code => code.filter fun w => decide (w ≠ .lock) && decide (w ≠ .unlock)

/-- The lock is needed: without it two `const` calls can race, and two calls can return two different objects. -/
theorem C77_lock_needed : (∃ protos h s, ProtosOk protos ∧ HeapOk h ∧ Reach protos withoutLock h s ∧ Race s) ∧
    ∃ protos h s, ProtosOk protos ∧ HeapOk h ∧ Reach protos withoutLock h s ∧ ∃ o i v w, v ≠ w ∧ (o, i, v) ∈ s.log ∧ (o, i, w) ∈ s.log := by
  constructor
  · have h : callsOk withoutLock newObjects [(0, some (0, [.ensure 2, .load 2])), (0, none), (0, none), (1, some (0, [.ensure 2, .load 2]))] idle = true := by decide +kernel
    refine ⟨newObjects, noteHeap, _, newObjects_ok, (newObjects_ok .Note).1, play_reach _ _ _ .init h rfl, ?_⟩
    exact ⟨0, 1, 0, .store 2 1, .ensure 2, 2, by decide, ⟨_, _, rfl⟩, ⟨_, _, rfl⟩, rfl, .inl rfl⟩
  · have h : callsOk withoutLock newObjects ([(0, some (0, [.ensure 2, .load 2])), (0, none), (1, some (0, [.ensure 2, .load 2])), (1, none)] ++ List.replicate 4 (0, none) ++ List.replicate 4 (1, none)) idle = true := by decide +kernel
    have h2 : ((play newObjects ([(0, some (0, [.ensure 2, .load 2])), (0, none), (1, some (0, [.ensure 2, .load 2])), (1, none)] ++ List.replicate 4 (0, none) ++ List.replicate 4 (1, none)) idle).map State.log) =
        some [(0, 2, .refs [1]), (0, 2, .refs [2])] := by decide +kernel
    rw [Option.map_eq_some_iff] at h2
    obtain ⟨s, hs, e⟩ := h2
    exact ⟨newObjects, noteHeap, s, newObjects_ok, (newObjects_ok .Note).1, play_reach _ _ s .init h hs, 0, 2, .refs [1], .refs [2], by decide, by rw [e]; simp, by rw [e]; simp⟩

end Mx.Props
