import Verif.Spec.LazyMembers

/-
Threads that ask for members which are created on first use.
-/
open Mx.Spec
namespace Mx.Lazy

/-! ## The functions -/

def freeB (c : LCls) (code : List Instr) : Bool := code.all fun
  | .load i => (target c i).isNone
  | _ => false

def getter (i : Nat) : List Instr := [.lock, .ensure i, .load i, .unlock]

def codeB (c : LCls) (code : List Instr) : Bool := freeB c code || (lazyOf c).any fun p => decide (code = getter p.1)

theorem code_check (c : LCls) : (constOf c).all (codeB c) = true := by
  cases c <;> first | decide +kernel | rfl

theorem code_ok {c : LCls} {code : List Instr} (h : code ∈ constOf c) : freeB c code = true ∨ ∃ i k, target c i = some k ∧ code = getter i := by
  have h1 := List.all_eq_true.mp (code_check c) code h
  unfold codeB at h1
  rw [Bool.or_eq_true] at h1
  rcases h1 with h1 | h1
  · exact .inl h1
  · obtain ⟨p, hp, h2⟩ := List.any_eq_true.mp h1
    rw [decide_eq_true_eq] at h2
    refine .inr ⟨p.1, ?_⟩
    have : (target c p.1).isSome = true := by
      unfold target
      rw [Option.isSome_map, List.find?_isSome]
      exact ⟨p, hp, by simp⟩
    obtain ⟨k, hk⟩ := Option.isSome_iff_exists.mp this
    exact ⟨k, hk, h2⟩

/-! ## Cells -/

theorem cell_eq {h : Heap} {o i : Nat} {x : Obj} (hx : h[o]? = some x) : h.cell? o i = x.cells[i]? := by
  unfold Heap.cell?
  rw [hx]
  rfl

theorem put_get {h : Heap} {o i : Nat} {v : Cell} {x : Obj} (hx : h[o]? = some x) (b : Nat) : (h.put o i v)[b]? = if b = o then some ⟨x.cls, x.cells.set i v⟩ else h[b]? := by
  unfold Heap.put
  rw [hx]
  simp only
  rw [List.getElem?_set]
  have hl := (List.getElem?_eq_some_iff.mp hx).1
  by_cases e : o = b
  · subst e; simp [hl]
  · rw [if_neg e, if_neg (fun e' => e e'.symm)]

theorem put_length {h : Heap} {o i : Nat} {v : Cell} : (h.put o i v).length = h.length := by
  unfold Heap.put
  split
  · rfl
  · rw [List.length_set]

/-! ## Views -/

variable {protos : Protos}

def ClosedRefs (h : Heap) : Prop := ∀ x ∈ h, ∀ as, Cell.refs as ∈ x.cells → ∀ a ∈ as, a < h.length

theorem closed_of {h : Heap} (hh : HeapOk h) : ClosedRefs h := fun x hx => (hh x hx).1

theorem mapIdx_congr' {α β : Type} {l : List α} {f g : Nat → α → β} (h : ∀ i x, l[i]? = some x → f i x = g i x) : l.mapIdx f = l.mapIdx g := by
  apply List.ext_getElem?
  intro i
  rw [List.getElem?_mapIdx, List.getElem?_mapIdx]
  cases hx : l[i]? with
  | none => rfl
  | some x => simp [h i x hx]

theorem view_append {h : Heap} (hc : ClosedRefs h) (k : Heap) : ∀ (n a : Nat), a < h.length → view protos n (h ++ k) a = view protos n h a
  | 0, _, _ => rfl
  | n + 1, a, ha => by
    rw [view, view, List.getElem?_append_left ha]
    have hx := List.getElem?_eq_getElem ha
    rw [hx]
    simp only
    congr 1
    apply mapIdx_congr'
    intro i y hy
    cases y with
    | val => rfl
    | null => rfl
    | refs as =>
      simp only [seen]
      congr 1
      apply List.map_congr_left
      intro b hb
      exact view_append hc k n b (hc _ (List.getElem_mem ha) as (List.mem_of_getElem? hy) b hb)

theorem view_shift (h : Heap) {k : Heap} (hc : ClosedRefs k) : ∀ (n a : Nat), a < k.length → view protos n (h ++ k.map (Obj.shift h.length)) (h.length + a) = view protos n k a
  | 0, _, _ => rfl
  | n + 1, a, ha => by
    rw [view, view, List.getElem?_append_right (Nat.le_add_right ..), Nat.add_sub_cancel_left, List.getElem?_map]
    have hx := List.getElem?_eq_getElem ha
    rw [hx]
    simp only [Option.map_some, Obj.shift]
    congr 1
    apply List.ext_getElem?
    intro i
    rw [List.getElem?_mapIdx, List.getElem?_mapIdx, List.getElem?_map]
    cases hy : k[a].cells[i]? with
    | none => rfl
    | some y =>
      simp only [Option.map_some, Option.some.injEq]
      cases y with
      | val => rfl
      | null => rfl
      | refs as =>
        simp only [Cell.shift, seen, List.map_map]
        congr 1
        apply List.map_congr_left
        intro b hb
        exact view_shift h hc n b (hc _ (List.getElem_mem ha) as (List.mem_of_getElem? hy) b hb)

theorem view_put {h : Heap} {o i a : Nat} {x : Obj} {c : LCls} (hx : h[o]? = some x) (hi : x.cells[i]? = some .null) (ht : target x.cls i = some c) (hv : ∀ n, view protos n h a = view protos n (protos c) 0) :
    ∀ (n b : Nat), view protos n (h.put o i (.refs [a])) b = view protos n h b
  | 0, _ => rfl
  | n + 1, b => by
    rw [view, view, put_get hx]
    have ih := view_put hx hi ht hv n
    by_cases e : b = o
    · subst e
      rw [if_pos rfl, hx]
      simp only
      congr 1
      apply List.ext_getElem?
      intro j
      rw [List.getElem?_mapIdx, List.getElem?_mapIdx, List.getElem?_set]
      by_cases ej : i = j
      · subst ej
        rw [if_pos rfl, if_pos (List.getElem?_eq_some_iff.mp hi).1, hi]
        simp only [Option.map_some, seen, ht, List.map_cons, List.map_nil, ih, hv]
      · rw [if_neg ej]
        cases hy : x.cells[j]? with
        | none => rfl
        | some y =>
          simp only [Option.map_some]
          cases y with
          | val => rfl
          | null => rfl
          | refs as =>
            simp only [seen]
            rw [List.map_congr_left fun b _ => ih b]
    · rw [if_neg e]
      cases hb : h[b]? with
      | none => rfl
      | some y =>
        simp only
        congr 1
        apply mapIdx_congr'
        intro j z _
        cases z with
        | val => rfl
        | null => rfl
        | refs as =>
          simp only [seen]
          rw [List.map_congr_left fun b _ => ih b]

/-! ## The invariant -/

/-- What a thread is doing in a call, when `own` says that it has locked the object. -/
inductive Phase (protos : Protos) (h : Heap) (own : Prop) (o : Nat) (c : LCls) : List Instr → Prop where
  | free (rest : List Instr) : freeB c rest = true → Phase protos h own o c rest
  | wait (i : Nat) (k : LCls) : target c i = some k → Phase protos h own o c (getter i)
  | ensure (i : Nat) (k : LCls) : target c i = some k → own → Phase protos h own o c [.ensure i, .load i, .unlock]
  | create (i : Nat) (k : LCls) : target c i = some k → own → h.cell? o i = some .null → Phase protos h own o c [.create i, .load i, .unlock]
  | store (i a : Nat) (k : LCls) : target c i = some k → own → h.cell? o i = some .null → a < h.length → (∀ n, view protos n h a = view protos n (protos k) 0) →
      Phase protos h own o c [.store i a, .load i, .unlock]
  | load (i : Nat) (k : LCls) : target c i = some k → own → h.cell? o i ≠ some .null → Phase protos h own o c [.load i, .unlock]
  | unlock : own → Phase protos h own o c [.unlock]

theorem Phase.mono {h h' : Heap} {own own' : Prop} {o : Nat} {c : LCls} {rest : List Instr} (hp : Phase protos h own o c rest) (ho : own → own') (hc : own → ∀ i, h'.cell? o i = h.cell? o i)
    (hv : ∀ a, a < h.length → a < h'.length ∧ ∀ n, view protos n h' a = view protos n h a) : Phase protos h' own' o c rest := by
  cases hp with
  | free _ h1 => exact .free _ h1
  | wait i k h1 => exact .wait i k h1
  | ensure i k h1 h2 => exact .ensure i k h1 (ho h2)
  | create i k h1 h2 h3 => exact .create i k h1 (ho h2) (by rw [hc h2]; exact h3)
  | store i a k h1 h2 h3 h4 h5 => exact .store i a k h1 (ho h2) (by rw [hc h2]; exact h3) (hv a h4).1 (fun n => ((hv a h4).2 n).trans (h5 n))
  | load i k h1 h2 h3 => exact .load i k h1 (ho h2) (by rw [hc h2]; exact h3)
  | unlock h1 => exact .unlock (ho h1)

/-- What has been read is still so, and it is not a null pointer that will be set. -/
def Told (h : Heap) (o i : Nat) (v : Cell) : Prop := ∃ x, h[o]? = some x ∧ x.cells[i]? = some v ∧ (v = .null → target x.cls i = none)

/-- How the objects may change. -/
structure Grow (protos : Protos) (h h' : Heap) : Prop where
  len : h.length ≤ h'.length
  keep : ∀ (o : Nat) (x : Obj), h[o]? = some x → ∃ x' : Obj, h'[o]? = some x' ∧ x'.cls = x.cls ∧ x'.cells.length = x.cells.length ∧ ∀ (i : Nat) (v : Cell), x.cells[i]? = some v → (v = .null → target x.cls i = none) → x'.cells[i]? = some v
  same : ∀ a, a < h.length → ∀ n, view protos n h' a = view protos n h a

theorem Grow.refl (h : Heap) : Grow protos h h := ⟨Nat.le_refl _, fun _ x hx => ⟨x, hx, rfl, rfl, fun _ _ h _ => h⟩, fun _ _ _ => rfl⟩

theorem Grow.told {h h' : Heap} (g : Grow protos h h') {o i : Nat} {v : Cell} (ht : Told h o i v) : Told h' o i v := by
  obtain ⟨x, h1, h2, h3⟩ := ht
  obtain ⟨x', k1, k2, _, k4⟩ := g.keep o x h1
  exact ⟨x', k1, k4 i v h2 h3, fun e => by rw [k2]; exact h3 e⟩

structure Call (protos : Protos) (s : State) (t : Nat) (r : Run) : Prop where
  phase : ∃ x, s.heap[r.obj]? = some x ∧ Phase protos s.heap (s.owner r.obj = some t) r.obj x.cls r.rest ∧ ∀ i, Instr.load i ∈ r.rest → i < x.cells.length
  got : ∀ p ∈ r.got, Told s.heap r.obj p.1 p.2

/-- The thread has locked the object. -/
def Holds (r : Run) : Prop := Instr.unlock ∈ r.rest ∧ Instr.lock ∉ r.rest

structure Inv (protos : Protos) (h0 : Heap) (s : State) : Prop where
  ok : HeapOk s.heap
  calls : ∀ t r, s.run t = some r → Call protos s t r
  owners : ∀ o t, s.owner o = some t → ∃ r, s.run t = some r ∧ r.obj = o ∧ Holds r
  log : ∀ p ∈ s.log, Told s.heap p.1 p.2.1 p.2.2
  grown : Grow protos h0 s.heap

theorem Grow.trans {a b c : Heap} (g : Grow protos a b) (g' : Grow protos b c) : Grow protos a c := by
  refine ⟨Nat.le_trans g.len g'.len, ?_, fun x hx n => (g'.same x (Nat.lt_of_lt_of_le hx g.len) n).trans (g.same x hx n)⟩
  intro o x hx
  obtain ⟨y, h1, h2, h3, h4⟩ := g.keep o x hx
  obtain ⟨z, k1, k2, k3, k4⟩ := g'.keep o y h1
  exact ⟨z, k1, k2.trans h2, k3.trans h3, fun i v hv hn => k4 i v (h4 i v hv hn) fun e => by rw [h2]; exact hn e⟩

theorem grow_append {h : Heap} (hh : HeapOk h) (k : Heap) : Grow protos h (h ++ k) := by
  refine ⟨by simp, ?_, fun a ha n => view_append (closed_of hh) k n a ha⟩
  intro o x hx
  exact ⟨x, by rw [List.getElem?_append_left (List.getElem?_eq_some_iff.mp hx).1]; exact hx, rfl, rfl, fun _ _ h _ => h⟩

theorem grow_put {h : Heap} {o i a : Nat} {x : Obj} {c : LCls} (hx : h[o]? = some x) (hi : x.cells[i]? = some .null) (ht : target x.cls i = some c) (hv : ∀ n, view protos n h a = view protos n (protos c) 0) :
    Grow protos h (h.put o i (.refs [a])) := by
  refine ⟨by rw [put_length]; exact Nat.le_refl _, ?_, fun b _ n => view_put hx hi ht hv n b⟩
  intro b y hy
  rw [put_get hx]
  by_cases e : b = o
  · subst e
    rw [if_pos rfl]
    cases hx.symm.trans hy
    refine ⟨_, rfl, rfl, by simp, ?_⟩
    intro j v hj hn
    simp only
    rw [List.getElem?_set]
    by_cases ej : i = j
    · subst ej
      cases hi.symm.trans hj
      rw [hn rfl] at ht
      cases ht
    · rw [if_neg ej]; exact hj
  · rw [if_neg e]
    exact ⟨y, hy, rfl, rfl, fun _ _ h _ => h⟩

theorem ok_append {h : Heap} (hh : HeapOk h) {k : Heap} (hk : HeapOk k) : HeapOk (h ++ k.map (Obj.shift h.length)) := by
  intro x hx
  rcases List.mem_append.mp hx with hx | hx
  · refine ⟨?_, (hh x hx).2⟩
    intro as has a ha
    have := (hh x hx).1 as has a ha
    rw [List.length_append]
    omega
  · obtain ⟨y, hy, rfl⟩ := List.mem_map.mp hx
    obtain ⟨h1, h2, h3⟩ := hk y hy
    refine ⟨?_, ?_, ?_⟩
    · intro as has a ha
      simp only [Obj.shift, List.mem_map] at has
      obtain ⟨z, hz, e⟩ := has
      cases z with
      | null => cases e
      | val => cases e
      | refs bs =>
        simp only [Cell.shift, Cell.refs.injEq] at e
        subst e
        obtain ⟨b, hb, rfl⟩ := List.mem_map.mp ha
        have := h1 bs hz b hb
        rw [List.length_append, List.length_map]
        omega
    · intro code hc i hi
      have := h2 code hc i hi
      simpa [Obj.shift] using this
    · intro i c hc
      simp only [Obj.shift, List.getElem?_map]
      rcases h3 i c hc with e | ⟨a, e⟩
      · left; rw [e]; rfl
      · right; exact ⟨h.length + a, by rw [e]; rfl⟩

theorem ok_put {h : Heap} (hh : HeapOk h) {o i a : Nat} {x : Obj} (hx : h[o]? = some x) (ha : a < h.length) : HeapOk (h.put o i (.refs [a])) := by
  intro y hy
  obtain ⟨b, hb⟩ := List.mem_iff_getElem?.mp hy
  rw [put_get hx] at hb
  rw [put_length]
  by_cases e : b = o
  · rw [if_pos e, Option.some.injEq] at hb
    subst hb
    obtain ⟨h1, h2, h3⟩ := hh x (List.mem_of_getElem? hx)
    refine ⟨?_, ?_, ?_⟩
    · intro as has c hc
      rcases List.mem_or_eq_of_mem_set has with h | h
      · exact h1 as h c hc
      · cases h
        rw [List.mem_singleton] at hc
        subst hc
        exact ha
    · intro code hc j hj
      have := h2 code hc j hj
      simpa using this
    · intro j c hc
      simp only
      rw [List.getElem?_set]
      by_cases ej : i = j
      · subst ej
        rw [if_pos rfl]
        have hl : i < x.cells.length := by
          rcases h3 i c hc with h | ⟨_, h⟩ <;> exact (List.getElem?_eq_some_iff.mp h).1
        rw [if_pos hl]
        exact .inr ⟨a, rfl⟩
      · rw [if_neg ej]; exact h3 j c hc
  · rw [if_neg e] at hb
    exact hh y (List.mem_of_getElem? hb)

/-- A step of thread `t`, seen from all others: what they rely on does not change. -/
theorem inv_step {h0 : Heap} {s s' : State} (inv : Inv protos h0 s) (t o : Nat) {r : Run} (hr : s.run t = some r) (hro : r.obj = o) (r' : Option Run) (hrun : s'.run = upd s.run t r')
    (hg : Grow protos s.heap s'.heap) (hok : HeapOk s'.heap) (hlog : ∀ p ∈ s'.log, Told s'.heap p.1 p.2.1 p.2.2)
    (hown : s'.owner = s.owner ∨ (s.owner o = none ∧ s'.owner = upd s.owner o (some t)) ∨ (s.owner o = some t ∧ s'.owner = upd s.owner o none))
    (hcells : (∀ b i, b < s.heap.length → s'.heap.cell? b i = s.heap.cell? b i) ∨ (s.owner o = some t ∧ ∀ b i, b ≠ o → s'.heap.cell? b i = s.heap.cell? b i))
    (hmine : ∀ q, r' = some q → Call protos s' t q)
    (hhold : s'.owner o = some t → ∃ q, r' = some q ∧ q.obj = o ∧ Holds q) (hother : ∀ b, s.owner b = some t → b = o) : Inv protos h0 s' := by
  refine ⟨hok, ?_, ?_, hlog, inv.grown.trans hg⟩
  · intro u q hq
    rw [hrun] at hq
    unfold upd at hq
    by_cases e : u = t
    · subst e
      rw [if_pos rfl] at hq
      exact hmine q hq
    · rw [if_neg e] at hq
      obtain ⟨⟨x, h1, h2, h3⟩, h4⟩ := inv.calls u q hq
      obtain ⟨x', k1, k2, k3, k4⟩ := hg.keep _ x h1
      refine ⟨⟨x', k1, ?_, fun i hi => by rw [k3]; exact h3 i hi⟩, fun p hp => hg.told (h4 p hp)⟩
      rw [k2]
      refine h2.mono ?_ ?_ (fun a ha => ⟨Nat.lt_of_lt_of_le ha hg.len, fun n => hg.same a ha n⟩)
      · intro ho
        rcases hown with hw | ⟨hw, hw'⟩ | ⟨hw, hw'⟩
        · rw [hw]; exact ho
        · rw [hw']; unfold upd
          by_cases eo : q.obj = o
          · rw [eo, hw] at ho; cases ho
          · rw [if_neg eo]; exact ho
        · rw [hw']; unfold upd
          by_cases eo : q.obj = o
          · rw [eo, hw] at ho; exact absurd (Option.some.inj ho).symm e
          · rw [if_neg eo]; exact ho
      · intro ho i
        rcases hcells with hcl | ⟨hw, hcl⟩
        · exact hcl _ i (List.getElem?_eq_some_iff.mp h1).1
        · refine hcl _ i ?_
          intro eo
          rw [eo, hw] at ho
          exact e (Option.some.inj ho).symm
  · intro b u hb
    by_cases e : u = t
    · subst e
      by_cases eb : b = o
      · subst eb
        obtain ⟨q, h1, h2, h3⟩ := hhold hb
        refine ⟨q, ?_, h2, h3⟩
        rw [hrun]
        unfold upd
        rw [if_pos rfl]; exact h1
      · have : s.owner b = some u := by
          rcases hown with hw | ⟨_, hw⟩ | ⟨_, hw⟩
          · rw [hw] at hb; exact hb
          · rw [hw] at hb; unfold upd at hb; rw [if_neg eb] at hb; exact hb
          · rw [hw] at hb; unfold upd at hb; rw [if_neg eb] at hb; exact hb
        exact absurd (hother b this) eb
    · have : s.owner b = some u := by
        rcases hown with hw | ⟨_, hw⟩ | ⟨_, hw⟩
        · rw [hw] at hb; exact hb
        · rw [hw] at hb; unfold upd at hb
          by_cases eb : b = o
          · rw [if_pos eb] at hb; exact absurd (Option.some.inj hb).symm e
          · rw [if_neg eb] at hb; exact hb
        · rw [hw] at hb; unfold upd at hb
          by_cases eb : b = o
          · rw [if_pos eb] at hb; cases hb
          · rw [if_neg eb] at hb; exact hb
      obtain ⟨q, h1, h2, h3⟩ := inv.owners b u this
      refine ⟨q, ?_, h2, h3⟩
      rw [hrun]
      unfold upd
      rw [if_neg e]; exact h1

theorem inv_start {h0 : Heap} {s : State} (inv : Inv protos h0 s) {t o : Nat} {x : Obj} {code : List Instr} (hr : s.run t = none) (hx : s.heap[o]? = some x) (hc : code ∈ constOf x.cls) : Inv protos h0 (start t o code s) := by
  refine ⟨inv.ok, ?_, ?_, inv.log, inv.grown⟩
  · intro u q hq
    simp only [start, upd] at hq
    by_cases e : u = t
    · rw [if_pos e, Option.some.injEq] at hq
      subst hq
      refine ⟨⟨x, hx, ?_, (inv.ok x (List.mem_of_getElem? hx)).2.1 code hc⟩, by simp⟩
      rcases code_ok hc with h | ⟨i, k, h1, h2⟩
      · exact .free _ h
      · subst h2; exact .wait i k h1
    · rw [if_neg e] at hq
      obtain ⟨h1, h2⟩ := inv.calls u q hq
      exact ⟨h1, h2⟩
  · intro b u hb
    obtain ⟨q, h1, h2, h3⟩ := inv.owners b u hb
    refine ⟨q, ?_, h2, h3⟩
    simp only [start, upd]
    by_cases e : u = t
    · subst e; rw [hr] at h1; cases h1
    · rw [if_neg e]; exact h1

theorem free_tail {c : LCls} {w : Instr} {rest : List Instr} (h : freeB c (w :: rest) = true) : (∃ i, w = .load i ∧ target c i = none) ∧ freeB c rest = true := by
  unfold freeB at h ⊢
  rw [List.all_cons, Bool.and_eq_true] at h
  refine ⟨?_, h.2⟩
  cases w with
  | load i => exact ⟨i, rfl, by simpa using h.1⟩
  | _ => cases h.1

theorem free_not_holds {c : LCls} {rest : List Instr} (h : freeB c rest = true) : Instr.unlock ∉ rest := by
  intro hm
  have := List.all_eq_true.mp h _ hm
  cases this

theorem inv_next {h0 : Heap} (hp : ProtosOk protos) {s s' : State} (inv : Inv protos h0 s) (t : Nat) (hs : step protos t s = some s') : Inv protos h0 s' := by
  cases hr : s.run t with
  | none => simp only [step, hr] at hs; cases hs
  | some r =>
    obtain ⟨o, rest, got⟩ := r
    obtain ⟨⟨x, hx, hph, hld⟩, hgot⟩ := inv.calls t _ hr
    simp only at hx hph hld hgot
    have hother : ∀ b, s.owner b = some t → b = o := by
      intro b hb
      obtain ⟨q, h1, h2, _⟩ := inv.owners b t hb
      rw [hr, Option.some.injEq] at h1
      subst h1
      exact h2.symm
    have hnotown : (∀ q : Run, q = ⟨o, rest, got⟩ → ¬ Holds q) → s.owner o ≠ some t := by
      intro hq ho
      obtain ⟨q, h1, _, h3⟩ := inv.owners o t ho
      rw [hr, Option.some.injEq] at h1
      exact hq q h1.symm h3
    cases hph with
    | free _ hf =>
      have hno : s.owner o ≠ some t := hnotown (fun q e hh => by subst e; exact free_not_holds hf hh.1)
      cases rest with
      | nil =>
        simp only [step, hr, Option.some.injEq] at hs
        subst hs
        refine inv_step inv t o hr rfl none rfl (Grow.refl _) inv.ok ?_ (.inl rfl) (.inl fun _ _ _ => rfl) (by simp) (fun h => absurd h hno) hother
        intro p hpm
        rcases List.mem_append.mp hpm with h | h
        · exact inv.log p h
        · obtain ⟨q, hq, rfl⟩ := List.mem_map.mp h
          exact hgot q hq
      | cons w rest =>
        obtain ⟨⟨i, rfl, ht⟩, hf2⟩ := free_tail hf
        have hi := hld i (by simp)
        simp only [step, hr, cell_eq hx, List.getElem?_eq_getElem hi, Option.some.injEq] at hs
        subst hs
        refine inv_step inv t o hr rfl _ rfl (Grow.refl _) inv.ok inv.log (.inl rfl) (.inl fun _ _ _ => rfl) ?_ (fun h => absurd h hno) hother
        intro q hq
        rw [Option.some.injEq] at hq
        subst hq
        refine ⟨⟨x, hx, .free _ hf2, fun j hj => hld j (by simp [hj])⟩, ?_⟩
        intro p hpm
        rcases List.mem_append.mp hpm with h | h
        · exact hgot p h
        · rw [List.mem_singleton] at h
          subst h
          exact ⟨x, hx, List.getElem?_eq_getElem hi, fun _ => ht⟩
    | wait i k ht =>
      simp only [getter, step] at hr hs
      rw [hr] at hs
      simp only at hs
      split at hs
      · rename_i hfree
        rw [Option.some.injEq] at hs
        subst hs
        refine inv_step inv t o hr rfl _ rfl (Grow.refl _) inv.ok inv.log (.inr (.inl ⟨hfree, rfl⟩)) (.inl fun _ _ _ => rfl) ?_ (fun _ => ⟨_, rfl, rfl, by simp [Holds]⟩) hother
        intro q hq
        rw [Option.some.injEq] at hq
        subst hq
        exact ⟨⟨x, hx, .ensure i k ht (by simp [upd]), fun j hj => hld j (by simp [getter] at hj ⊢; exact hj)⟩, hgot⟩
      · cases hs
    | ensure i k ht how =>
      have hld' : ∀ j, Instr.load j ∈ [Instr.load i, Instr.unlock] → j < x.cells.length := fun j hj => hld j (by simp at hj ⊢; exact hj)
      simp only [step] at hs
      rw [hr] at hs
      simp only at hs
      split at hs
      · rename_i hnull
        rw [Option.some.injEq] at hs
        subst hs
        refine inv_step inv t o hr rfl _ rfl (Grow.refl _) inv.ok inv.log (.inl rfl) (.inl fun _ _ _ => rfl) ?_ (fun _ => ⟨_, rfl, rfl, by simp [Holds]⟩) hother
        intro q hq
        rw [Option.some.injEq] at hq
        subst hq
        exact ⟨⟨x, hx, .create i k ht how hnull, fun j hj => hld' j (by simp at hj ⊢; exact hj)⟩, hgot⟩
      · rename_i hnull
        rw [Option.some.injEq] at hs
        subst hs
        refine inv_step inv t o hr rfl _ rfl (Grow.refl _) inv.ok inv.log (.inl rfl) (.inl fun _ _ _ => rfl) ?_ (fun _ => ⟨_, rfl, rfl, by simp [Holds]⟩) hother
        intro q hq
        rw [Option.some.injEq] at hq
        subst hq
        exact ⟨⟨x, hx, .load i k ht how hnull, hld'⟩, hgot⟩
    | create i k ht how hnull =>
      have hld' : ∀ j, Instr.load j ∈ [Instr.load i, Instr.unlock] → j < x.cells.length := fun j hj => hld j (by simp at hj ⊢; exact hj)
      simp only [step] at hs
      rw [hr] at hs
      simp only [hx, Option.bind_some, ht, Option.some.injEq] at hs
      subst hs
      have hg : Grow protos s.heap (s.heap ++ (protos k).map (Obj.shift s.heap.length)) := grow_append inv.ok _
      obtain ⟨hk, y, hy, _⟩ := hp k
      have hl := (List.getElem?_eq_some_iff.mp hy).1
      refine inv_step inv t o hr rfl _ rfl hg (ok_append inv.ok hk) (fun p hpm => hg.told (inv.log p hpm)) (.inl rfl) (.inl ?_) ?_ (fun _ => ⟨_, rfl, rfl, by simp [Holds]⟩) hother
      · intro b j hb
        simp only [Heap.cell?]
        rw [List.getElem?_append_left hb]
      · intro q hq
        rw [Option.some.injEq] at hq
        subst hq
        have hx' : (s.heap ++ (protos k).map (Obj.shift s.heap.length))[o]? = some x := by rw [List.getElem?_append_left (List.getElem?_eq_some_iff.mp hx).1]; exact hx
        refine ⟨⟨x, hx', .store i _ k ht how ?_ ?_ ?_, fun j hj => hld' j (by simp at hj ⊢; exact hj)⟩, fun p hpm => hg.told (hgot p hpm)⟩
        · rw [cell_eq hx']; rw [cell_eq hx] at hnull; exact hnull
        · simp only [List.length_append, List.length_map]; omega
        · intro n
          exact view_shift s.heap (closed_of hk) n 0 hl
    | store i a k ht how hnull ha hv =>
      have hld' : ∀ j, Instr.load j ∈ [Instr.load i, Instr.unlock] → j < x.cells.length := fun j hj => hld j (by simp at hj ⊢; exact hj)
      have hnull' := hnull
      rw [cell_eq hx] at hnull'
      simp only [step] at hs
      rw [hr] at hs
      simp only [Option.some.injEq] at hs
      subst hs
      have hg : Grow protos s.heap (s.heap.put o i (.refs [a])) := grow_put hx hnull' ht hv
      refine inv_step inv t o hr rfl _ rfl hg (ok_put inv.ok hx ha) (fun p hpm => hg.told (inv.log p hpm)) (.inl rfl) (.inr ⟨how, ?_⟩) ?_ (fun _ => ⟨_, rfl, rfl, by simp [Holds]⟩) hother
      · intro b j hb
        simp only [Heap.cell?]
        rw [put_get hx, if_neg hb]
      · intro q hq
        rw [Option.some.injEq] at hq
        subst hq
        have hx' : (s.heap.put o i (.refs [a]))[o]? = some ⟨x.cls, x.cells.set i (.refs [a])⟩ := by rw [put_get hx, if_pos rfl]
        refine ⟨⟨_, hx', .load i k ht how ?_, fun j hj => by simpa using hld' j hj⟩, fun p hpm => hg.told (hgot p hpm)⟩
        rw [cell_eq hx']
        simp [List.getElem?_set, (List.getElem?_eq_some_iff.mp hnull').1]
    | load i k ht how hnn =>
      have hi := hld i (by simp)
      have hc := List.getElem?_eq_getElem hi
      simp only [step] at hs
      rw [hr] at hs
      simp only [cell_eq hx, hc, Option.some.injEq] at hs
      subst hs
      refine inv_step inv t o hr rfl _ rfl (Grow.refl _) inv.ok inv.log (.inl rfl) (.inl fun _ _ _ => rfl) ?_ (fun _ => ⟨_, rfl, rfl, by simp [Holds]⟩) hother
      intro q hq
      rw [Option.some.injEq] at hq
      subst hq
      refine ⟨⟨x, hx, .unlock how, by simp⟩, ?_⟩
      intro p hpm
      rcases List.mem_append.mp hpm with h | h
      · exact hgot p h
      · rw [List.mem_singleton] at h
        subst h
        refine ⟨x, hx, hc, ?_⟩
        intro e
        rw [cell_eq hx, hc] at hnn
        exact absurd (congrArg some e) hnn
    | unlock how =>
      simp only [step] at hs
      rw [hr] at hs
      simp only [Option.some.injEq] at hs
      subst hs
      refine inv_step inv t o hr rfl _ rfl (Grow.refl _) inv.ok inv.log (.inr (.inr ⟨how, rfl⟩)) (.inl fun _ _ _ => rfl) ?_ ?_ hother
      · intro q hq
        rw [Option.some.injEq] at hq
        subst hq
        exact ⟨⟨x, hx, .free _ rfl, by simp⟩, hgot⟩
      · intro h
        simp only [upd, if_true] at h
        cases h

theorem inv_reach {h0 : Heap} (hp : ProtosOk protos) (hh : HeapOk h0) {s : State} (h : Reach protos constOf h0 s) : Inv protos h0 s := by
  induction h with
  | init => exact ⟨hh, by simp, by simp, by simp, Grow.refl _⟩
  | start t o x code _ h1 h2 h3 ih => exact inv_start ih h1 h2 h3
  | step t _ h1 ih => exact inv_next hp ih t h1

/-! ## Consequences -/

theorem owner_of_access {h0 : Heap} {s : State} (inv : Inv protos h0 s) {t o : Nat} {w : Instr} (hn : Next s t o w) {i : Nat} {x : Obj} (hx : s.heap[o]? = some x) {k : LCls} (ht : target x.cls i = some k)
    (ha : reads w = some i ∨ writes w = some i) : s.owner o = some t := by
  obtain ⟨rest, got, hr⟩ := hn
  obtain ⟨⟨y, hy, hph, _⟩, _⟩ := inv.calls t _ hr
  simp only at hy hph
  cases hx.symm.trans hy
  generalize hl : w :: rest = l at hph
  cases hph with
  | free _ hf =>
    subst hl
    obtain ⟨⟨j, rfl, hj⟩, _⟩ := free_tail hf
    rcases ha with ha | ha
    · simp only [reads, Option.some.injEq] at ha
      subst ha
      rw [hj] at ht
      cases ht
    · cases ha
  | wait j k' _ =>
    simp only [getter, List.cons.injEq] at hl
    obtain ⟨rfl, _⟩ := hl
    rcases ha with ha | ha <;> cases ha
  | ensure _ _ _ h => exact h
  | create _ _ _ h => exact h
  | store _ _ _ _ h => exact h
  | load _ _ _ h => exact h
  | unlock h => exact h

theorem lazy_of_write {h0 : Heap} {s : State} (inv : Inv protos h0 s) {t o : Nat} {w : Instr} (hn : Next s t o w) {i : Nat} (hw : writes w = some i) : ∃ x k, s.heap[o]? = some x ∧ target x.cls i = some k := by
  obtain ⟨rest, got, hr⟩ := hn
  obtain ⟨⟨y, hy, hph, _⟩, _⟩ := inv.calls t _ hr
  simp only at hy hph
  generalize hl : w :: rest = l at hph
  cases hph with
  | free _ hf =>
    subst hl
    obtain ⟨⟨j, rfl, _⟩, _⟩ := free_tail hf
    cases hw
  | store j a k ht =>
    simp only [List.cons.injEq] at hl
    obtain ⟨rfl, _⟩ := hl
    simp only [writes, Option.some.injEq] at hw
    subst hw
    exact ⟨y, k, hy, ht⟩
  | _ =>
    simp only [getter, List.cons.injEq] at hl
    obtain ⟨rfl, _⟩ := hl
    cases hw

theorem no_race {h0 : Heap} {s : State} (inv : Inv protos h0 s) : ¬ Race s := by
  rintro ⟨t, u, o, w, v, i, hne, h1, h2, h3, h4⟩
  obtain ⟨x, k, hx, ht⟩ := lazy_of_write inv h1 h3
  have e1 := owner_of_access inv h1 hx ht (.inr h3)
  have e2 := owner_of_access inv h2 hx ht h4
  rw [e1] at e2
  exact hne (Option.some.inj e2)

theorem can_step {h0 : Heap} (hp : ProtosOk protos) {s : State} (inv : Inv protos h0 s) {t : Nat} {r : Run} (hr : s.run t = some r) (hw : ∀ rest, r.rest = .lock :: rest → s.owner r.obj = none) : (step protos t s).isSome = true := by
  obtain ⟨o, rest, got⟩ := r
  obtain ⟨⟨x, hx, hph, hld⟩, _⟩ := inv.calls t _ hr
  simp only at hx hph hld hw
  unfold step
  rw [hr]
  cases hph with
  | free _ hf =>
    cases rest with
    | nil => rfl
    | cons w rest =>
      obtain ⟨⟨i, rfl, _⟩, _⟩ := free_tail hf
      simp only [cell_eq hx, List.getElem?_eq_getElem (hld i (by simp))]
      rfl
  | wait i k _ =>
    simp only [getter]
    rw [if_pos (hw _ rfl)]
    rfl
  | ensure i k _ _ => simp only; split <;> rfl
  | create i k ht _ _ => simp only [hx, Option.bind_some, ht]; rfl
  | store => rfl
  | load i k _ _ _ =>
    simp only [cell_eq hx, List.getElem?_eq_getElem (hld i (by simp))]
    rfl
  | unlock => rfl

theorem someone_steps {h0 : Heap} (hp : ProtosOk protos) {s : State} (inv : Inv protos h0 s) {t : Nat} (ht : s.run t ≠ none) : ∃ u, (step protos u s).isSome = true := by
  cases hr : s.run t with
  | none => exact absurd hr ht
  | some r =>
    cases ho : s.owner r.obj with
    | none => exact ⟨t, can_step hp inv hr fun _ _ => ho⟩
    | some u =>
      obtain ⟨q, h1, h2, h3⟩ := inv.owners _ u ho
      refine ⟨u, can_step hp inv h1 ?_⟩
      intro rest hq
      exact absurd (by rw [hq]; simp) h3.2

end Mx.Lazy
