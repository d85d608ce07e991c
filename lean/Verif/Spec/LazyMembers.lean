import Verif.Model.LazyMembers

/-
Threads that call functions of shared element objects.
-/
namespace Mx.Spec
open Lazy

/-- The members of the object are there, its pointers point to objects of the heap, and where something is to be created on first use there is a pointer (to one object) or null. -/
def HeapOk (h : Heap) : Prop :=
  ∀ x ∈ h, (∀ as, Cell.refs as ∈ x.cells → ∀ a ∈ as, a < h.length) ∧
    (∀ code ∈ constOf x.cls, ∀ i, Instr.load i ∈ code → i < x.cells.length) ∧
    ∀ i c, target x.cls i = some c → x.cells[i]? = some .null ∨ ∃ a, x.cells[i]? = some (.refs [a])

/-- What the constructors make: objects as above, the first one of the class asked for. -/
def ProtosOk (protos : Protos) : Prop := ∀ c, HeapOk (protos c) ∧ ∃ x, (protos c)[0]? = some x ∧ x.cls = c

/-- The states that can be reached from objects `h` when no thread is doing anything at first, in any number of steps: in each step one of the threads makes the next step of its call, or begins a call of any of the functions `fns`. -/
inductive Reach (protos : Protos) (fns : LCls → List (List Instr)) (h : Heap) : State → Prop where
  | init : Reach protos fns h ⟨h, fun _ => none, fun _ => none, []⟩
  | start {s : State} (t o : Nat) (x : Obj) (code : List Instr) : Reach protos fns h s → s.run t = none → s.heap[o]? = some x → code ∈ fns x.cls → Reach protos fns h (start t o code s)
  | step {s s' : State} (t : Nat) : Reach protos fns h s → step protos t s = some s' → Reach protos fns h s'

/-- The member that the next step of a thread reads. -/
def reads : Instr → Option Nat
  | .ensure i => some i
  | .load i => some i
  | _ => none

/-- The member that the next step of a thread writes. -/
def writes : Instr → Option Nat
  | .store i _ => some i
  | _ => none

/-- Thread `t` is about to make the step `w` on object `o`. -/
def Next (s : State) (t o : Nat) (w : Instr) : Prop := ∃ rest got, s.run t = some ⟨o, w :: rest, got⟩

/-- A data race: one thread can write a member that another one can read or write at the same moment. In C++ this is undefined behaviour. -/
def Race (s : State) : Prop :=
  ∃ t u o w v i, t ≠ u ∧ Next s t o w ∧ Next s u o v ∧ writes w = some i ∧ (reads v = some i ∨ writes v = some i)

/-- All that can be seen of an object down to a depth: its class and its members. A member that has not been created yet looks like a new object. -/
inductive View where
  | deep
  | node (c : LCls) (members : List View)
  | refs (vs : List View)
  | val (v : Nat)
  | null

/-- What is seen of a member, when `sub` is what is seen of an object one level down. -/
def seen (sub : Heap → Nat → View) (protos : Protos) (h : Heap) (c : LCls) (i : Nat) : Cell → View
  | .refs as => .refs (as.map (sub h))
  | .val v => .val v
  | .null => match target c i with
    | none => .null
    | some c' => .refs [sub (protos c') 0]

/-- Down to depth `n`. -/
def view (protos : Protos) : Nat → Heap → Nat → View
  | 0, _, _ => .deep
  | n + 1, h, a =>
    match h[a]? with
    | none => .null
    | some x => .node x.cls (x.cells.mapIdx (seen (view protos n) protos h x.cls))

end Mx.Spec
