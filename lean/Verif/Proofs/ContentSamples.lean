import Verif.Proofs.ContentWhole

/-
Objects as the constructors make them, for the examples.
-/
open Mx.Spec
namespace Mx.Content

/-- The object a constructor makes (with empty attributes and values and the first choice). -/
def fresh : Nat → Kind → Node
  | _, .leaf t h => .leaf t h []
  | 0, .comp c => .comp c [] 0 []
  | f + 1, .comp c => .comp c [] 0 (c.info.members.map fun m => .mk false (List.replicate m.mult.start (fresh f m.kind)))

def kindB : Kind → Kind → Bool
  | .leaf t h, .leaf t' h' => Nat.beq t t' && h == h'
  | .comp c, .comp c' => decide (c = c')
  | _, _ => false

theorem kindB_eq : ∀ {a b : Kind}, kindB a b = true → a = b
  | .leaf t h, .leaf t' h', e => by
    simp only [kindB, Bool.and_eq_true, beq_iff_eq] at e
    rw [Nat.eq_of_beq_eq_true e.1, e.2]
  | .comp c, .comp c', e => by simp only [kindB, decide_eq_true_eq] at e; rw [e]
  | .leaf .., .comp _, e => by cases e
  | .comp _, .leaf .., e => by cases e

mutual
def freshB : Node → Bool
  | .leaf t _ _ => leafNames.any (Nat.beq t)
  | .comp c _ k ss => (Nat.beq c.info.choices 0 || Nat.blt k c.info.choices) && freshSlots c.info.members ss
def freshSlots : List Member → List Slot → Bool
  | [], [] => true
  | m :: ms, .mk _ ks :: ss => freshKids m.kind m.mult.start ks && freshSlots ms ss
  | _, _ => false
def freshKids (kd : Kind) : Nat → List Node → Bool
  | 0, [] => true
  | n + 1, k :: ks => kindB k.kind kd && freshB k && freshKids kd n ks
  | _, _ => false
end

mutual
theorem freshB_built : ∀ (n : Node), freshB n = true → Built n
  | .leaf t h d, e => by
    simp only [freshB, List.any_eq_true] at e
    obtain ⟨x, hx, hb⟩ := e
    rw [← Nat.eq_of_beq_eq_true hb] at hx
    exact .leaf t h d hx
  | .comp c d k ss, e => by
    simp only [freshB, Bool.and_eq_true, Bool.or_eq_true] at e
    obtain ⟨h1, h2, h3⟩ := freshSlots_built _ ss e.2
    refine .make c d k ss ?_ ⟨h1, h2⟩ h3
    rcases e.1 with h | h
    · exact .inl (Nat.eq_of_beq_eq_true h)
    · exact .inr (by simpa [Nat.blt_eq] using h)
theorem freshSlots_built : ∀ (ms : List Member) (ss : List Slot), freshSlots ms ss = true → ss.length = ms.length ∧
    (∀ (i : Nat) (m : Member) (s : Slot), ms[i]? = some m → ss[i]? = some s → s.kids.length = m.mult.start ∧ ∀ k ∈ s.kids, k.kind = m.kind) ∧
    ∀ s ∈ ss, ∀ n ∈ s.kids, Built n
  | [], [], _ => by simp
  | m :: ms, .mk b ks :: ss, e => by
    simp only [freshSlots, Bool.and_eq_true] at e
    obtain ⟨h1, h2, h3⟩ := freshSlots_built ms ss e.2
    obtain ⟨g1, g2⟩ := freshKids_built m.kind m.mult.start ks e.1
    refine ⟨by simp [h1], ?_, ?_⟩
    · intro i m' s hm hs
      cases i with
      | zero =>
        simp at hm hs
        subst hm hs
        exact ⟨g1, fun k hk => (g2 k hk).1⟩
      | succ i => exact h2 i m' s (by simpa using hm) (by simpa using hs)
    · intro s hs n hn
      rcases List.mem_cons.mp hs with rfl | hs
      · exact (g2 n hn).2
      · exact h3 s hs n hn
  | [], _ :: _, e => by simp [freshSlots] at e
  | _ :: _, [], e => by simp [freshSlots] at e
theorem freshKids_built (kd : Kind) : ∀ (n : Nat) (ks : List Node), freshKids kd n ks = true → ks.length = n ∧ ∀ k ∈ ks, k.kind = kd ∧ Built k
  | 0, [], _ => by simp
  | n + 1, k :: ks, e => by
    simp only [freshKids, Bool.and_eq_true] at e
    obtain ⟨h1, h2⟩ := freshKids_built kd n ks e.2
    have hk := freshB_built k e.1.2
    refine ⟨by simp [h1], ?_⟩
    intro x hx
    rcases List.mem_cons.mp hx with rfl | hx
    · exact ⟨kindB_eq e.1.1, hk⟩
    · exact h2 x hx
  | 0, _ :: _, e => by simp [freshKids] at e
  | _ + 1, [], e => by simp [freshKids] at e
end

/-! ## Lists of names that are not allowed -/

def accepts : Re → List Nat → Bool
  | r, [] => r.nullable
  | r, a :: w => (r.pd a).any fun p => accepts p w

theorem accepts_iff : ∀ (w : List Nat) (r : Re), accepts r w = true ↔ r.Matches w
  | [], r => by simp only [accepts]; exact Re.nullable_iff r
  | a :: w, r => by
    simp only [accepts, List.any_eq_true]
    rw [Re.pd_iff]
    constructor
    · rintro ⟨p, hp, h⟩; exact ⟨p, hp, (accepts_iff w p).mp h⟩
    · rintro ⟨p, hp, h⟩; exact ⟨p, hp, (accepts_iff w p).mpr h⟩

def xmlNames : Xml → List Nat
  | .elem _ _ kids => kids.map fun | .elem n _ _ => n

def ordinary (n : Nat) : Bool := !Nat.beq n (nm! "part") && !Nat.beq n (nm! "measure")

theorem declName_ordinary {d n : Nat} (h : Schema.declName d = n) (ho : ordinary n = true) : d = n := by
  unfold Schema.declName at h
  simp only [ordinary, Bool.and_eq_true, Bool.not_eq_true'] at ho
  split at h
  · rw [← h] at ho; simp at ho
  · split at h
    · rw [← h] at ho; simp at ho
    · exact h

theorem map_declName : ∀ {ds ns : List Nat}, ns = ds.map Schema.declName → ns.all ordinary = true → ds = ns
  | [], _, h, _ => by rw [h]; rfl
  | d :: ds, [], h, _ => by simp at h
  | d :: ds, n :: ns, h, ho => by
    simp only [List.map_cons, List.cons.injEq] at h
    simp only [List.all_cons, Bool.and_eq_true] at ho
    rw [declName_ordinary h.1.symm ho.1, map_declName h.2 ho.2]

def forbidden (d : Nat) (ns : List Nat) : Bool := ns.all ordinary && Schema.decls.all fun p => !Nat.beq p.1 d || !accepts p.2 ns

theorem not_allowed {d : Nat} {x : Xml} (h : forbidden d (xmlNames x) = true) : ¬ ChildrenAllowed d x := by
  cases x with
  | elem n data kids =>
    rintro ⟨r, ds, hr, hm, he⟩
    simp only [forbidden, Bool.and_eq_true] at h
    have e := map_declName (ns := xmlNames (.elem n data kids)) he h.1
    have h2 := List.all_eq_true.mp h.2 _ hr
    simp only [Bool.or_eq_true, Bool.not_eq_true'] at h2
    rcases h2 with h2 | h2
    · simp at h2
    · rw [← e] at h2
      rw [(accepts_iff ds r).mpr hm] at h2
      cases h2

/-- The limits of the model are those of the list. -/
theorem limits_table : listLimits.all (fun (c, i, lo, hi) => isSetB c i && Nat.beq (reachable.lo c i) lo &&
    (match reachable.hi c i, hi with | none, none => true | some a, some b => Nat.beq a b | _, _ => false)) = true := by decide +kernel

theorem limits_of {c : Cls} {i lo : Nat} {hi : Option Nat} (h : (c, i, lo, hi) ∈ listLimits) :
    isSetB c i = true ∧ reachable.lo c i = lo ∧ reachable.hi c i = hi := by
  have := List.all_eq_true.mp limits_table _ h
  simp only [Bool.and_eq_true] at this
  refine ⟨this.1.1, Nat.eq_of_beq_eq_true this.1.2, ?_⟩
  have h2 := this.2
  split at h2
  · simp_all
  · simp_all
  · cases h2

/-- The name of an item is that of its declaration. -/
theorem item_name (n : Node) (hn : Ok n) : ∀ it ∈ n.write.body, (fun | Xml.elem n _ _ => n) it.xml = Schema.declName (kindDecl it.kind) := by
  match n, hn with
  | .leaf t h d, hn => simp [Node.write]
  | .comp c d k ss, hn =>
    intro it hit
    obtain ⟨s, hs, m, hm, h⟩ := body_mem (ok_tree.shape hn) hit
    have hlt := sizeOf_kid (c := c) (d := d) (k := k) hs hm
    have hmo : Ok m := ok_tree.kids hn s hs m hm
    rcases h with ⟨rfl, hnm⟩ | h
    · rw [write_element_kind]
      cases m with
      | leaf t h d => cases hmo; rename_i ht; exact (leaf_schema ht).2.symm
      | comp c' d' k' s' => exact (class_declName c').symm
    · exact item_name m hmo it h
termination_by sizeOf n
decreasing_by exact hlt

/-- A method called on an object built before. -/
theorem built_call (op : Op) {n : Node} (hn : Built n) {c : Cls} (hk : n.kind = .comp c) (ht : op.Typed c) (ha : ∀ x ∈ op.args, Built x) : Built (op.apply n) := by
  cases n with
  | leaf => cases hk
  | comp c' d k ss => cases hk; exact .call op c d k ss hn ht ha

theorem built_fresh {f : Nat} {kd : Kind} (h : freshB (fresh f kd) = true) : Built (fresh f kd) := freshB_built _ h

/-! ## Tests for the conditions (enough for the examples) -/

def slotNonempty (ss : List Slot) : Bool := match ss with | .mk _ (_ :: _) :: _ => true | _ => false
def slotSingle (ss : List Slot) : Bool := match ss with | .mk _ [_] :: _ => true | _ => false

def carefulHereB (c : Cls) (k : Nat) (ss : List Slot) : Bool :=
  match c with
  | .NoteheadText => slotNonempty ss
  | .TimewiseMeasure => slotNonempty ss
  | .Ornaments => slotNonempty ss
  | .TimeChoice => slotSingle ss
  | .PercussionChoice => !Nat.beq k 9 && !Nat.beq k 10
  | _ => true

theorem slotNonempty_of {ss : List Slot} (h : slotNonempty ss = true) : ∀ s ∈ ss[0]?, s.kids ≠ [] := by
  intro s hs
  cases ss with
  | nil => cases h
  | cons a as =>
    cases hs
    cases s with
    | mk b ks => cases ks with
      | nil => cases h
      | cons => simp [Slot.kids]

theorem carefulHereB_of {c : Cls} {k : Nat} {ss : List Slot} (h : carefulHereB c k ss = true) : CarefulHere c k ss := by
  cases c <;> first
    | exact trivial
    | exact slotNonempty_of h
    | (intro s hs he; exact absurd he (slotNonempty_of h s hs))
    | (intro _ s hs
       cases ss with
       | nil => cases h
       | cons a as =>
         cases hs
         cases s with
         | mk b ks => cases ks with
           | nil => cases h
           | cons x xs => cases xs with
             | nil => simp [Slot.kids]
             | cons => cases h)
    | (simp only [carefulHereB, Bool.and_eq_true, Bool.not_eq_true'] at h
       exact ⟨fun e => by rw [e] at h; exact absurd h.1 (by decide), fun e => by rw [e] at h; exact absurd h.2 (by decide)⟩)

def soundHereB (c : Cls) (ss : List Slot) : Bool :=
  !isSoundB c || match ss with | [_, .mk true _, _] => true | [.mk false _, _, .mk false _] => true | _ => false

theorem soundHereB_of {c : Cls} {d : Str} {k : Nat} {ss : List Slot} (h : soundHereB c ss = true) :
    c = .Sound → HasFlag (.comp c d k ss) 1 ∨ ¬ HasFlag (.comp c d k ss) 0 ∧ ¬ HasFlag (.comp c d k ss) 2 := by
  rintro rfl
  simp only [soundHereB, isSoundB, Bool.not_true, Bool.false_or] at h
  split at h
  · exact .inl ⟨_, rfl, rfl⟩
  · right
    constructor
    · rintro ⟨s, h1, h2⟩; cases h1; cases h2
    · rintro ⟨s, h1, h2⟩; cases h1; cases h2
  · cases h

mutual
def treeB (p : Cls → Nat → List Slot → Bool) : Node → Bool
  | .leaf .. => true
  | .comp c _ k ss => p c k ss && treeSlots p ss
def treeSlots (p : Cls → Nat → List Slot → Bool) : List Slot → Bool
  | [] => true
  | .mk _ ks :: ss => treeKids p ks && treeSlots p ss
def treeKids (p : Cls → Nat → List Slot → Bool) : List Node → Bool
  | [] => true
  | k :: ks => treeB p k && treeKids p ks
end

theorem treeKids_mem {p : Cls → Nat → List Slot → Bool} : ∀ {ks : List Node}, treeKids p ks = true → ∀ n ∈ ks, treeB p n = true
  | [], _, n, hn => by simp at hn
  | k :: ks, h, n, hn => by
    simp only [treeKids, Bool.and_eq_true] at h
    rcases List.mem_cons.mp hn with rfl | hn
    · exact h.1
    · exact treeKids_mem h.2 n hn

theorem treeSlots_mem {p : Cls → Nat → List Slot → Bool} : ∀ {ss : List Slot}, treeSlots p ss = true → ∀ s ∈ ss, ∀ n ∈ s.kids, treeB p n = true
  | [], _, s, hs => by simp at hs
  | .mk b ks :: ss, h, s, hs => by
    simp only [treeSlots, Bool.and_eq_true] at h
    rcases List.mem_cons.mp hs with rfl | hs
    · exact treeKids_mem h.1
    · exact treeSlots_mem h.2 s hs

theorem careful_of (n : Node) (h : treeB carefulHereB n = true) : Careful n := by
  match n, h with
  | .leaf t b d, _ => exact .leaf t b d
  | .comp c d k ss, h =>
    simp only [treeB, Bool.and_eq_true] at h
    refine .comp c d k ss (carefulHereB_of h.1) ?_
    intro s hs m hm
    have hlt := sizeOf_kid (c := c) (d := d) (k := k) hs hm
    exact careful_of m (treeSlots_mem h.2 s hs m hm)
termination_by sizeOf n
decreasing_by exact hlt

theorem soundCareful_of (n : Node) (h : treeB (fun c _ ss => soundHereB c ss) n = true) : SoundCareful n := by
  match n, h with
  | .leaf t b d, _ => exact .leaf t b d
  | .comp c d k ss, h =>
    simp only [treeB, Bool.and_eq_true] at h
    refine .comp c d k ss (soundHereB_of h.1) ?_
    intro s hs m hm
    have hlt := sizeOf_kid (c := c) (d := d) (k := k) hs hm
    exact soundCareful_of m (treeSlots_mem h.2 s hs m hm)
termination_by sizeOf n
decreasing_by exact hlt

end Mx.Content
