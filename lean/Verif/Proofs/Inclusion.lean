import Verif.Spec.Regular

/-
A decision procedure for inclusion of regular expressions by partial derivatives, with its proof.
-/
open Mx.Spec
namespace Mx.Spec.Re

def beq : Re → Re → Bool
  | .any, .any => true
  | .eps, .eps => true
  | .sym a, .sym b => a == b
  | .seq a b, .seq c d => beq a c && beq b d
  | .alt a b, .alt c d => beq a c && beq b d
  | .rep l h r, .rep l' h' r' => l == l' && h == h' && beq r r'
  | _, _ => false

theorem beq_eq : ∀ {a b : Re}, beq a b = true → a = b
  | .any, b, h => by cases b <;> simp [beq] at h ⊢
  | .eps, b, h => by cases b <;> simp [beq] at h ⊢
  | .sym _, b, h => by cases b <;> simp_all [beq]
  | .seq a b, c, h => by
    cases c <;> simp [beq] at h ⊢
    exact ⟨beq_eq h.1, beq_eq h.2⟩
  | .alt a b, c, h => by
    cases c <;> simp [beq] at h ⊢
    exact ⟨beq_eq h.1, beq_eq h.2⟩
  | .rep l hh r, c, h => by
    cases c <;> simp [beq] at h ⊢
    exact ⟨h.1.1, h.1.2, beq_eq h.2⟩

def boundsOk (lo : Nat) : Option Nat → Bool
  | none => true
  | some h => Nat.ble lo h

def nullable : Re → Bool
  | .any => true
  | .eps => true
  | .sym _ => false
  | .seq a b => a.nullable && b.nullable
  | .alt a b => a.nullable || b.nullable
  | .rep lo hi r => (Nat.beq lo 0 || r.nullable) && boundsOk lo hi

theorem boundsOk_iff (lo : Nat) (hi : Option Nat) : boundsOk lo hi = true ↔ ∀ h, hi = some h → lo ≤ h := by
  cases hi <;> simp [boundsOk]

theorem flatten_nil {ws : List (List Nat)} (h : ws.flatten = []) : ∀ u ∈ ws, u = [] := by
  intro u hu
  exact List.flatten_eq_nil_iff.mp h u hu

theorem nullable_iff : ∀ r : Re, r.nullable = true ↔ r.Matches []
  | .any => by simp [nullable, Matches]
  | .eps => by simp [nullable, Matches]
  | .sym _ => by simp [nullable, Matches]
  | .seq a b => by
    simp only [nullable, Matches, Bool.and_eq_true, nullable_iff a, nullable_iff b]
    constructor
    · rintro ⟨h, g⟩; exact ⟨[], [], rfl, h, g⟩
    · rintro ⟨u, v, h, hu, hv⟩
      obtain ⟨rfl, rfl⟩ := List.append_eq_nil_iff.mp h.symm
      exact ⟨hu, hv⟩
  | .alt a b => by simp [nullable, Matches, nullable_iff a, nullable_iff b]
  | .rep lo hi r => by
    simp only [nullable, Matches, Bool.and_eq_true, Bool.or_eq_true, boundsOk_iff, nullable_iff r]
    constructor
    · rintro ⟨h | h, g⟩
      · exact ⟨[], rfl, by simp [Nat.eq_of_beq_eq_true h], fun x hx => Nat.zero_le _, by simp⟩
      · exact ⟨List.replicate lo [], by simp, by simp, by simpa using g,
          fun u hu => by rw [List.eq_of_mem_replicate hu]; exact h⟩
    · rintro ⟨ws, h, hl, hh, hm⟩
      have he := flatten_nil h.symm
      refine ⟨?_, fun x hx => Nat.le_trans hl (hh x hx)⟩
      cases ws with
      | nil => left; simp at hl; simp [hl]
      | cons u us =>
        right
        have := hm u (by simp)
        rwa [he u (by simp)] at this

/-- `seq` with the unit left out and nested to the right. -/
def cat : Re → Re → Re
  | .eps, b => b
  | .seq x y, b => .seq x (cat y b)
  | a, .eps => a
  | a, b => .seq a b

theorem cat_iff : ∀ (a b : Re) (w : List Nat), (cat a b).Matches w ↔ (Re.seq a b).Matches w := by
  intro a
  induction a with
  | eps =>
    intro b w
    simp only [cat, Matches]
    constructor
    · intro h; exact ⟨[], w, rfl, rfl, h⟩
    · rintro ⟨u, v, rfl, rfl, h⟩; exact h
  | seq x y _ ih =>
    intro b w
    simp only [cat, Matches, ih]
    constructor
    · rintro ⟨u, v, rfl, hu, v1, v2, rfl, h1, h2⟩
      exact ⟨u ++ v1, v2, by simp, ⟨u, v1, rfl, hu, h1⟩, h2⟩
    · rintro ⟨u, v, rfl, ⟨u1, u2, rfl, h1, h2⟩, hv⟩
      exact ⟨u1, u2 ++ v, by simp, h1, u2, v, rfl, h2, hv⟩
  | any => intro b w; cases b <;> simp [cat, Matches]
  | sym t => intro b w; cases b <;> simp [cat, Matches]
  | alt x y => intro b w; cases b <;> simp [cat, Matches]
  | rep l h r => intro b w; cases b <;> simp [cat, Matches]

/-- `rep` after one of its copies. -/
def repRest (lo : Nat) : Option Nat → Re → Re
  | none, r => .rep (lo - 1) none r
  | some 0, r => .rep 1 (some 0) r
  | some 1, r => if Nat.ble lo 1 then .eps else .rep 1 (some 0) r
  | some (h + 1), r => .rep (lo - 1) (some h) r

/-- Partial derivatives: the expressions for what may follow after the name `x`. -/
def pd (x : Nat) : Re → List Re
  | .any => [.any]
  | .eps => []
  | .sym t => if Nat.beq t x then [.eps] else []
  | .seq a b => (a.pd x).map (cat · b) ++ (if a.nullable then b.pd x else [])
  | .alt a b => a.pd x ++ b.pd x
  | .rep lo hi r => (r.pd x).map (cat · (repRest lo hi r))

theorem repRest_iff (lo : Nat) (hi : Option Nat) (r : Re) (w : List Nat) :
    (repRest lo hi r).Matches w ↔ ∃ ws : List (List Nat), w = ws.flatten ∧ lo ≤ ws.length + 1 ∧
      (∀ h, hi = some h → ws.length + 1 ≤ h) ∧ ∀ u ∈ ws, r.Matches u := by
  match hi with
  | none =>
    simp only [repRest, Matches]
    constructor
    · rintro ⟨ws, h1, h2, _, h4⟩; exact ⟨ws, h1, by omega, by simp, h4⟩
    · rintro ⟨ws, h1, h2, _, h4⟩; exact ⟨ws, h1, by omega, by simp, h4⟩
  | some 0 =>
    simp only [repRest, Matches]
    constructor
    · rintro ⟨ws, h1, h2, h3, h4⟩; have := h3 0 rfl; omega
    · rintro ⟨ws, h1, h2, h3, h4⟩; have := h3 0 rfl; omega
  | some 1 =>
    by_cases hl : lo ≤ 1
    · have hb : Nat.ble lo 1 = true := Nat.ble_eq.mpr hl
      simp only [repRest, hb, if_true, Matches]
      constructor
      · rintro rfl; exact ⟨[], rfl, by simpa using hl, by simp, by simp⟩
      · rintro ⟨ws, h1, h2, h3, h4⟩
        have := h3 1 rfl
        have : ws = [] := List.length_eq_zero_iff.mp (by omega)
        subst this; simpa using h1
    · have hb : Nat.ble lo 1 = false := by
        rw [← Bool.not_eq_true, Nat.ble_eq]; exact hl
      simp only [repRest, hb, Matches]
      constructor
      · rintro ⟨ws, h1, h2, h3, h4⟩; have := h3 0 rfl; omega
      · rintro ⟨ws, h1, h2, h3, h4⟩; have := h3 1 rfl; omega
  | some (h + 2) =>
    simp only [repRest, Matches]
    constructor
    · rintro ⟨ws, h1, h2, h3, h4⟩
      have := h3 _ rfl
      exact ⟨ws, h1, by omega, by rintro x ⟨⟩; omega, h4⟩
    · rintro ⟨ws, h1, h2, h3, h4⟩
      have := h3 _ rfl
      exact ⟨ws, h1, by omega, by rintro x ⟨⟩; omega, h4⟩

/-- The first non-empty list of a concatenation that starts with `x`. -/
theorem flatten_cons {ws : List (List Nat)} {x : Nat} {w : List Nat} (h : ws.flatten = x :: w) :
    ∃ es u rest, ws = es ++ (x :: u) :: rest ∧ (∀ e ∈ es, e = []) ∧ w = u ++ rest.flatten := by
  induction ws with
  | nil => simp at h
  | cons a as ih =>
    cases a with
    | nil =>
      obtain ⟨es, u, rest, h1, h2, h3⟩ := ih (by simpa using h)
      exact ⟨[] :: es, u, rest, by simp [h1], by
        intro e he
        rcases List.mem_cons.mp he with rfl | he
        · rfl
        · exact h2 e he, h3⟩
    | cons y u =>
      simp only [List.flatten_cons, List.cons_append, List.cons.injEq] at h
      exact ⟨[], u, as, by simp [h.1], by simp, h.2.symm⟩

theorem pd_iff (x : Nat) : ∀ (r : Re) (w : List Nat), r.Matches (x :: w) ↔ ∃ p ∈ r.pd x, p.Matches w
  | .any, w => by simp [pd, Matches]
  | .eps, w => by simp [pd, Matches]
  | .sym t, w => by
    by_cases h : t = x
    · subst h; simp [pd, Matches]
    · have hb : Nat.beq t x = false := by
        rw [← Bool.not_eq_true, Nat.beq_eq]; exact h
      simp only [pd, hb, Matches]
      constructor
      · intro g; simp at g; exact absurd g.1.symm h
      · rintro ⟨p, hp, _⟩; simp at hp
  | .alt a b, w => by
    simp only [pd, Matches, pd_iff x a, pd_iff x b, List.mem_append]
    constructor
    · rintro (⟨p, hp, h⟩ | ⟨p, hp, h⟩)
      · exact ⟨p, .inl hp, h⟩
      · exact ⟨p, .inr hp, h⟩
    · rintro ⟨p, hp | hp, h⟩
      · exact .inl ⟨p, hp, h⟩
      · exact .inr ⟨p, hp, h⟩
  | .seq a b, w => by
    constructor
    · rintro ⟨u, v, h, hu, hv⟩
      cases u with
      | nil =>
        simp only [List.nil_append] at h
        subst h
        obtain ⟨p, hp, hm⟩ := (pd_iff x b w).mp hv
        have hn := (nullable_iff a).mpr hu
        exact ⟨p, by simp only [pd, hn, if_true]; exact List.mem_append_right _ hp, hm⟩
      | cons y u =>
        simp only [List.cons_append, List.cons.injEq] at h
        obtain ⟨rfl, rfl⟩ := h
        obtain ⟨p, hp, hm⟩ := (pd_iff x a u).mp hu
        refine ⟨cat p b, List.mem_append_left _ (List.mem_map_of_mem hp), ?_⟩
        rw [cat_iff]
        exact ⟨u, v, rfl, hm, hv⟩
    · rintro ⟨p, hp, hm⟩
      rcases List.mem_append.mp hp with hp | hp
      · obtain ⟨p', hp', rfl⟩ := List.mem_map.mp hp
        rw [cat_iff] at hm
        obtain ⟨u, v, rfl, hu, hv⟩ := hm
        exact ⟨x :: u, v, rfl, (pd_iff x a u).mpr ⟨p', hp', hu⟩, hv⟩
      · cases hn : a.nullable with
        | false => rw [hn] at hp; simp at hp
        | true =>
          rw [hn] at hp
          exact ⟨[], x :: w, rfl, (nullable_iff a).mp hn, (pd_iff x b w).mpr ⟨p, by simpa using hp, hm⟩⟩
  | .rep lo hi r, w => by
    constructor
    · rintro ⟨ws, h, hl, hh, hm⟩
      obtain ⟨es, u, rest, rfl, he, rfl⟩ := flatten_cons h.symm
      obtain ⟨p, hp, hpm⟩ := (pd_iff x r u).mp (hm (x :: u) (by simp))
      refine ⟨cat p (repRest lo hi r), List.mem_map_of_mem hp, ?_⟩
      rw [cat_iff]
      refine ⟨u, rest.flatten, rfl, hpm, (repRest_iff lo hi r _).mpr ⟨rest ++ es, ?_, ?_, ?_, ?_⟩⟩
      · have : es.flatten = [] := List.flatten_eq_nil_iff.mpr he
        simp [this]
      · simp only [List.length_append, List.length_cons] at hl ⊢; omega
      · intro y hy
        have := hh y hy
        simp only [List.length_append, List.length_cons] at this ⊢; omega
      · intro v hv
        apply hm
        rcases List.mem_append.mp hv with hv | hv
        · simp [hv]
        · simp [hv]
    · rintro ⟨p, hp, hm⟩
      obtain ⟨p', hp', rfl⟩ := List.mem_map.mp hp
      rw [cat_iff] at hm
      obtain ⟨u, v, rfl, hu, hv⟩ := hm
      obtain ⟨ws, rfl, h2, h3, h4⟩ := (repRest_iff lo hi r v).mp hv
      refine ⟨(x :: u) :: ws, by simp, by simpa using h2, by simpa using h3, ?_⟩
      intro y hy
      rcases List.mem_cons.mp hy with rfl | hy
      · exact (pd_iff x r u).mpr ⟨p', hp', hu⟩
      · exact h4 y hy

/-- The expression has no `any` inside. -/
def plain : Re → Bool
  | .any => false
  | .eps => true
  | .sym _ => true
  | .seq a b => a.plain && b.plain
  | .alt a b => a.plain && b.plain
  | .rep _ _ r => r.plain

/-- The names a non-empty list may start with. -/
def first : Re → List Nat
  | .any => []
  | .eps => []
  | .sym t => [t]
  | .seq a b => a.first ++ (if a.nullable then b.first else [])
  | .alt a b => a.first ++ b.first
  | .rep _ _ r => r.first

theorem first_mem : ∀ (r : Re), r.plain = true → ∀ (x : Nat) (w : List Nat), r.Matches (x :: w) → x ∈ r.first
  | .any, hp, _, _, _ => by simp [plain] at hp
  | .eps, _, _, _, h => by simp [Matches] at h
  | .sym t, _, x, w, h => by simp [Matches] at h; simp [first, h.1]
  | .alt a b, hp, x, w, h => by
    simp only [plain, Bool.and_eq_true] at hp
    rcases h with h | h
    · exact List.mem_append_left _ (first_mem a hp.1 x w h)
    · exact List.mem_append_right _ (first_mem b hp.2 x w h)
  | .seq a b, hp, x, w, h => by
    simp only [plain, Bool.and_eq_true] at hp
    obtain ⟨u, v, he, hu, hv⟩ := h
    cases u with
    | nil =>
      simp only [List.nil_append] at he
      subst he
      have hn := (nullable_iff a).mpr hu
      simp only [first, hn, if_true]
      exact List.mem_append_right _ (first_mem b hp.2 x w hv)
    | cons y u =>
      simp only [List.cons_append, List.cons.injEq] at he
      obtain ⟨rfl, rfl⟩ := he
      exact List.mem_append_left _ (first_mem a hp.1 x u hu)
  | .rep lo hi r, hp, x, w, h => by
    obtain ⟨ws, h, hl, hh, hm⟩ := h
    obtain ⟨es, u, rest, rfl, he, rfl⟩ := flatten_cons h.symm
    exact first_mem r hp x u (hm (x :: u) (by simp))

/-- Membership by `beq`. -/
def memb (r : Re) : List Re → Bool
  | [] => false
  | x :: xs => beq r x || memb r xs

theorem memb_mem {r : Re} : ∀ {l : List Re}, memb r l = true → r ∈ l
  | [], h => by simp [memb] at h
  | x :: xs, h => by
    simp only [memb, Bool.or_eq_true] at h
    rcases h with h | h
    · rw [beq_eq h]; simp
    · exact List.mem_cons_of_mem _ (memb_mem h)

/-- Without repetitions. -/
def nub : List Re → List Re
  | [] => []
  | x :: xs => if memb x (nub xs) then nub xs else x :: nub xs

theorem nub_mem {r : Re} : ∀ {l : List Re}, r ∈ nub l ↔ r ∈ l
  | [] => by simp [nub]
  | x :: xs => by
    have ih := nub_mem (r := r) (l := xs)
    cases h : memb x (nub xs) with
    | true =>
      simp only [nub, h, if_true, List.mem_cons, ih]
      constructor
      · exact Or.inr
      · rintro (rfl | h')
        · exact ih.mp (memb_mem h)
        · exact h'
    | false => simp [nub, h, ih]

def nubNat : List Nat → List Nat
  | [] => []
  | x :: xs => if (nubNat xs).any (Nat.beq x) then nubNat xs else x :: nubNat xs

theorem nubNat_mem {n : Nat} : ∀ {l : List Nat}, n ∈ nubNat l ↔ n ∈ l
  | [] => by simp [nubNat]
  | x :: xs => by
    have ih := nubNat_mem (n := n) (l := xs)
    cases h : (nubNat xs).any (Nat.beq x) with
    | true =>
      simp only [nubNat, h, if_true, List.mem_cons, ih]
      constructor
      · exact Or.inr
      · rintro (rfl | h')
        · obtain ⟨y, hy, he⟩ := List.any_eq_true.mp h
          rw [Nat.eq_of_beq_eq_true he]; exact nubNat_mem.mp hy
        · exact h'
    | false => simp [nubNat, h, ih]

/-- The lists of `p` are to be among those of the `q`s. -/
structure Goal where
  p : Re
  q : List Re

def Goal.Holds (g : Goal) : Prop := ∀ w, g.p.Matches w → ∃ r ∈ g.q, r.Matches w

/-- The goals after one name. -/
def Goal.next (g : Goal) : List Goal :=
  (nubNat g.p.first).flatMap fun x => (nub (g.p.pd x)).map fun p => ⟨p, nub (g.q.flatMap (pd x))⟩

/-- The goal holds for the empty list, and the names a list may start with are known. -/
def Goal.now (g : Goal) : Bool := g.p.plain && (!g.p.nullable || g.q.any nullable)

def beqs : List Re → List Re → Bool
  | [], [] => true
  | a :: as, b :: bs => beq a b && beqs as bs
  | _, _ => false

theorem beqs_eq : ∀ {a b : List Re}, beqs a b = true → a = b
  | [], [], _ => rfl
  | [], _ :: _, h => by simp [beqs] at h
  | _ :: _, [], h => by simp [beqs] at h
  | a :: as, b :: bs, h => by
    simp only [beqs, Bool.and_eq_true] at h
    rw [beq_eq h.1, beqs_eq h.2]

def Goal.memb (g : Goal) : List Goal → Bool
  | [] => false
  | x :: xs => (beq g.p x.p && beqs g.q x.q) || Goal.memb g xs

theorem Goal.memb_mem {g : Goal} : ∀ {l : List Goal}, g.memb l = true → g ∈ l
  | [], h => by simp [Goal.memb] at h
  | x :: xs, h => by
    simp only [Goal.memb, Bool.or_eq_true, Bool.and_eq_true] at h
    rcases h with h | h
    · have : g = x := by
        cases g; cases x
        simp only [Goal.mk.injEq]
        exact ⟨beq_eq h.1, beqs_eq h.2⟩
      rw [this]; simp
    · exact List.mem_cons_of_mem _ (Goal.memb_mem h)

/-- Explore all goals that follow. -/
def explore : Nat → List Goal → List Goal → Bool
  | _, _, [] => true
  | 0, _, _ => false
  | f + 1, seen, g :: work =>
    if g.memb seen then explore f seen work
    else g.now && explore f (g :: seen) (g.next ++ work)

/-- A set of goals that contains what follows from its goals. -/
def Closed (s : List Goal) : Prop := ∀ g ∈ s, g.now = true ∧ ∀ g' ∈ g.next, g' ∈ s

theorem explore_closed : ∀ (f : Nat) (seen work : List Goal), explore f seen work = true →
    (∀ g ∈ seen, g.now = true ∧ ∀ g' ∈ g.next, g' ∈ seen ∨ g' ∈ work) →
    ∃ s, Closed s ∧ (∀ g ∈ seen, g ∈ s) ∧ ∀ g ∈ work, g ∈ s
  | f, seen, [], _, hi => ⟨seen, fun g hg => ⟨(hi g hg).1, fun g' hg' => by
      rcases (hi g hg).2 g' hg' with h | h
      · exact h
      · simp at h⟩, fun _ h => h, by simp⟩
  | 0, seen, _ :: _, h, _ => by simp [explore] at h
  | f + 1, seen, g :: work, h, hi => by
    cases hm : g.memb seen with
    | true =>
      simp only [explore, hm, if_true] at h
      have hg := Goal.memb_mem hm
      obtain ⟨s, hs, h1, h2⟩ := explore_closed f seen work h (by
        intro a ha
        refine ⟨(hi a ha).1, fun b hb => ?_⟩
        rcases (hi a ha).2 b hb with h' | h'
        · exact .inl h'
        · rcases List.mem_cons.mp h' with rfl | h'
          · exact .inl hg
          · exact .inr h')
      refine ⟨s, hs, h1, ?_⟩
      intro a ha
      rcases List.mem_cons.mp ha with rfl | ha
      · exact h1 _ hg
      · exact h2 a ha
    | false =>
      simp only [explore, hm, Bool.false_eq_true, if_false, Bool.and_eq_true] at h
      obtain ⟨s, hs, h1, h2⟩ := explore_closed f (g :: seen) (g.next ++ work) h.2 (by
        intro a ha
        rcases List.mem_cons.mp ha with rfl | ha
        · exact ⟨h.1, fun b hb => .inr (List.mem_append_left _ hb)⟩
        · refine ⟨(hi a ha).1, fun b hb => ?_⟩
          rcases (hi a ha).2 b hb with h' | h'
          · exact .inl (List.mem_cons_of_mem _ h')
          · rcases List.mem_cons.mp h' with rfl | h'
            · exact .inl (by simp)
            · exact .inr (List.mem_append_right _ h'))
      refine ⟨s, hs, fun a ha => h1 a (List.mem_cons_of_mem _ ha), ?_⟩
      intro a ha
      rcases List.mem_cons.mp ha with rfl | ha
      · exact h1 _ (by simp)
      · exact h2 a (List.mem_append_right _ ha)

theorem closed_holds {s : List Goal} (hs : Closed s) : ∀ (w : List Nat), ∀ g ∈ s, g.p.Matches w →
    ∃ r ∈ g.q, r.Matches w
  | [], g, hg, hm => by
    have h := (hs g hg).1
    simp only [Goal.now, Bool.and_eq_true, Bool.or_eq_true, Bool.not_eq_true'] at h
    rcases h.2 with h | h
    · rw [(nullable_iff g.p).mpr hm] at h; cases h
    · obtain ⟨r, hr, hn⟩ := List.any_eq_true.mp h
      exact ⟨r, hr, (nullable_iff r).mp hn⟩
  | x :: w, g, hg, hm => by
    have h := hs g hg
    have hp : g.p.plain = true := by
      have := h.1
      simp only [Goal.now, Bool.and_eq_true] at this
      exact this.1
    obtain ⟨p, hpm, hw⟩ := (pd_iff x g.p w).mp hm
    have hf := first_mem g.p hp x w hm
    have hn : (⟨p, nub (g.q.flatMap (pd x))⟩ : Goal) ∈ g.next :=
      List.mem_flatMap.mpr ⟨x, nubNat_mem.mpr hf, List.mem_map.mpr ⟨p, nub_mem.mpr hpm, rfl⟩⟩
    obtain ⟨r, hr, hrw⟩ := closed_holds hs w _ (h.2 _ hn) hw
    obtain ⟨q, hq, hqr⟩ := List.mem_flatMap.mp (nub_mem.mp hr)
    exact ⟨q, hq, (pd_iff x q w).mpr ⟨r, hqr, hrw⟩⟩

/-- `included p q` checks that every list of `p` is one of `q`. -/
def included (p q : Re) : Bool := explore 4000 [] [⟨p, [q]⟩]

theorem included_sound {p q : Re} (h : included p q = true) {w : List Nat} (hw : p.Matches w) : q.Matches w := by
  obtain ⟨s, hs, _, h2⟩ := explore_closed _ [] [⟨p, [q]⟩] h (by simp)
  obtain ⟨r, hr, hm⟩ := closed_holds hs w ⟨p, [q]⟩ (h2 _ (by simp)) hw
  simp at hr
  rwa [hr] at hm

end Mx.Spec.Re
