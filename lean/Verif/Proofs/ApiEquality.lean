import Verif.Spec.ApiEquality

/-
Lemmas for C75: comparisons of api data.
-/
open Mx.Spec
namespace Mx.ApiEq

theorem mem_all (s : Struct) : s ∈ Struct.all := by cases s <;> decide

/-- How a member is compared. -/
def howOk (s : Struct) (m : Str × Ty) : Bool :=
  match s.compared.lookup m.1 with
  | none => ignored.contains (s, m.1)
  | some .near => !ignored.contains (s, m.1) && tolerant.contains (s, m.1) && m.2 == .real
  | some .eq => !ignored.contains (s, m.1) && !tolerant.contains (s, m.1)

theorem how_table : (Struct.all.all fun s => s.members.all (howOk s)) = true := by decide +kernel

theorem how_ok {s : Struct} {m : Str × Ty} (h : m ∈ s.members) : howOk s m = true := by
  have := List.all_eq_true.mp how_table s (mem_all s)
  exact List.all_eq_true.mp this m h

theorem how_cases {s : Struct} {m : Str × Ty} (h : m ∈ s.members) :
    (s.compared.lookup m.1 = none ∧ (s, m.1) ∈ ignored) ∨ (s.compared.lookup m.1 = some .near ∧ (s, m.1) ∉ ignored ∧ (s, m.1) ∈ tolerant ∧ m.2 = .real)
      ∨ (s.compared.lookup m.1 = some .eq ∧ (s, m.1) ∉ ignored ∧ (s, m.1) ∉ tolerant) := by
  have h1 := how_ok h
  simp only [howOk] at h1
  split at h1
  · rename_i he
    exact .inl ⟨he, by simpa using h1⟩
  · rename_i he
    simp only [Bool.and_eq_true, Bool.not_eq_true', List.contains_eq_mem, decide_eq_true_eq, decide_eq_false_iff_not, beq_iff_eq] at h1
    exact .inr (.inl ⟨he, h1.1.1, h1.1.2, h1.2⟩)
  · rename_i he
    simp only [Bool.and_eq_true, Bool.not_eq_true', List.contains_eq_mem, decide_eq_false_iff_not] at h1
    exact .inr (.inr ⟨he, h1.1, h1.2⟩)

theorem near_iff (a b : Val) : nearby a b = true ↔ Near a b := by
  constructor
  · intro h
    cases a <;> cases b <;> simp only [nearby, Bool.false_eq_true] at h
    rename_i x y
    cases x <;> cases y <;> first | exact .nanLeft | exact .nanRight | skip
    · rename_i a b
      simp only [Dbl.differ] at h
      have : a = b := by simpa using h
      subst this
      exact .inf
    · simp [Dbl.differ] at h
    · simp [Dbl.differ] at h
    · rename_i p q
      simp only [Dbl.differ, epsilon, Bool.not_eq_true', decide_eq_false_iff_not] at h
      split at h
      · exact .fin (by grind) (by grind)
      · exact .fin (by grind) (by grind)
  · intro h
    cases h with
    | fin h1 h2 =>
      simp only [nearby, Dbl.differ, epsilon, Bool.not_eq_true', decide_eq_false_iff_not]
      split <;> grind
    | inf => simp [nearby, Dbl.differ]
    | nanLeft => simp [nearby, Dbl.differ]
    | nanRight => rename_i x; cases x <;> simp [nearby, Dbl.differ]

theorem dbl_equals (x y : Dbl) : x.equals y = true ↔ x = y ∧ x ≠ .nan := by
  cases x <;> cases y <;> simp [Dbl.equals]

theorem zip_cons {α β : Type} {P : α × β → Prop} {x : α} {y : β} {l : List α} {r : List β} : (∀ p ∈ (x :: l).zip (y :: r), P p) ↔ P (x, y) ∧ ∀ p ∈ l.zip r, P p := by simp

mutual
theorem equals_iff : ∀ a b : Val, equals a b = true ↔ Agree a b
  | .plain p, b => by
    cases b <;> simp only [equals, Bool.false_eq_true, false_iff, beq_iff_eq]
    case plain q => exact ⟨fun h => h ▸ .plain, fun h => by cases h; rfl⟩
    all_goals (intro h; cases h)
  | .real x, b => by
    cases b <;> simp only [equals, Bool.false_eq_true, false_iff]
    case real y =>
      rw [dbl_equals]
      exact ⟨fun ⟨h1, h2⟩ => h1 ▸ .real h2, fun h => by cases h with | real h => exact ⟨rfl, h⟩⟩
    all_goals (intro h; cases h)
  | .none, b => by
    cases b <;> simp only [equals, Bool.false_eq_true, false_iff, true_iff]
    case none => exact .none
    all_goals (intro h; cases h)
  | .some v, b => by
    cases b <;> simp only [equals, Bool.false_eq_true, false_iff]
    case some w =>
      rw [equals_iff v w]
      exact ⟨.some, fun h => by cases h with | some h => exact h⟩
    all_goals (intro h; cases h)
  | .vec l, b => by
    cases b <;> simp only [equals, Bool.false_eq_true, false_iff]
    case vec r =>
      simp only [Bool.and_eq_true, beq_iff_eq]
      constructor
      · rintro ⟨h1, h2⟩
        exact .vec h1 ((each_iff l r h1).mp h2)
      · intro h
        cases h with
        | vec h1 h2 => exact ⟨h1, (each_iff l r h1).mpr h2⟩
    all_goals (intro h; cases h)
  | .intMap k l, b => by
    cases b <;> simp only [equals, Bool.false_eq_true, false_iff]
    case intMap k' r =>
      simp only [Bool.and_eq_true, beq_iff_eq]
      constructor
      · rintro ⟨⟨h1, rfl⟩, h2⟩
        exact .intMap h1 ((each_iff l r h1).mp h2)
      · intro h
        cases h with
        | intMap h1 h2 => exact ⟨⟨h1, rfl⟩, (each_iff l r h1).mpr h2⟩
    all_goals (intro h; cases h)
  | .obj s l, b => by
    cases b <;> simp only [equals, Bool.false_eq_true, false_iff]
    case obj t r =>
      simp only [Bool.and_eq_true, beq_iff_eq]
      constructor
      · rintro ⟨rfl, h⟩
        obtain ⟨h1, h2, h3, h4⟩ := (fields_iff s s.members l r (fun _ h => h)).mp h
        exact .obj h1 h2 h3 h4
      · intro h
        cases h with
        | obj h1 h2 h3 h4 => exact ⟨rfl, (fields_iff s s.members l r (fun _ h => h)).mpr ⟨h1, h2, h3, h4⟩⟩
    all_goals (intro h; cases h)
theorem fields_iff (s : Struct) : ∀ (ms : List (Str × Ty)) (l r : List Val), (∀ m ∈ ms, m ∈ s.members) →
    (fieldsEqual s (ms.map (·.1)) l r = true ↔ l.length = ms.length ∧ r.length = ms.length ∧ (∀ p ∈ (ms.map (·.1)).zip (l.zip r), (s, p.1) ∉ ignored → (s, p.1) ∈ tolerant → Near p.2.1 p.2.2)
      ∧ ∀ p ∈ (ms.map (·.1)).zip (l.zip r), (s, p.1) ∉ ignored → (s, p.1) ∉ tolerant → Agree p.2.1 p.2.2)
  | [], [], [], _ => by simp [fieldsEqual]
  | [], [], _ :: _, _ => by simp [fieldsEqual]
  | [], _ :: _, _, _ => by simp [fieldsEqual]
  | _ :: _, [], _, _ => by simp [fieldsEqual]
  | _ :: _, _ :: _, [], _ => by simp [fieldsEqual]
  | m :: ms, f :: fs, g :: gs, h => by
    have ih := fields_iff s ms fs gs (fun x hx => h x (by simp [hx]))
    simp only [List.map_cons, fieldsEqual, Bool.and_eq_true, List.zip_cons_cons, List.length_cons, Nat.add_right_cancel_iff, List.forall_mem_cons]
    rw [ih]
    rcases how_cases (h m (by simp)) with ⟨h1, h2⟩ | ⟨h1, h2, h3, -⟩ | ⟨h1, h2, h3⟩
    · rw [h1]
      simp only [h2, not_true_eq_false, false_imp_iff, true_and]
    · rw [h1]
      simp only [h2, h3, not_true_eq_false, false_imp_iff, true_and, not_false_eq_true, true_imp_iff, near_iff]
      constructor
      · rintro ⟨a, b, c, d, e⟩; exact ⟨b, c, ⟨a, d⟩, e⟩
      · rintro ⟨b, c, ⟨a, d⟩, e⟩; exact ⟨a, b, c, d, e⟩
    · rw [h1]
      simp only [h2, h3, false_imp_iff, true_and, not_false_eq_true, true_imp_iff, equals_iff f g]
      constructor
      · rintro ⟨a, b, c, d, e⟩; exact ⟨b, c, d, a, e⟩
      · rintro ⟨b, c, d, a, e⟩; exact ⟨a, b, c, d, e⟩
theorem each_iff : ∀ l r : List Val, l.length = r.length → (eachEqual l r = true ↔ ∀ p ∈ l.zip r, Agree p.1 p.2)
  | [], r, _ => by simp [eachEqual]
  | x :: xs, [], h => by simp at h
  | x :: xs, y :: ys, h => by
    simp only [eachEqual, Bool.and_eq_true, List.zip_cons_cons, List.forall_mem_cons]
    rw [equals_iff x y, each_iff xs ys (by simpa using h)]
end

theorem near_symm {a b : Val} (h : Near a b) : Near b a := by
  cases h with
  | fin h1 h2 => exact .fin h2 h1
  | inf => exact .inf
  | nanLeft => exact .nanRight
  | nanRight => exact .nanLeft

theorem zip_swap {α : Type} : ∀ (l r : List α), r.zip l = (l.zip r).map Prod.swap
  | [], r => by simp
  | _ :: _, [] => by simp
  | x :: l, y :: r => by simp [zip_swap l r]

theorem zip_swap₃ {β : Type} {α : Type} : ∀ (ms : List β) (l r : List α) {p : β × α × α}, p ∈ ms.zip (r.zip l) → (p.1, p.2.2, p.2.1) ∈ ms.zip (l.zip r)
  | [], _, _, _, h => by simp at h
  | _ :: _, [], _, _, h => by simp at h
  | _ :: _, _ :: _, [], _, h => by simp at h
  | m :: ms, x :: l, y :: r, p, h => by
    simp only [List.zip_cons_cons, List.mem_cons] at h ⊢
    rcases h with rfl | h
    · exact .inl rfl
    · exact .inr (zip_swap₃ ms l r h)

theorem agree_symm {a b : Val} (h : Agree a b) : Agree b a := by
  induction h with
  | plain => exact .plain
  | real h => exact .real h
  | none => exact .none
  | some _ ih => exact .some ih
  | vec h _ ih =>
    refine .vec h.symm ?_
    intro p hp
    rw [zip_swap, List.mem_map] at hp
    obtain ⟨q, hq, rfl⟩ := hp
    exact ih q hq
  | intMap h _ ih =>
    refine .intMap h.symm ?_
    intro p hp
    rw [zip_swap, List.mem_map] at hp
    obtain ⟨q, hq, rfl⟩ := hp
    exact ih q hq
  | obj h1 h2 h3 _ ih =>
    refine .obj h2 h1 ?_ ?_
    · intro p hp ha hb
      exact near_symm (h3 _ (zip_swap₃ _ _ _ hp) ha hb)
    · intro p hp ha hb
      exact ih _ (zip_swap₃ _ _ _ hp) ha hb

theorem near_self {v : Val} (h : Fits .real v) : nearby v v = true := by
  cases v <;> simp only [Fits] at h
  rename_i x
  cases x
  · exact absurd rfl h
  · simp [nearby, Dbl.differ]
  · simp only [nearby, Dbl.differ, epsilon, Bool.not_eq_true', decide_eq_false_iff_not]
    split <;> grind

mutual
theorem equals_self : ∀ (t : Ty) (v : Val), Fits t v → equals v v = true
  | t, .plain p, _ => by simp [equals]
  | t, .real x, h => by
    cases t <;> simp only [Fits] at h
    simp only [equals]
    rw [dbl_equals]
    exact ⟨rfl, h⟩
  | t, .none, _ => by simp [equals]
  | t, .some v, h => by
    cases t <;> simp only [Fits] at h
    rename_i t
    simp only [equals]
    exact equals_self t v h
  | t, .vec l, h => by
    cases t <;> simp only [Fits] at h
    rename_i t
    simp only [equals, beq_self_eq_true, Bool.true_and]
    exact each_self t l h
  | t, .intMap k l, h => by
    cases t <;> simp only [Fits] at h
    rename_i t
    simp only [equals, beq_self_eq_true, Bool.true_and]
    exact each_self t l h.2.2
  | t, .obj s l, h => by
    cases t <;> simp only [Fits] at h
    obtain ⟨rfl, h⟩ := h
    simp only [equals, beq_self_eq_true, Bool.true_and]
    exact fields_self _ _ l (fun _ h => h) h
theorem fields_self (s : Struct) : ∀ (ms : List (Str × Ty)) (l : List Val), (∀ m ∈ ms, m ∈ s.members) → FitsAll (ms.map (·.2)) l → fieldsEqual s (ms.map (·.1)) l l = true
  | [], [], _, _ => by simp [fieldsEqual]
  | [], _ :: _, _, h => by simp [FitsAll] at h
  | _ :: _, [], _, h => by simp [FitsAll] at h
  | m :: ms, f :: fs, hm, h => by
    simp only [List.map_cons, FitsAll] at h
    have ih := fields_self s ms fs (fun x hx => hm x (by simp [hx])) h.2
    simp only [List.map_cons, fieldsEqual, ih, Bool.and_true]
    rcases how_cases (hm m (by simp)) with ⟨h1, h2⟩ | ⟨h1, h2, h3, h4⟩ | ⟨h1, h2, h3⟩
    · rw [h1]
    · rw [h1]
      exact near_self (h4 ▸ h.1)
    · rw [h1]
      exact equals_self _ f h.1
theorem each_self : ∀ (t : Ty) (l : List Val), FitsEach t l → eachEqual l l = true
  | _, [], _ => by simp [eachEqual]
  | t, v :: vs, h => by
    simp only [FitsEach] at h
    simp only [eachEqual, Bool.and_eq_true]
    exact ⟨equals_self t v h.1, each_self t vs h.2⟩
end

end Mx.ApiEq
