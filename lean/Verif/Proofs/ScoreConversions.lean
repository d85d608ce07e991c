import Verif.Spec.ScoreConversions
import Mathlib.Data.List.Nodup
import Mathlib.Tactic.Common

/-! Helper lemmas about the conversions. -/
namespace Mx.Convert
open Spec

variable {H G A M : Type}

theorem find_map {β : Type} (F : Str → β) {ids : List Str} {id : Str} (h : id ∈ ids) :
    (ids.map (fun x => (x, F x))).find? (fun p => p.1 = id) = some (id, F id) := by
  induction ids with
  | nil => simp at h
  | cons x xs ih =>
    rw [List.map_cons, List.find?_cons]
    by_cases hx : x = id
    · subst hx; simp
    · simp only [hx, decide_false]
      exact ih (by exact (List.mem_cons.mp h).resolve_left (fun e => hx e.symm))

theorem fill_false {parts : List (Str × List (A × M))} {i : Nat} {g : Str → A × M} :
    ∀ (ids : List Str) (new : A × List (Str × M)),
      (∀ id ∈ ids, ∃ ms, parts.find? (fun p => p.1 = id) = some (id, ms) ∧ ms[i]? = some (g id)) →
      fillMeasure parts i ids false new = some ((ids.getLast?.map (fun id => (g id).1)).getD new.1, new.2 ++ ids.map (fun id => (id, (g id).2))) := by
  intro ids
  induction ids with
  | nil => intro new _; simp [fillMeasure]
  | cons x xs ih =>
    intro new h
    obtain ⟨ms, h1, h2⟩ := h x (by simp)
    simp only [fillMeasure, h1, h2]
    rw [ih _ (fun id hid => h id (by simp [hid]))]
    rcases xs with _ | ⟨y, ys⟩
    · simp
    · simp [List.getLast?_cons_cons]
      rfl

theorem fill_true {parts : List (Str × List (A × M))} {i : Nat} {g : Str → A × M} {ids : List Str} (hne : ids ≠ []) (new : A × List (Str × M))
    (h : ∀ id ∈ ids, ∃ ms, parts.find? (fun p => p.1 = id) = some (id, ms) ∧ ms[i]? = some (g id)) :
    fillMeasure parts i ids true new = some ((g (ids.getLast hne)).1, ids.map (fun id => (id, (g id).2))) := by
  rcases ids with _ | ⟨x, xs⟩
  · exact absurd rfl hne
  · obtain ⟨ms, h1, h2⟩ := h x (by simp)
    simp only [fillMeasure, h1, h2]
    rw [fill_false xs _ (fun id hid => h id (by simp [hid]))]
    rcases xs with _ | ⟨y, ys⟩
    · simp
    · simp only [List.getLast?_eq_some_getLast (List.cons_ne_nil y ys), Option.map_some, Option.getD_some, List.getLast_cons_cons]
      simp

theorem measureCount_eq {n : Nat} : ∀ (parts : List (Str × List (A × M))), parts ≠ [] → (∀ p ∈ parts, p.2.length = n) →
    measureCount parts = n := by
  have key : ∀ (parts : List (Str × List (A × M))) (k : Nat), (∀ p ∈ parts, p.2.length = n) → k ≤ n →
      parts.foldl (fun n p => if p.2.length > n then p.2.length else n) k = if parts = [] then k else n := by
    intro parts
    induction parts with
    | nil => intro k _ _; simp
    | cons p ps ih =>
      intro k h hk
      rw [List.foldl_cons, h p (by simp)]
      by_cases hk2 : n > k
      · rw [if_pos hk2, ih n (fun q hq => h q (by simp [hq])) (Nat.le_refl n)]; simp
      · rw [if_neg hk2, ih k (fun q hq => h q (by simp [hq])) hk]
        have : k = n := by omega
        simp [this]
  intro parts hne h
  unfold measureCount
  rw [key parts 0 h (Nat.zero_le n), if_neg hne]

theorem partIds_ne (h : Header H G) : partIds h ≠ [] := by simp [partIds]

theorem mapM_some {α β : Type} {f : α → Option β} {g : α → β} : ∀ {l : List α}, (∀ x ∈ l, f x = some (g x)) → l.mapM f = some (l.map g) := by
  intro l
  induction l with
  | nil => intro _; rfl
  | cons x xs ih =>
    intro h
    rw [List.mapM_cons, h x (by simp), ih (fun y hy => h y (by simp [hy]))]
    rfl

/-- The conversion of a score that has the parts of the part list, given by functions. -/
theorem tw_eq {f : Fresh A M} {v : Option Str} {h : Header H G} {n : Nat} (hn : 0 < n) (F : Str → Nat → A × M) :
    partwiseTimewise f { version := v, header := h, parts := (partIds h).map (fun id => (id, (List.range n).map (F id))) } =
      some { version := v, header := h,
             measures := (List.range n).map (fun i =>
               ((F ((partIds h).getLast (partIds_ne h)) i).1, (partIds h).map (fun id => (id, (F id i).2)))) } := by
  have hne := partIds_ne h
  have hc : measureCount ((partIds h).map (fun id => (id, (List.range n).map (F id)))) = n := by
    apply measureCount_eq
    · simp [hne]
    · intro p hp; obtain ⟨id, _, rfl⟩ := List.mem_map.mp hp; simp
  unfold partwiseTimewise
  simp only [hc]
  rw [mapM_some (g := fun i => ((F ((partIds h).getLast hne) i).1, (partIds h).map (fun id => (id, (F id i).2))))]
  · simp only [Option.bind_eq_bind, Option.bind_some]
    rw [if_neg]
    simp; omega
  · intro i hi
    refine fill_true (g := fun id => F id i) hne _ (fun id hid => ⟨_, find_map _ hid, ?_⟩)
    rw [List.getElem?_map, List.getElem?_range (List.mem_range.mp hi)]; rfl

/-- The conversion back. -/
theorem pw_eq {f : Fresh A M} {v : Option Str} {h : Header H G} {n : Nat} (hn : 0 < n) (a : Nat → A) (F : Str → Nat → M) :
    timewisePartwise f { version := v, header := h, measures := (List.range n).map (fun i => (a i, (partIds h).map (fun id => (id, F id i)))) } =
      { version := v, header := h, parts := (partIds h).map (fun id => (id, (List.range n).map (fun i => (a i, F id i)))) } := by
  unfold timewisePartwise
  simp only [Partwise.mk.injEq, true_and]
  apply List.map_congr_left
  intro id hid
  simp only [Prod.mk.injEq, true_and, measuresOf]
  rw [if_neg (by simp; omega), List.map_map]
  apply List.map_congr_left
  intro i _
  simp only [Function.comp, musicOf]
  rw [find_map _ hid]

theorem range_map_getD {α : Type} (l : List α) (d : α) : (List.range l.length).map (fun i => (l[i]?).getD d) = l := by
  apply List.ext_getElem (by simp)
  intro i h1 h2
  simp [h2]

/-- A rectangular score is given by functions. -/
theorem rect_eq (f : Fresh A M) {s : Partwise H G A M} {n : Nat} (hr : Rectangular s n) :
    ∃ F : Str → Nat → A × M, s.parts = (partIds s.header).map (fun id => (id, (List.range n).map (F id))) := by
  obtain ⟨h1, h2, _, h4⟩ := hr
  refine ⟨fun id i => (((s.parts.find? (fun p => p.1 = id)).map (fun p => (p.2[i]?).getD (f.attr, f.music))).getD (f.attr, f.music)), ?_⟩
  rw [← h1] at h2 ⊢
  rw [List.map_map]
  conv_lhs => rw [← List.map_id s.parts]
  apply List.map_congr_left
  intro p hp
  have hf : s.parts.find? (fun q => q.1 = p.1) = some p := by
    obtain ⟨q, hq⟩ : ∃ q, s.parts.find? (fun q => q.1 = p.1) = some q := by
      cases hx : s.parts.find? (fun q => q.1 = p.1) with
      | some q => exact ⟨q, rfl⟩
      | none => have := List.find?_eq_none.mp hx p hp; simp at this
    have hq1 := List.find?_some hq
    have hq2 := List.mem_of_find?_eq_some hq
    rw [hq, List.inj_on_of_nodup_map h2 hq2 hp (by simpa using hq1)]
  simp only [id, Function.comp, hf, Option.map_some, Option.getD_some]
  rw [← h4 p hp, range_map_getD]

/-- The result of `timewisePartwise` is given by functions, for every timewise score. -/
theorem pw_form (f : Fresh A M) (s : Timewise H G A M) : ∃ n > 0, ∃ (a : Nat → A) (F : Str → Nat → M),
    timewisePartwise f s =
      { version := s.version, header := s.header, parts := (partIds s.header).map (fun id => (id, (List.range n).map (fun i => (a i, F id i)))) } := by
  by_cases hm : s.measures = []
  · exact ⟨1, by omega, fun _ => f.attr, fun _ _ => f.music, by simp [timewisePartwise, measuresOf, hm]⟩
  · refine ⟨s.measures.length, List.length_pos_iff.mpr hm, fun i => ((s.measures[i]?).map Prod.fst).getD f.attr,
      fun id i => ((s.measures[i]?).map (musicOf f id)).getD f.music, ?_⟩
    unfold timewisePartwise
    simp only [Partwise.mk.injEq, true_and]
    apply List.map_congr_left
    intro id _
    simp only [Prod.mk.injEq, true_and, measuresOf, if_neg hm]
    apply List.ext_getElem (by simp)
    intro i h1 h2
    have h3 : i < s.measures.length := by simpa using h1
    simp [h3]

/-- Converting a timewise score to partwise, back and again to partwise changes nothing. -/
theorem pw_tw_pw (f : Fresh A M) (s : Timewise H G A M) :
    ∃ t, partwiseTimewise f (timewisePartwise f s) = some t ∧ timewisePartwise f t = timewisePartwise f s := by
  obtain ⟨n, hn, a, F, he⟩ := pw_form f s
  rw [he]
  exact ⟨_, tw_eq hn (fun id i => (a i, F id i)), pw_eq hn a F⟩

end Mx.Convert
