import Verif.Spec.WholeFile

/-
Lemmas for C74: the tree of element objects determines the element.
-/
open Spec
namespace Mx.XmlDoc

theorem code_append (s : Str) (c : Char) : nameCode (s ++ [c]) = nameCode s * 256 + c.toNat := by simp [nameCode]

theorem code_ne {s : Str} (h : ∀ c ∈ s, c ≠ '\x00' ∧ c.toNat < 256) (hs : s ≠ []) : nameCode s ≠ 0 := by
  obtain ⟨t, c, rfl⟩ : ∃ t c, s = t ++ [c] := ⟨s.dropLast, s.getLast hs, (List.dropLast_append_getLast hs).symm⟩
  rw [code_append]
  have h1 := (h c (by simp)).1
  have h2 : c.toNat ≠ 0 := by
    intro h0
    apply h1
    apply Char.ext
    apply UInt32.toNat.inj
    exact h0
  omega

theorem code_inj : ∀ {s t : Str}, (∀ c ∈ s, c ≠ '\x00' ∧ c.toNat < 256) → (∀ c ∈ t, c ≠ '\x00' ∧ c.toNat < 256) → nameCode s = nameCode t → s = t := by
  have key : ∀ (n : Nat) (s t : Str), s.length = n → (∀ c ∈ s, c ≠ '\x00' ∧ c.toNat < 256) → (∀ c ∈ t, c ≠ '\x00' ∧ c.toNat < 256) → nameCode s = nameCode t → s = t := by
    intro n
    induction n with
    | zero =>
      intro s t hl _ ht he
      rw [List.length_eq_zero_iff] at hl
      subst hl
      by_cases h0 : t = []
      · exact h0.symm
      · exact absurd he.symm (code_ne ht h0)
    | succ n ih =>
      intro s t hl hs ht he
      have hs0 : s ≠ [] := by rintro rfl; simp at hl
      have ht0 : t ≠ [] := by
        rintro rfl
        exact code_ne hs hs0 he
      obtain ⟨s', c, rfl⟩ : ∃ t c, s = t ++ [c] := ⟨s.dropLast, s.getLast hs0, (List.dropLast_append_getLast hs0).symm⟩
      obtain ⟨t', d, rfl⟩ : ∃ u c, t = u ++ [c] := ⟨t.dropLast, t.getLast ht0, (List.dropLast_append_getLast ht0).symm⟩
      rw [code_append, code_append] at he
      have h1 := (hs c (by simp)).2
      have h2 := (ht d (by simp)).2
      have h3 : nameCode s' = nameCode t' := by omega
      have h4 : c.toNat = d.toNat := by omega
      have h5 : c = d := Char.ext (UInt32.toNat.inj h4)
      rw [h5, ih s' t' (by simpa using hl) (fun x hx => hs x (by simp [hx])) (fun x hx => ht x (by simp [hx])) h3]
  intro s t
  exact key _ s t rfl

mutual
theorem tree_inj {join : List (Str × Str) → Str → Str} (hj : Faithful join) : ∀ (e e' : Elem), Plain e → Plain e' → tree join e = tree join e' → e = e'
  | .mk n a p v ks, .mk n' a' p' v' ks', h, h', he => by
    simp only [Plain] at h h'
    simp only [tree, Content.Xml.elem.injEq] at he
    obtain ⟨h1, h2, h3⟩ := h
    obtain ⟨h1', h2', h3'⟩ := h'
    obtain ⟨ha, hv⟩ := hj.1 _ _ _ _ he.2.1
    rw [code_inj h1 h1' he.1, ha, hv, h2, h2', trees_inj hj ks ks' h3 h3' he.2.2]
theorem trees_inj {join : List (Str × Str) → Str → Str} (hj : Faithful join) : ∀ (l l' : List Elem), PlainAll l → PlainAll l' → trees join l = trees join l' → l = l'
  | [], [], _, _, _ => rfl
  | [], _ :: _, _, _, he => by simp [trees] at he
  | _ :: _, [], _, _, he => by simp [trees] at he
  | e :: es, e' :: es', h, h', he => by
    simp only [PlainAll] at h h'
    simp only [trees, List.cons.injEq] at he
    rw [tree_inj hj e e' h.1 h'.1 he.1, trees_inj hj es es' h.2 h'.2 he.2]
end

end Mx.XmlDoc
