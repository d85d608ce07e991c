import Verif.Spec.Loaded
import Verif.Proofs.LoadedMain
import Verif.Proofs.SupportedSamples

/-
What is written after reading, against the wider content models.
-/
open Mx.Spec
namespace Mx.Content

def wideB (c : Cls) : Bool :=
  Nat.beq c.info.name 0 || match wideModel (classDecl c) with
    | none => false
    | some r => Re.included (elementRe loaded noOver c) r

set_option maxRecDepth 100000 in
theorem check_wide : allCls.all wideB = true := by decide +kernel

theorem wide_class {c : Cls} (hn : c.info.name ≠ 0) : ∃ r, wideModel (classDecl c) = some r ∧ ∀ w, (elementRe loaded noOver c).Matches w → r.Matches w := by
  have h := List.all_eq_true.mp check_wide c (mem_allCls c)
  unfold wideB at h
  rw [Bool.or_eq_true] at h
  rcases h with h | h
  · exact absurd (Nat.eq_of_beq_eq_true h) hn
  · cases hs : wideModel (classDecl c) with
    | none => rw [hs] at h; cases h
    | some r =>
      rw [hs] at h
      exact ⟨r, rfl, fun w hw => Re.included_sound h hw⟩

theorem wide_leaf {t : Nat} (h : t ∈ leafNames) : wideModel t = some .eps ∧ Schema.declName t = t := by
  have hc : leafNames.all (fun t => isEps (wideModel t) && Nat.beq (Schema.declName t) t) = true := by decide +kernel
  have := List.all_eq_true.mp hc t h
  simp only [Bool.and_eq_true] at this
  exact ⟨isEps_eq this.1, Nat.eq_of_beq_eq_true this.2⟩

theorem near_tree (n : Node) (hn : Sane n) :
    (n.kind.named = true → NearlyValid (kindDecl n.kind) n.xml) ∧ ∀ it ∈ n.write.body, NearlyValid (kindDecl it.kind) it.xml := by
  match n, hn with
  | .leaf t h d, hn =>
    obtain ⟨h1, h2⟩ := wide_leaf (sane_tree.leaf hn)
    refine ⟨fun _ => ?_, by simp [Node.write]⟩
    have := NearlyValid.mk t d [] .eps [] h1 rfl rfl (by simp)
    rw [h2] at this
    simpa [Node.kind, kindDecl, Node.xml, Node.write] using this
  | .comp c d k ss, hn =>
    have hsh := sane_tree.shape hn
    have hbody : ∀ it ∈ (Node.write (.comp c d k ss)).body, NearlyValid (kindDecl it.kind) it.xml := by
      intro it hit
      obtain ⟨s, hs, m, hm, h⟩ := body_mem hsh hit
      have hlt := sizeOf_kid (c := c) (d := d) (k := k) hs hm
      have ih := near_tree m (sane_tree.kids hn s hs m hm)
      rcases h with ⟨rfl, hnm⟩ | h
      · rw [write_element_kind]
        exact ih.1 hnm
      · exact ih.2 it h
    refine ⟨fun hnm => ?_, hbody⟩
    have hname : c.info.name ≠ 0 := by
      intro h0
      simp [Node.kind, Kind.named, h0] at hnm
    obtain ⟨r, hr, hm⟩ := wide_class hname
    rw [write_xml, ← class_declName c]
    have hmatch := hm _ (elementRe_matches sane_tree c d k ss hn)
    refine NearlyValid.mk (classDecl c) d _ r _ hr ?_ hmatch ?_
    · simp [itemDecls]
    · intro p hp
      obtain ⟨it, hit, rfl⟩ := zip_map_mem hp
      exact hbody it (mem_children hit)
termination_by sizeOf n
decreasing_by exact hlt

theorem named_class {c : Cls} (h : c.info.name ≠ 0) : (Kind.comp c).named = true := by
  cases hb : Nat.beq c.info.name 0 with
  | true => exact absurd (Nat.eq_of_beq_eq_true hb) h
  | false => simp [Kind.named, hb]

theorem near_read {c : Cls} (hc : c.info.name ≠ 0) (x : Xml) : NearlyValid (classDecl c) (readAndWrite c x) := by
  have h := sane_read c x
  have h2 := (near_tree _ h.1).1
  rw [h.2] at h2
  exact h2 (named_class hc)

end Mx.Content
