import Verif.Proofs.Supported

/-
Checks for concrete elements.
-/
open Mx.Spec
namespace Mx.Content

/-- An element of the declaration with its own name, or with the given one. -/
def validB : Nat → (Nat → Option Re) → Nat → Xml → Bool
  | 0, _, _, _ => false
  | f + 1, model, d, .elem n data kids => Nat.beq n (Schema.declName d) && (match model d with
    | none => false
    | some r => Re.included (Re.seqs ((kids.map (declOf d)).map .sym)) r) && (kids.all fun x => validB f model (declOf d x) x) && (!Nat.beq d (nm! "chord") || data.isEmpty)
where
  /-- `part` and `measure` have two declarations each. -/
  declOf (d : Nat) : Xml → Nat
    | .elem n _ _ =>
      if Nat.beq n (nm! "part") then (if Nat.beq d (nm! "score-partwise") then nm! "part (partwise)" else nm! "part (timewise)")
      else if Nat.beq n (nm! "measure") then (if Nat.beq d (nm! "score-timewise") then nm! "measure (timewise)" else nm! "measure (partwise)")
      else n

theorem syms_match : ∀ w : List Nat, (Re.seqs (w.map .sym)).Matches w
  | [] => rfl
  | x :: w => by
    rw [List.map_cons, seqs_cons_iff]
    exact ⟨[x], w, rfl, rfl, syms_match w⟩

theorem validB_parts {f : Nat} {model : Nat → Option Re} {d n : Nat} {data : Str} {kids : List Xml} (h : validB (f + 1) model d (.elem n data kids) = true) :
    n = Schema.declName d ∧ (∃ r, model d = some r ∧ r.Matches (kids.map (validB.declOf d))) ∧ (∀ p ∈ (kids.map (validB.declOf d)).zip kids, validB f model p.1 p.2 = true) ∧
      (d = nm! "chord" → data = []) := by
  simp only [validB, Bool.and_eq_true, Bool.or_eq_true, Bool.not_eq_true'] at h
  obtain ⟨⟨⟨h1, h2⟩, h3⟩, h4⟩ := h
  refine ⟨Nat.eq_of_beq_eq_true h1, ?_, ?_, ?_⟩
  · cases hm : model d with
    | none => rw [hm] at h2; cases h2
    | some r => rw [hm] at h2; exact ⟨r, rfl, Re.included_sound h2 (syms_match _)⟩
  · intro p hp
    have : kids.map id = kids := List.map_id _
    rw [← this, List.map_map] at hp
    obtain ⟨x, hx, rfl⟩ := zip_map_mem hp
    exact List.all_eq_true.mp h3 x hx
  · intro e
    rcases h4 with h4 | h4
    · rw [e] at h4; simp at h4
    · simpa using h4

theorem valid_of : ∀ (f : Nat) {d : Nat} {x : Xml}, validB f schemaModel d x = true → ValidFor d x
  | 0, _, _, h => by simp [validB] at h
  | f + 1, d, .elem n data kids, h => by
    obtain ⟨rfl, ⟨r, h2, h3⟩, h4, _⟩ := validB_parts h
    exact .mk d data kids r _ (schemaOf_mem h2) (by simp) h3 (fun p hp => valid_of f (h4 p hp))

theorem supported_of : ∀ (f : Nat) {d : Nat} {x : Xml}, validB f supportedModel d x = true → Supported d x
  | 0, _, _, h => by simp [validB] at h
  | f + 1, d, .elem n data kids, h => by
    obtain ⟨rfl, ⟨r, h2, h3⟩, h4, h5⟩ := validB_parts h
    exact .mk d data kids r _ h2 (by simp) h3 (fun p hp => supported_of f (h4 p hp)) h5

/-- What becomes of an element when it is read and written: `none` when the reader complains. -/
def rewrite (c : Cls) (x : Xml) : Option (List (Nat × Str)) :=
  let r := (x.child prog).read (make (.comp c))
  if r.2 then some (flat r.1.xml) else none

theorem rewrite_none {c : Cls} {x : Xml} (h : (rewrite c x).isNone = true) : ((x.child prog).read (make (.comp c))).2 = false := by
  cases hr : ((x.child prog).read (make (.comp c))).2 with
  | false => rfl
  | true => simp [rewrite, hr] at h

theorem rewrite_some {c : Cls} {x : Xml} (h : (rewrite c x).isSome = true) : ((x.child prog).read (make (.comp c))).2 = true := by
  cases hr : ((x.child prog).read (make (.comp c))).2 with
  | true => rfl
  | false => simp [rewrite, hr] at h

theorem rewrite_differs {c : Cls} {x : Xml} (h : decide (rewrite c x = some (flat x)) = false) : ((x.child prog).read (make (.comp c))).1.xml ≠ x ∨ ((x.child prog).read (make (.comp c))).2 = false := by
  cases hr : ((x.child prog).read (make (.comp c))).2 with
  | false => exact .inr rfl
  | true =>
    refine .inl ?_
    intro e
    rw [decide_eq_false_iff_not] at h
    apply h
    simp [rewrite, hr, e]

end Mx.Content
