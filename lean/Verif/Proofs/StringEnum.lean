import Verif.Model.StringEnum

/-! Helper lemmas about enumerations with a text form. -/
namespace Mx

theorem ifChain_some {α : Type} {l : List (Str × α)} {s : Str} {x : α} (h : ifChain l s = some x) : (s, x) ∈ l := by
  induction l with
  | nil => cases h
  | cons p t ih =>
    obtain ⟨k, v⟩ := p
    rw [ifChain] at h
    split at h
    · rename_i hk; injection h with h; subst hk; subst h; simp
    · exact List.mem_cons_of_mem _ (ih h)

/-- The text of every value is parsed back to it, and no other text is parsed to it. -/
def RoundTrips (α : Type) [StringEnum α] : Prop := ∀ (x : α) (s : Str), tryParse s = some x ↔ s = StringEnum.toStr x

/-- The chain lists only texts of `toString`. -/
def rowsAgree (α : Type) [StringEnum α] : Bool := (StringEnum.chain (α := α)).all (fun p => decide (p.1 = StringEnum.toStr p.2))

theorem roundTrips_of {α : Type} [StringEnum α] (h1 : ∀ x : α, tryParse (StringEnum.toStr x) = some x) (h2 : rowsAgree α = true) : RoundTrips α := by
  intro x s
  constructor
  · intro h
    have hm := ifChain_some h
    have := List.all_eq_true.mp h2 _ hm
    simpa using this
  · rintro rfl; exact h1 x

end Mx
