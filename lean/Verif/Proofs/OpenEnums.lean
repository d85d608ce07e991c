import Verif.Proofs.SchemaEnums
import Verif.Spec.OpenEnums

/-! Helper lemmas about the open text types. -/
namespace Mx
open Spec

/-- What the enumeration and the text stand for. -/
def OpenName.abs {o : OpenName} (v : o.Value) : OpenText o := if v.enum = OpenEnum.other then .own v.custom else .named v.enum

/-- The text is empty unless it is in use. -/
def OpenName.Ok {o : OpenName} (v : o.Value) : Prop := v.enum ≠ OpenEnum.other → v.custom = []

theorem open_stringEnum (o : OpenName) : (OpenName.openEnum o).toStringEnum = EnumName.stringEnum o.enumName := by cases o <;> rfl

theorem open_row {o : OpenName} {e : o.enumName.Carrier} {s : Str} :
    (e, s) ∈ schemaRows o.enumName ↔ (OpenName.openEnum o).toStringEnum.toStr e = s := by
  rw [open_stringEnum]
  obtain ⟨h1, h2⟩ := schemaAgrees_all o.enumName
  exact ⟨fun h => h2 _ h, fun h => h ▸ h1 e⟩

theorem open_parse {o : OpenName} {e : o.enumName.Carrier} {s : Str} :
    @tryParse _ (OpenName.openEnum o).toStringEnum s = some e ↔ (e, s) ∈ schemaRows o.enumName := by
  rw [open_row, open_stringEnum]
  exact ⟨fun h => ((roundTrips_all _ e s).mp h).symm, fun h => (roundTrips_all _ e s).mpr h.symm⟩

theorem open_other (o : OpenName) : ((OpenEnum.other : o.enumName.Carrier), otherName o) ∈ schemaRows o.enumName := by
  cases o <;> decide +kernel

theorem open_other_iff {o : OpenName} {e : o.enumName.Carrier} : e = OpenEnum.other ↔ (e, otherName o) ∈ schemaRows o.enumName := by
  constructor
  · rintro rfl; exact open_other o
  · intro h
    have h1 := open_parse.mpr h
    rw [open_parse.mpr (open_other o)] at h1
    injection h1 with h1; exact h1.symm

theorem open_setEnum {o : OpenName} (v : o.Value) (e : o.enumName.Carrier) (hv : OpenName.Ok v) :
    OpenName.Ok (v.setEnum e) ∧ OpenText.Step (OpenName.abs v) (.setEnum e) (OpenName.abs (v.setEnum e)) := by
  by_cases he : e = OpenEnum.other
  · have h1 : v.setEnum e = { v with enum := e } := by
      rw [OpenValue.setEnum, if_neg]; rintro ⟨h, _⟩; exact h he
    rw [h1]
    refine ⟨fun h => absurd he h, ?_⟩
    have h2 : OpenName.abs ({ v with enum := e } : o.Value) = .own v.custom := if_pos he
    rw [h2]
    by_cases hc : v.enum = OpenEnum.other
    · have h3 : OpenName.abs v = .own v.custom := if_pos hc
      rw [h3]; exact .ownAgain (open_other_iff.mp he)
    · have h3 : OpenName.abs v = .named v.enum := if_neg hc
      rw [h3, hv hc]; exact .ownNew (open_other_iff.mp he)
  · have h1 : v.setEnum e = { enum := e, custom := [] } := by
      by_cases hc : v.custom = []
      · rw [OpenValue.setEnum, if_neg]
        · cases v; cases hc; rfl
        · rintro ⟨_, h⟩; exact h hc
      · rw [OpenValue.setEnum, if_pos ⟨he, hc⟩]
    rw [h1]
    refine ⟨fun _ => rfl, ?_⟩
    have h2 : OpenName.abs ({ enum := e, custom := [] } : o.Value) = .named e := if_neg he
    rw [h2]
    refine .named (s := (OpenName.openEnum o).toStringEnum.toStr e) (open_row.mpr rfl) ?_
    intro h
    exact he (open_other_iff.mpr (open_row.mpr h))

theorem open_setText {o : OpenName} (v : o.Value) (s : Str) (hs : s ≠ otherName o) :
    OpenName.Ok (v.setText s) ∧ OpenText.Denotes s (OpenName.abs (v.setText s)) := by
  cases h : @tryParse _ (OpenName.openEnum o).toStringEnum s with
  | some e =>
    have h1 : v.setText s = { enum := e, custom := [] } := by rw [OpenValue.setText]; simp only [h]
    have hm := open_parse.mp h
    have he : e ≠ OpenEnum.other := by
      rintro rfl
      exact hs ((open_row.mp hm).symm.trans (open_row.mp (open_other o)))
    have h2 : OpenName.abs ({ enum := e, custom := [] } : o.Value) = .named e := if_neg he
    rw [h1, h2]
    exact ⟨fun _ => rfl, hm, hs⟩
  | none =>
    have h1 : v.setText s = { v.setEnum OpenEnum.other with custom := s } := by rw [OpenValue.setText]; simp only [h]
    have h3 : (v.setEnum OpenEnum.other).enum = OpenEnum.other := by
      rw [OpenValue.setEnum]; split <;> rfl
    have h2 : OpenName.abs ({ v.setEnum OpenEnum.other with custom := s } : o.Value) = .own s := if_pos h3
    rw [h1, h2]
    refine ⟨fun h => absurd h3 h, rfl, ?_⟩
    intro e he
    rw [open_parse.mpr he] at h; cases h

end Mx
