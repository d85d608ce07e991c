import Verif.Proofs.AttributeTables
import Verif.Props.IntegerProps

/-
Reading attributes: a value that is not accepted is not forgotten by the lines that follow.
-/
open Spec
namespace Mx

theorem clampInt_bounds {lo hi : Int} (h : lo ≤ hi) (v : Int) : lo ≤ clampInt lo hi v ∧ clampInt lo hi v ≤ hi := by
  unfold clampInt; split
  · exact ⟨le_refl _, h⟩
  · split <;> omega

theorem clampInt_of_mem {lo hi v : Int} (h1 : lo ≤ v) (h2 : v ≤ hi) : clampInt lo hi v = v := by
  unfold clampInt; rw [if_neg (by omega), if_neg (by omega)]

namespace AttrClass

/-- The class of a value, for the classes with a check. -/
def HasType : AttrType → AttrValue → Prop
  | .enum n, .enum m _ => n = m
  | .enum _, _ => False
  | .int k, .int r => ∃ w, InInt w ∧ r = IntRange.ofKind k w
  | .int _, _ => False
  | _, _ => True

/-- Every member has its class. -/
def Typed (c : AttrClass) (o : AttrObject) : Prop :=
  ∀ (i : Nat) (m : AttrMember) (f : AttrField), c.members[i]? = some m → o[i]? = some f → HasType m.type f.value

theorem hasType_parse {t : AttrType} {v w : AttrValue} {s : Str} {ok : Bool} (h : HasType t v) (hp : v.parse s = some (ok, w)) : HasType t w := by
  cases t with
  | enum n =>
    cases v with
    | enum m x => cases h; injection hp with hp; injection hp with _ hp; rw [← hp]; rfl
    | _ => cases h
  | int k =>
    cases v with
    | int r =>
      obtain ⟨u, hu, rfl⟩ := h
      injection hp with hp; injection hp with _ hp; rw [← hp]
      show ∃ w, InInt w ∧ ((IntRange.ofKind k u).parse s).2 = IntRange.ofKind k w
      rcases Props.C17_int_parse (IntRange.ofKind k u) s with ⟨v, _, hv, e⟩ | ⟨_, e⟩
      · exact ⟨v, hv, by rw [e]; rfl⟩
      · exact ⟨u, hu, by rw [e]⟩
    | _ => cases h
  | _ => trivial

theorem hasType_spacing {t : AttrType} {v : AttrValue} (h : HasType t v) (a b : Bool) : HasType t (if a then v.setSpacing b else v) := by
  cases a with
  | false => exact h
  | true =>
    cases v with
    | commaInts c => cases t <;> first | exact h | trivial
    | _ => exact h

theorem typed_set {c : AttrClass} {o : AttrObject} (h : c.Typed o) (i : Nat) (g : AttrField)
    (hg : ∀ m, c.members[i]? = some m → HasType m.type g.value) : c.Typed (o.set i g) := by
  intro j m f hm hf
  by_cases hj : i = j
  · subst hj
    rw [List.getElem?_set_self'] at hf
    obtain ⟨y, _, rfl⟩ := Option.map_eq_some_iff.mp hf
    exact hg m hm
  · rw [List.getElem?_set_ne hj] at hf
    exact h j m f hm hf

theorem typed_flag {c : AttrClass} {st : ReadState} (h : c.Typed st.obj) (fl : AttrFlag) : c.Typed (st.setFlag fl).obj := by
  cases fl with
  | found i => exact h
  | has i =>
    intro j m f hm hf
    have hf' : (st.obj.modify i (fun f => { f with present := true }))[j]? = some f := hf
    by_cases hj : i = j
    · subst hj
      rw [List.getElem?_modify_eq] at hf'
      obtain ⟨y, hy, rfl⟩ := Option.map_eq_some_iff.mp hf'
      exact h i m y hm hy
    · rw [List.getElem?_modify_ne _ _ hj] at hf'
      exact h j m f hm hf'

theorem setFlag_success (st : ReadState) (fl : AttrFlag) : (st.setFlag fl).success = st.success := by cases fl <;> rfl

/-- What an attribute needs for success. -/
def Accepted (c : AttrClass) (a : Str × Str) : Prop := ∀ l i m, c.lineFor a.1 = some l → l.member = some i → c.members[i]? = some m →
  ∃ old new, HasType m.type old ∧ old.parse a.2 = some (true, new)

theorem readOne_success (c : AttrClass) (st st' : ReadState) (a : Str × Str) (h : c.Typed st.obj) (hr : c.readOne st a = some st') :
    c.Typed st'.obj ∧ (st'.success = true → st.success = true ∧ c.Accepted a) := by
  unfold readOne at hr
  cases hl : c.lineFor a.1 with
  | none =>
    rw [hl] at hr; cases hr
    exact ⟨h, fun hs => ⟨hs, fun l i m hl' => by rw [hl] at hl'; cases hl'⟩⟩
  | some l =>
    rw [hl] at hr
    obtain ⟨s0, h0, rfl⟩ := Option.map_eq_some_iff.mp hr
    rw [setFlag_success]
    unfold ReadState.assign at h0
    cases hm : l.member with
    | none =>
      rw [hm] at h0; cases h0
      refine ⟨typed_flag h _, fun hs => ⟨hs, fun l' i m hl' hi => ?_⟩⟩
      rw [hl] at hl'; cases hl'; rw [hm] at hi; cases hi
    | some i =>
      rw [hm] at h0
      dsimp only at h0
      cases ho : st.obj[i]? with
      | none => rw [ho] at h0; cases h0
      | some f =>
        rw [ho] at h0
        dsimp only at h0
        cases hp : f.value.parse a.2 with
        | none => rw [hp] at h0; cases h0
        | some p =>
          obtain ⟨ok, v⟩ := p
          rw [hp] at h0
          cases h0
          refine ⟨typed_flag (typed_set h i _ (fun m hm' => ?_)) _, fun hs => ?_⟩
          · exact hasType_spacing (hasType_parse (h i m f hm' ho) hp) _ _
          · rw [Bool.and_eq_true] at hs
            refine ⟨hs.1, fun l' i' m hl' hi hm' => ?_⟩
            rw [hl] at hl'; cases hl'; rw [hm] at hi; cases hi
            exact ⟨f.value, v, h i m f hm' ho, by rw [hp, hs.2]⟩

theorem readAll_success (c : AttrClass) (as : List (Str × Str)) (st st' : ReadState) (h : c.Typed st.obj) (hr : c.readAll st as = some st')
    (hs : st'.success = true) : st.success = true ∧ ∀ a ∈ as, c.Accepted a := by
  induction as generalizing st with
  | nil => cases hr; exact ⟨hs, fun a ha => by cases ha⟩
  | cons a t ih =>
    obtain ⟨s1, h1, h2⟩ := Option.bind_eq_some_iff.mp hr
    obtain ⟨g1, g2⟩ := readOne_success c st s1 a h h1
    obtain ⟨g3, g4⟩ := ih s1 g1 h2
    refine ⟨(g2 g3).1, fun b hb => ?_⟩
    rcases List.mem_cons.mp hb with rfl | hb
    · exact (g2 g3).2
    · exact g4 b hb

theorem fresh_typed {c : AttrClass} {o : AttrObject} (h : FreshObject c o) : c.Typed o := by
  intro i m f hm hf
  have := (h.2 i m f hm hf).2
  cases ht : m.type with
  | enum n =>
    rw [ht] at this
    cases hv : f.value with
    | enum k x => rw [hv] at this; exact this
    | _ => rw [hv] at this; cases this
  | int k =>
    rw [ht] at this
    cases hv : f.value with
    | int r =>
      rw [hv] at this
      obtain ⟨v, rfl⟩ := this
      have hk : InInt k.bounds.1 ∧ InInt k.bounds.2 ∧ k.bounds.1 ≤ k.bounds.2 := by cases k <;> decide
      have hb : k.bounds.1 ≤ (IntRange.ofKind k v).value ∧ (IntRange.ofKind k v).value ≤ k.bounds.2 := clampInt_bounds hk.2.2 v
      refine ⟨(IntRange.ofKind k v).value, ⟨le_trans hk.1.1 hb.1, le_trans hb.2 hk.2.1.2⟩, ?_⟩
      show IntRange.mk _ _ (clampInt _ _ v) = IntRange.mk _ _ (clampInt _ _ (clampInt _ _ v))
      congr 1
      exact (clampInt_of_mem hb.1 hb.2).symm
    | _ => rw [hv] at this; cases this
  | _ => trivial

end AttrClass
end Mx
