import Verif.Spec.Stable
import Verif.Proofs.Inclusion

/-
Valid elements are in the order that the readers expect.
-/
open Mx.Spec
namespace Mx.Content

/-- Names that can be in front, and at the end, of a lyric. -/
def lyricFront : Re := .star (.alts [.sym (nm! "syllabic"), .sym (nm! "text"), .sym (nm! "elision"), .sym (nm! "extend"), .sym (nm! "laughing"), .sym (nm! "humming")])
def lyricBack : Re := .star (.alts [.sym (nm! "end-line"), .sym (nm! "end-paragraph"), .sym (nm! "footnote"), .sym (nm! "level")])

set_option maxRecDepth 100000 in
theorem lyric_included : (Schema.decls.all fun p => !Nat.beq p.1 (nm! "lyric") || Re.included p.2 (.seq lyricFront lyricBack)) = true := by decide +kernel

theorem lyric_matches {r : Re} (h : (nm! "lyric", r) ∈ Schema.decls) {w : List Nat} (hw : r.Matches w) : (Re.seq lyricFront lyricBack).Matches w := by
  have h1 := List.all_eq_true.mp lyric_included _ h
  rw [show Nat.beq (nm! "lyric") (nm! "lyric") = true from by decide +kernel] at h1
  exact Re.included_sound h1 hw

theorem alts_syms : ∀ (l : List Nat) (p : Nat → Bool) (_ : l.all p = true) (w : List Nat), (Re.alts (l.map Re.sym)).Matches w → w.all p = true
  | [], _, _, _, h => by
    obtain ⟨ws, _, h1, h2, _⟩ := h
    have := h2 0 rfl
    omega
  | [t], p, hp, w, h => by
    have h : w = [t] := h
    rw [h]
    exact hp
  | t :: t' :: l, p, hp, w, h => by
    rw [List.all_cons, Bool.and_eq_true] at hp
    rcases h with h | h
    · have h : w = [t] := h
      rw [h, List.all_cons, hp.1]
      rfl
    · exact alts_syms (t' :: l) p hp.2 w h

theorem star_syms (l : List Nat) (p : Nat → Bool) (hp : l.all p = true) {w : List Nat} (h : (Re.star (Re.alts (l.map Re.sym))).Matches w) : w.all p = true := by
  obtain ⟨ws, rfl, _, _, h⟩ := h
  rw [List.all_eq_true]
  intro t ht
  obtain ⟨u, hu, htu⟩ := List.mem_flatten.mp ht
  exact List.all_eq_true.mp (alts_syms l p hp u (h u hu)) t htu

theorem order_of : ∀ (a b : List Nat), a.all (fun t => !endB t) = true → b.all (fun t => !lateB t) = true → orderB (a ++ b) = true
  | [], [], _, _ => rfl
  | [], t :: b, _, hb => by
    rw [List.all_cons, Bool.and_eq_true] at hb
    rw [List.nil_append, orderB, hb.2, Bool.or_true, Bool.true_and]
    exact order_of [] b rfl hb.2
  | t :: a, b, ha, hb => by
    rw [List.all_cons, Bool.and_eq_true] at ha
    rw [List.cons_append, orderB, ha.1, Bool.true_or, Bool.true_and]
    exact order_of a b ha.2 hb

theorem map_names : ∀ (ds : List Nat) (kids : List Xml), ds.length = kids.length → (∀ p ∈ ds.zip kids, xmlName p.2 = Schema.declName p.1) → kids.map xmlName = ds.map Schema.declName
  | [], [], _, _ => rfl
  | [], _ :: _, h, _ => by cases h
  | _ :: _, [], h, _ => by cases h
  | d :: ds, x :: xs, h, hp => by
    rw [List.map_cons, List.map_cons, map_names ds xs (by simpa using h) (fun p hp' => hp p (by rw [List.zip_cons_cons]; exact List.mem_cons_of_mem _ hp')),
      show xmlName x = Schema.declName d from hp (d, x) (by rw [List.zip_cons_cons]; exact List.mem_cons_self ..)]

theorem map_self (p : Nat → Bool) (hp : ∀ d, p d = true → Schema.declName d = d) : ∀ (l : List Nat), l.all p = true → l.map Schema.declName = l
  | [], _ => rfl
  | d :: l, h => by
    rw [List.all_cons, Bool.and_eq_true] at h
    rw [List.map_cons, hp d h.1, map_self p hp l h.2]

def declB (d : Nat) : Bool := !Nat.beq (Schema.declName d) 0 && !Nat.beq (Schema.declName d) (nm! "other-notations") && (!Nat.beq (Schema.declName d) (nm! "lyric") || Nat.beq d (nm! "lyric"))

set_option maxRecDepth 100000 in
theorem decl_check : (Schema.decls.all fun p => declB p.1) = true := by decide +kernel

theorem self_name {d : Nat} (h : Nat.blt d (nm! "part (partwise)") = true) : Schema.declName d = d := by
  have h := Nat.ble_eq.mp h
  unfold Schema.declName
  rw [if_neg, if_neg]
  · rintro (rfl | rfl) <;> revert h <;> decide +kernel
  · rintro (rfl | rfl) <;> revert h <;> decide +kernel

theorem valid_order {ds : List Nat} (h : (Re.seq lyricFront lyricBack).Matches ds) : orderB (ds.map Schema.declName) = true := by
  obtain ⟨u, v, rfl, hu, hv⟩ := h
  have f : ∀ p : Nat → Bool, [nm! "syllabic", nm! "text", nm! "elision", nm! "extend", nm! "laughing", nm! "humming"].all p = true → u.all p = true := fun p hp => star_syms _ p hp hu
  have b : ∀ p : Nat → Bool, [nm! "end-line", nm! "end-paragraph", nm! "footnote", nm! "level"].all p = true → v.all p = true := fun p hp => star_syms _ p hp hv
  have e : (u ++ v).map Schema.declName = u ++ v := by
    refine map_self (fun d => Nat.blt d (nm! "part (partwise)")) (fun d hd => self_name hd) _ ?_
    rw [List.all_append, f _ (by decide +kernel), b _ (by decide +kernel)]
    rfl
  rw [e]
  exact order_of u v (f _ (by decide +kernel)) (b _ (by decide +kernel))

theorem valid_name {d : Nat} {x : Xml} (h : ValidFor d x) : xmlName x = Schema.declName d := by
  cases h
  rfl

theorem valid_tidy {d : Nat} {x : Xml} (h : ValidFor d x) : BareTexts x → Tidy x := by
  induction h with
  | mk d data kids r ds hd hl hm hk ih =>
    intro ht
    cases ht with
    | elem _ _ _ h1 h2 =>
      have hc := List.all_eq_true.mp decl_check _ hd
      simp only [declB, Bool.and_eq_true, Bool.or_eq_true, Bool.not_eq_true'] at hc
      refine .elem _ _ _ ⟨?_, ?_, h1, ?_⟩ ?_
      · intro e; rw [e] at hc; exact absurd hc.1.1 (by decide)
      · intro e; rw [e] at hc; exact absurd hc.1.2 (by decide +kernel)
      · intro e
        rw [e] at hc
        rcases hc.2 with hc | hc
        · exact absurd hc (by decide +kernel)
        · have hc := Nat.eq_of_beq_eq_true hc
          subst hc
          rw [map_names ds kids hl fun p hp => valid_name (hk p hp)]
          exact valid_order (lyric_matches hd hm)
      · intro x hx
        obtain ⟨i, hi, rfl⟩ := List.mem_iff_getElem.mp hx
        have hz : (ds[i]'(by omega), kids[i]) ∈ ds.zip kids := by
          rw [List.mem_iff_getElem]
          exact ⟨i, by rw [List.length_zip]; omega, by rw [List.getElem_zip]⟩
        exact ih _ hz (h2 _ hx)

end Mx.Content
