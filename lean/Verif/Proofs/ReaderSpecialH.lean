import Verif.Proofs.ReaderSpecialG

/-
Arrows.
-/
open Mx.Spec
namespace Mx.Content

/-! ## `arrow` -/

/-- Reading a second time into what has been read from an element without children. -/
theorem leaf_again {n t n' : Node} {a : Nat} {h : Bool} (ht : t.kind = .leaf a h) (hr : (kidOf n).read t = (n', true)) : (kidOf n).read n' = (n', true) := by
  cases t with
  | comp => simp [Node.kind] at ht
  | leaf a' h' x =>
    cases e : (whole n).element with
    | elem name data kids =>
      rw [kidOf, e] at hr ⊢
      simp only [Xml.child, readInto, Prod.mk.injEq] at hr
      rw [← hr.1]
      simp only [Xml.child, readInto]

def arrowBody : List RStmt := [.elem (nm! "arrow-direction") 0 true, .elem (nm! "arrow-style") 1 true, .stop 0]

theorem arrow_one {self : Child} {d : Str} {k : Nat} {ss : List Slot} {b : Bool} {t n' : Node} {x : Child} {rest : List Child} (h0 : ss[0]? = some (.mk b [t])) (hx : x.name = nm! "arrow-direction") (hr : x.read t = (n', true)) :
    L self arrowBody false (.comp .ArrowGroup d k ss) (x :: rest) = L self arrowBody false (.comp .ArrowGroup d k (ss.set 0 (.mk true [n']))) rest := by
  have hst : (RStmt.elem (nm! "arrow-direction") 0 true).at self (.comp .ArrowGroup d k ss) x rest = ⟨.comp .ArrowGroup d k (ss.set 0 (.mk true [n'])), true, 0, true⟩ := by
    rw [RStmt.at, hx, beq_self, if_pos rfl, inner_mk _ h0, hr]
  exact L_seg (pre := []) (post := [.elem (nm! "arrow-style") 1 true, .stop 0]) (by simp) hst (List.drop_zero ..) (.inl rfl)

theorem arrow_two {self : Child} {d : Str} {k : Nat} {ss : List Slot} {b : Bool} {t n' : Node} {x : Child} {rest : List Child} (h0 : ss[1]? = some (.mk b [t])) (hx : x.name = nm! "arrow-style") (hr : x.read t = (n', true)) :
    L self arrowBody false (.comp .ArrowGroup d k ss) (x :: rest) = L self arrowBody false (.comp .ArrowGroup d k (ss.set 1 (.mk true [n']))) rest := by
  have hst : (RStmt.elem (nm! "arrow-style") 1 true).at self (.comp .ArrowGroup d k ss) x rest = ⟨.comp .ArrowGroup d k (ss.set 1 (.mk true [n'])), true, 0, true⟩ := by
    rw [RStmt.at, hx, beq_self, if_pos rfl, inner_mk _ h0, hr]
  exact L_seg (pre := [.elem (nm! "arrow-direction") 0 true]) (post := [.stop 0]) (fun p hp => by
    rw [List.mem_singleton.mp hp]
    exact reacts_idle (by rw [hx]; decide +kernel)) hst (List.drop_zero ..) (.inl rfl)

/-- The group, read twice if there are two children. -/
theorem arrowGroup_reads {N : Nat} (hrd : RdBelow N) {d : Str} {k : Nat} {ss : List Slot} (hg : Good N (.comp .ArrowGroup d k ss)) {d0 : Str} {k0 : Nat} {ss0 : List Slot} (hb : Blank (.comp .ArrowGroup d0 k0 ss0)) (d' : Str) (self : Child) :
    ∃ (kids : List Child) (ss1 : List Slot), (whole (.comp .ArrowGroup d k ss)).kids.map (Xml.child prog) = kids ∧ (∀ x ∈ kids, Nat.beq x.name (nm! "circular-arrow") = false) ∧ kids ≠ [] ∧
      L self arrowBody false (.comp .ArrowGroup d' k0 ss0) kids = (.comp .ArrowGroup d' k0 ss1, true) ∧
      L self arrowBody false (.comp .ArrowGroup d' k0 ss1) kids = (.comp .ArrowGroup d' k0 ss1, true) ∧
      Fine (.comp .ArrowGroup d' k0 ss1) ∧ (whole (.comp .ArrowGroup d' k0 ss1)).kids = (whole (.comp .ArrowGroup d k ss)).kids := by
  obtain ⟨hl, hk0, hbl⟩ := hb.slot
  have hm0 : (Cls.ArrowGroup).info.members[0]? = some ⟨.leaf (nm! "arrow-direction") true, .one⟩ := rfl
  have hm1 : (Cls.ArrowGroup).info.members[1]? = some ⟨.leaf (nm! "arrow-style") true, .opt⟩ := rfl
  have hst : (Cls.ArrowGroup).info.stmts = [⟨[], 0, .element⟩, ⟨[.flag 1], 1, .element⟩] := rfl
  obtain ⟨s00, h00⟩ := getElem?_same_length hl hm0
  obtain ⟨s01, h01⟩ := getElem?_same_length hl hm1
  have hb0 := hbl 0 _ _ hm0 h00
  have hb1 := hbl 1 _ _ hm1 h01
  obtain ⟨s0, a, a', ta, hs0, rfl, hw0, hn0, hr0, hsame0⟩ := elem_one hrd hg.here (w := ⟨[], 0, .element⟩) (by rw [hst]; simp) rfl rfl hm0 hb0
  have ha := leaf_again (hb0.2.2 ta (by simp [kids_mk])).1 hr0
  have h01' : (ss0.set 0 (.mk true [a']))[1]? = some s01 := by rw [set_get_ne (by simp)]; exact h01
  have hK : (whole (.comp .ArrowGroup d k ss)).kids.map (Xml.child prog) = kidOf a :: (wholeStmt .ArrowGroup k (wholeSlots ss) ⟨[.flag 1], 1, .element⟩).map (Xml.child prog) := by
    rw [whole_kids, hst, List.flatMap_cons, List.flatMap_singleton, List.map_append, hw0]; rfl
  have hna : Nat.beq (kidOf a).name (nm! "circular-arrow") = false := by rw [hn0]; decide +kernel
  obtain ⟨s1, hs1, hcase⟩ := elem_opt hrd hg.here (w := ⟨[.flag 1], 1, .element⟩) (by rw [hst]; simp) rfl rfl hm1 hb1
  rcases hcase with ⟨c, c', tc, hon, hn1, rfl, hw1, hnm1, hr1, hsame1⟩ | ⟨hoff, hw1, hsame1⟩
  · have hc := leaf_again (hb1.2.2 tc (by simp [kids_mk])).1 hr1
    have hF : Filled .ArrowGroup ss (Cls.ArrowGroup).info.stmts ss0 ((ss0.set 0 (.mk true [a'])).set 1 (.mk true [c'])) := by
      rw [hst]
      exact .cons (w := ⟨[], 0, .element⟩) hm0 hs0 h00 hsame0 (by simp) (.cons (w := ⟨[.flag 1], 1, .element⟩) hm1 hs1 h01' hsame1 (by simp) .nil)
    obtain ⟨f1, f2⟩ := filled_fine (d' := d') (stmts_free rfl) hg.2.1 hb rfl hF
    have g0 : ((ss0.set 0 (.mk true [a'])).set 1 (.mk true [c']))[0]? = some (.mk true [a']) := by rw [set_get_ne (by simp)]; exact set_get h00
    have g1 : ((ss0.set 0 (.mk true [a'])).set 1 (.mk true [c']))[1]? = some (.mk true [c']) := set_get h01'
    refine ⟨[kidOf a, kidOf c], _, by rw [hK, hw1], ?_, by simp, ?_, ?_, f1, f2⟩
    · intro x hx
      simp only [List.mem_cons, List.not_mem_nil, or_false] at hx
      rcases hx with rfl | rfl
      · exact hna
      · rw [hnm1]; decide +kernel
    · rw [arrow_one h00 hn0 hr0, arrow_two h01' hnm1 hr1, L_nil]
    · rw [arrow_one g0 hn0 ha, set_same g0, arrow_two g1 hnm1 hc, set_same g1, L_nil]
  · have hF : Filled .ArrowGroup ss (Cls.ArrowGroup).info.stmts ss0 (ss0.set 0 (.mk true [a'])) := by
      rw [hst]
      exact .cons (w := ⟨[], 0, .element⟩) hm0 hs0 h00 hsame0 (by simp) (.cons (w := ⟨[.flag 1], 1, .element⟩) hm1 hs1 h01' hsame1 (by simp) (by rw [set_same h01']; exact .nil))
    obtain ⟨f1, f2⟩ := filled_fine (d' := d') (stmts_free rfl) hg.2.1 hb rfl hF
    refine ⟨[kidOf a], _, by rw [hK, hw1], by simpa using hna, by simp, ?_, ?_, f1, f2⟩
    · rw [arrow_one h00 hn0 hr0, L_nil]
    · rw [arrow_one (set_get h00) hn0 ha, set_same (set_get h00), L_nil]

theorem readArrow_again {self : Child} {d : Str} {ss : List Slot} {g : Node} (h0 : ss[0]? = some (.mk true [g])) (hg : self.read g = (g, true)) :
    ∀ (l : List Child), (∀ x ∈ l, Nat.beq x.name (nm! "circular-arrow") = false) → readArrow self l (.comp .Arrow d 0 ss) true = (.comp .Arrow d 0 ss, true)
  | [], _ => rfl
  | x :: xs, h => by
    rw [readArrow, h x (by simp), if_neg (by simp)]
    simp only [Node.choose, Option.getD_some]
    rw [inner_mk _ h0, hg, set_same h0]
    exact readArrow_again h0 hg xs (fun y hy => h y (by simp [hy]))

theorem arrow_reads : ClassReads .Arrow := by
  intro N hrd d k ss hg d0 k0 ss0 hb nm
  have hk : k = 0 := by
    have := here_readable hg
    simpa [ReadableHere] using this
  subst hk
  obtain ⟨hl, hk0, hbl⟩ := hb.slot
  have hm : (Cls.Arrow).info.members[0]? = some ⟨.comp .ArrowGroup, .one⟩ := rfl
  have hf : (Cls.Arrow).info.stmts.filter (inChoice 0) = [⟨[.choice 0], 0, .body⟩] := rfl
  obtain ⟨s00, h00⟩ := getElem?_same_length hl hm
  obtain ⟨s0, dn, kn, ssn, dt, kt, sst, hs0, rfl, hbt, hgn, _, hw0, hsame0⟩ := body_one (w := ⟨[.choice 0], 0, .body⟩) hg (by simp [Cls.info, c_Arrow]) rfl (by simp) hm (hbl _ _ _ hm h00)
  obtain ⟨kids, ss1, e1, e2, e3, e4, e5, e6, e7⟩ := arrowGroup_reads hrd hgn hbt d ⟨nm, readInto prog nm d ((whole (.comp .Arrow d 0 ss)).kids.map (Xml.child prog)) 2⟩
  have hK : (whole (.comp .Arrow d 0 ss)).kids.map (Xml.child prog) = kids := by
    rw [whole_kids_choice, hf, List.flatMap_singleton, hw0, e1]
  rw [hK] at e4 e5 ⊢
  have hF : Filled .Arrow ss [⟨[.choice 0], 0, .body⟩] ss0 (ss0.set 0 (.mk true [.comp .ArrowGroup d kt ss1])) := .cons (w := ⟨[.choice 0], 0, .body⟩) hm hs0 h00 (hsame0 true _ rfl e6 e7) (by simp) .nil
  obtain ⟨f1, f2⟩ := choice_fine (d' := d) hg.2.1 hb hf (by simp) hF
  refine ⟨0, _, ?_, f1, f2⟩
  have hself : ∀ dd sss, readInto prog nm d kids 3 (.comp .ArrowGroup dd kt sss) = L ⟨nm, readInto prog nm d kids 2⟩ arrowBody false (.comp .ArrowGroup d kt sss) kids := by
    intro dd sss
    rw [readInto, show prog .ArrowGroup = .loop none arrowBody false [] from rfl, RProg.run]
    simp only [Option.map_none, Option.getD_none, Bool.true_and, List.isEmpty_nil, Bool.true_or, Bool.and_true]
    rfl
  rw [show prog .Arrow = .arrow from rfl, RProg.run]
  obtain ⟨x, xs, hx⟩ := List.exists_cons_of_ne_nil e3
  have h1 : readInto prog nm d kids 3 (.comp .ArrowGroup dt kt sst) = (.comp .ArrowGroup d kt ss1, true) := by rw [hself, e4]
  have h2 : readInto prog nm d kids 3 (.comp .ArrowGroup d kt ss1) = (.comp .ArrowGroup d kt ss1, true) := by rw [hself, e5]
  generalize hr : readInto prog nm d kids 3 = rd at h1 h2 ⊢
  rw [hx, readArrow, e2 x (by rw [hx]; simp), if_neg (by simp)]
  simp only [Node.choose, Option.getD_some]
  rw [inner_mk _ h00]
  simp only
  rw [h1]
  exact readArrow_again (set_get h00) h2 xs (fun y hy => e2 y (by rw [hx]; simp [hy]))

end Mx.Content
