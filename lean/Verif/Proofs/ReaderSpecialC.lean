import Verif.Proofs.ReaderNote

/-
Lists of parts, parts, time modifications and metronome tuplets.
-/
open Mx.Spec
namespace Mx.Content

/-! ## `part-list` -/

theorem partList_groups {self : Child} {d : Str} {k : Nat} {rest : List Child} :
    ∀ (ns ns' : List Node) (ss : List Slot) (acc : List Node), (∀ n ∈ ns, n.kind = .comp .PartGroup) → (ns.map kidOf).map (fun y => y.read (make (.comp .PartGroup))) = ns'.map (fun n => (n, true)) →
      ss[0]? = some (.mk false acc) → (Node.comp .PartList d k ss).isOn 1 = false →
      L self [.partList] false (.comp .PartList d k ss) (ns.map kidOf ++ rest) = L self [.partList] false (.comp .PartList d k (ss.set 0 (.mk false (acc ++ ns')))) rest
  | [], ns', ss, acc, _, h, h0, _ => by
    have : ns' = [] := by simpa using h.symm
    subst this
    rw [List.append_nil, set_same h0]; rfl
  | n :: ns, [], ss, acc, _, h, h0, _ => by simp at h
  | n :: ns, n' :: ns', ss, acc, hk, h, h0, hoff => by
    simp only [List.map_cons, List.cons.injEq] at h
    have hx : (kidOf n).name = nm! "part-group" := by rw [kidOf_name, hk n (by simp)]; rfl
    have hst : RStmt.partList.at self (.comp .PartList d k ss) (kidOf n) (ns.map kidOf ++ rest) = ⟨.comp .PartList d k (ss.set 0 (.mk false (acc ++ [n']))), true, 0, true⟩ := by
      rw [RStmt.at, hoff, if_neg (by simp), hx, beq_self, if_pos rfl, newItem_eq (c := .PartList) (i := 0) rfl, h.1, Node.push, changeSlot_some h0]
      rfl
    rw [List.map_cons, List.cons_append]
    have hL := L_seg (pre := []) (post := []) (strict := false) (by simp) hst (List.drop_zero ..) (.inl rfl)
    rw [List.nil_append] at hL
    rw [hL]
    rw [partList_groups ns ns' _ _ (fun x hx => hk x (by simp [hx])) h.2 (set_get h0) (by
      rw [← hoff]; simp [Node.isOn]), List.set_set, List.append_assoc]
    rfl

theorem partList_more {N : Nat} (hrd : RdBelow N) (hch : ChoicesOk .PartGroupOrScorePart partNames) {self : Child} {d : Str} {k : Nat} :
    ∀ (ns : List Node) (ss : List Slot) (b : Bool) (acc : List Node), (∀ n ∈ ns, Good N n ∧ n.kind = .comp .PartGroupOrScorePart) → ss[2]? = some (.mk b acc) → (Node.comp .PartList d k ss).isOn 1 = true →
      ∃ ns' : List Node, ns'.length = ns.length ∧ (∀ n ∈ ns', n.kind = .comp .PartGroupOrScorePart ∧ Fine n) ∧ ns'.flatMap (fun n => (whole n).kids) = ns.flatMap (fun n => (whole n).kids) ∧
        L self [.partList] false (.comp .PartList d k ss) (ns.flatMap (fun n => (whole n).kids.map (Xml.child prog))) = (.comp .PartList d k (ss.set 2 (.mk b (acc ++ ns'))), true)
  | [], ss, b, acc, _, h0, _ => ⟨[], rfl, by simp, rfl, by rw [List.append_nil, set_same h0]; rfl⟩
  | n :: ns, ss, b, acc, h, h0, hon => by
    obtain ⟨hgn, hnk⟩ := h n (by simp)
    obtain ⟨dn, kn, ssn, rfl, hco⟩ := choices_of hch hgn hnk
    obtain ⟨x, hx, f, hf, hread⟩ := choice_reads hrd hgn (by simp) hco
    obtain ⟨n', e1, e2, e3, e4⟩ := hread (make (.comp .PartGroupOrScorePart)) (make_blank _) (make_kind _)
    obtain ⟨ns', g1, g2, g3, g4⟩ := partList_more hrd hch (self := self) (d := d) (k := k) ns (ss.set 2 (.mk b (acc ++ [n']))) b (acc ++ [n'])
      (fun x hx => h x (by simp [hx])) (set_get h0) (by rw [← hon]; simp [Node.isOn])
    refine ⟨n' :: ns', by simp [g1], ?_, by rw [List.flatMap_cons, List.flatMap_cons, g3, e3], ?_⟩
    · intro y hy
      rcases List.mem_cons.mp hy with rfl | hy
      · exact ⟨e2, e4⟩
      · exact g2 y hy
    · rw [List.flatMap_cons, hx, List.singleton_append]
      have hst : RStmt.partList.at self (.comp .PartList d k ss) x (ns.flatMap (fun n => (whole n).kids.map (Xml.child prog))) = ⟨.comp .PartList d k (ss.set 2 (.mk b (acc ++ [n']))), true, 0, true⟩ := by
        rw [RStmt.at, hon, if_pos rfl, hf]
        simp only
        rw [newItem_eq (c := .PartList) (i := 2) rfl, e1, Node.push, changeSlot_some h0]
        rfl
      have hL := L_seg (pre := []) (post := []) (strict := false) (by simp) hst (List.drop_zero ..) (.inl rfl)
      rw [List.nil_append] at hL
      rw [hL, g4, List.set_set, List.append_assoc]
      rfl

theorem partList_reads : ClassReads .PartList := by
  intro N hrd d k ss hg d0 k0 ss0 hb nm
  obtain ⟨hl, hk0, hbl⟩ := hb.slot
  have hm0 : (Cls.PartList).info.members[0]? = some ⟨.comp .PartGroup, .set ⟨0, none, 0, 0⟩⟩ := rfl
  have hm1 : (Cls.PartList).info.members[1]? = some ⟨.comp .ScorePart, .one⟩ := rfl
  have hm2 : (Cls.PartList).info.members[2]? = some ⟨.comp .PartGroupOrScorePart, .set ⟨0, none, 0, 0⟩⟩ := rfl
  have hst : (Cls.PartList).info.stmts = [⟨[], 0, .element⟩, ⟨[], 1, .element⟩, ⟨[], 2, .body⟩] := rfl
  obtain ⟨s00, h00⟩ := getElem?_same_length hl hm0
  obtain ⟨s01, h01⟩ := getElem?_same_length hl hm1
  obtain ⟨s02, h02⟩ := getElem?_same_length hl hm2
  obtain ⟨s0, ns0, hs0, hw0, hnm0, hok0, hr0, hlen0, hsame0⟩ := elem_set hrd hg (w := ⟨[], 0, .element⟩) (by rw [hst]; simp) rfl rfl hm0
  obtain ⟨s1, n1, n1', t1, hs1, rfl, hw1, hnm1, hr1, hsame1⟩ := elem_one hrd hg (w := ⟨[], 1, .element⟩) (by rw [hst]; simp) rfl rfl hm1 (hbl 1 _ _ hm1 h01)
  obtain ⟨s2, hs2, hok2, hgood2, hw2, hsame2⟩ := body_set hg (w := ⟨[], 2, .body⟩) (by rw [hst]; simp) rfl (by simp) hm2
  have hb0 := hbl 0 _ _ hm0 h00
  have hb2 := hbl 2 _ _ hm2 h02
  have hz0 : s00 = .mk false [] := by
    cases s00 with
    | mk b ks =>
      have h1 := hb0.1
      have h2 := hb0.2.1
      rw [on_mk] at h1
      rw [kids_mk] at h2
      rw [h1, List.length_eq_zero_iff.mp h2]
  have hz2 : s02 = .mk false [] := by
    cases s02 with
    | mk b ks =>
      have h1 := hb2.1
      have h2 := hb2.2.1
      rw [on_mk] at h1
      rw [kids_mk] at h2
      rw [h1, List.length_eq_zero_iff.mp h2]
  subst hz0 hz2
  generalize hself : (⟨nm, readInto prog nm d ((whole (.comp .PartList d k ss)).kids.map (Xml.child prog)) 3⟩ : Child) = self
  have hL0 := partList_groups (self := self) (d := d) (k := k0) (rest := [kidOf n1] ++ s2.kids.flatMap (fun n => (whole n).kids.map (Xml.child prog))) s0.kids ns0 ss0 [] (hok0.1) hr0 h00 (by
    simp only [Node.isOn, h01]; rfl)
  rw [List.nil_append] at hL0
  have h01' : (ss0.set 0 (.mk false ns0))[1]? = some (.mk false [t1]) := by rw [set_get_ne (by simp)]; exact h01
  have hst1 : RStmt.partList.at self (.comp .PartList d k0 (ss0.set 0 (.mk false ns0))) (kidOf n1) (s2.kids.flatMap (fun n => (whole n).kids.map (Xml.child prog))) =
      ⟨.comp .PartList d k0 ((ss0.set 0 (.mk false ns0)).set 1 (.mk true [n1'])), true, 0, true⟩ := by
    rw [RStmt.at, if_neg (by simp only [Node.isOn, h01']; simp [on_mk]), hnm1]
    rw [if_neg (by decide), if_pos (by decide), inner_mk _ h01', hr1]
  have hL1 := L_seg (pre := []) (post := []) (strict := false) (by simp) hst1 (List.drop_zero ..) (.inl rfl)
  have h02' : ((ss0.set 0 (.mk false ns0)).set 1 (.mk true [n1']))[2]? = some (.mk false []) := by rw [set_get_ne (by simp), set_get_ne (by simp)]; exact h02
  obtain ⟨ns2, g1, g2, g3, g4⟩ := partList_more hrd (choices_ok (by decide +kernel)) (self := self) (d := d) (k := k0) s2.kids _ false [] hgood2 h02' (by
    simp only [Node.isOn, set_get h01']; rfl)
  have hF : Filled .PartList ss (Cls.PartList).info.stmts ss0 (((ss0.set 0 (.mk false ns0)).set 1 (.mk true [n1'])).set 2 (.mk false ns2)) := by
    rw [hst]
    exact .cons (w := ⟨[], 0, .element⟩) hm0 hs0 h00 (hsame0 _) (by simp) (.cons (w := ⟨[], 1, .element⟩) hm1 hs1 h01' hsame1 (by simp)
      (.cons (w := ⟨[], 2, .body⟩) hm2 hs2 h02' (hsame2 _ _ g1 g2 g3) (by simp) .nil))
  obtain ⟨f1, f2⟩ := filled_fine (d' := d) (stmts_free rfl) hg.2.1 hb rfl hF
  refine ⟨k0, _, ?_, f1, f2⟩
  have hkids : (whole (.comp .PartList d k ss)).kids.map (Xml.child prog) = s0.kids.map kidOf ++ ([kidOf n1] ++ s2.kids.flatMap (fun n => (whole n).kids.map (Xml.child prog))) := by
    rw [whole_kids, hst, List.flatMap_cons, List.flatMap_cons, List.flatMap_singleton, List.map_append, List.map_append, hw0, hw1, hw2]
  rw [show prog .PartList = .loop none [.partList] false [] from rfl, RProg.run, hkids]
  simp only [Option.map_none, Option.getD_none, Bool.true_and, List.isEmpty_nil, Bool.true_or, Bool.and_true]
  rw [show readLoop _ _ _ (_ : List Child).length _ _ = L _ _ _ _ _ from rfl, hL0]
  rw [List.nil_append] at hL1
  rw [List.singleton_append, hL1, g4]
  rfl

end Mx.Content
