import Verif.Proofs.ReaderSpecialI

/-
Lyrics.
-/
open Mx.Spec
namespace Mx.Content

theorem Filled.append {c : Cls} {ss ss0 ss1 ss2 : List Slot} {vs ws : List Stmt} (h1 : Filled c ss vs ss0 ss1) (h2 : Filled c ss ws ss1 ss2) (hd : ∀ v ∈ vs, ∀ w ∈ ws, w.slot ≠ v.slot) :
    Filled c ss (vs ++ ws) ss0 ss2 where
  length := by rw [h2.length, h1.length]
  keep := by
    intro i hi
    rw [h2.keep i (fun w hw => hi w (by simp [hw])), h1.keep i (fun w hw => hi w (by simp [hw]))]
  same := by
    intro v hv m s hm hs
    rcases List.mem_append.mp hv with hv | hv
    · obtain ⟨s1, e1, e2⟩ := h1.same v hv m s hm hs
      exact ⟨s1, by rw [h2.keep _ (hd v hv)]; exact e1, e2⟩
    · exact h2.same v hv m s hm hs

/-! ## `lyric` -/

/-- The text after an elision. -/
theorem elision_one {N : Nat} (hrd : RdBelow N) {n : Node} (hg : Good N n) (hk : n.kind = .comp .ElisionSyllabicTextGroup) (rest : List Child) :
    ∃ x xs n', (whole n).kids.map (Xml.child prog) = x :: xs ∧ x.name ∈ [nm! "elision", nm! "text"] ∧
      elisionGroup (make (.comp .ElisionSyllabicTextGroup)) (x :: (xs ++ rest)) = ⟨n', true, xs.length + 1⟩ ∧ n'.kind = .comp .ElisionSyllabicTextGroup ∧ Fine n' ∧ (whole n').kids = (whole n).kids := by
  obtain ⟨d, k, ss, rfl⟩ := kind_comp hk
  obtain ⟨d0, k0, ss0, e0⟩ := kind_comp (make_kind (.comp .ElisionSyllabicTextGroup))
  have hb := make_blank .ElisionSyllabicTextGroup
  rw [e0] at hb ⊢
  obtain ⟨hl, hk0, hbl⟩ := hb.slot
  have hm0 : (Cls.ElisionSyllabicTextGroup).info.members[0]? = some ⟨.comp .ElisionSyllabicGroup, .opt⟩ := rfl
  have hm1 : (Cls.ElisionSyllabicTextGroup).info.members[1]? = some ⟨.leaf (nm! "text") true, .one⟩ := rfl
  have hst : (Cls.ElisionSyllabicTextGroup).info.stmts = [⟨[.flag 0], 0, .body⟩, ⟨[], 1, .element⟩] := rfl
  obtain ⟨s00, h00⟩ := getElem?_same_length hl hm0
  obtain ⟨s01, h01⟩ := getElem?_same_length hl hm1
  obtain ⟨s1, a, a', ta, hs1, rfl, hw1, hn1, hr1, hsame1⟩ := elem_one hrd hg.here (w := ⟨[], 1, .element⟩) (by rw [hst]; simp) rfl rfl hm1 (hbl 1 _ _ hm1 h01)
  obtain ⟨s0, hs0, hcase⟩ := body_opt hg.here (w := ⟨[.flag 0], 0, .body⟩) (by rw [hst]; simp) rfl (by simp) hm0 (hbl 0 _ _ hm0 h00)
  have hK : (whole (.comp .ElisionSyllabicTextGroup d k ss)).kids.map (Xml.child prog) = (wholeStmt .ElisionSyllabicTextGroup k (wholeSlots ss) ⟨[.flag 0], 0, .body⟩).map (Xml.child prog) ++ [kidOf a] := by
    rw [whole_kids, hst, List.flatMap_cons, List.flatMap_singleton, List.map_append, hw1]
  have hbe : Nat.beq (kidOf a).name (nm! "elision") = false := by rw [hn1]; decide +kernel
  have hbs : Nat.beq (kidOf a).name (nm! "syllabic") = false := by rw [hn1]; decide +kernel
  have hbt : Nat.beq (kidOf a).name (nm! "text") = true := by rw [hn1]; decide +kernel
  rcases hcase with ⟨dn, kn, ssn, dt, kt, sst, hon, rfl, hbt', hgn, hkn, hw0, hsame0⟩ | ⟨hoff, hw0, hsame0⟩
  · -- the elision
    obtain ⟨hl', hkt, hbl'⟩ := hbt'.slot
    have hp0 : (Cls.ElisionSyllabicGroup).info.members[0]? = some ⟨.leaf (nm! "elision") true, .one⟩ := rfl
    have hp1 : (Cls.ElisionSyllabicGroup).info.members[1]? = some ⟨.leaf (nm! "syllabic") true, .opt⟩ := rfl
    have hst' : (Cls.ElisionSyllabicGroup).info.stmts = [⟨[], 0, .element⟩, ⟨[.flag 1], 1, .element⟩] := rfl
    obtain ⟨t00, g00⟩ := getElem?_same_length hl' hp0
    obtain ⟨t01, g01⟩ := getElem?_same_length hl' hp1
    obtain ⟨q0, c, c', tc, hq0, rfl, hv0, hnc, hrc, hsamec⟩ := elem_one hrd hgn.here (w := ⟨[], 0, .element⟩) (by rw [hst']; simp) rfl rfl hp0 (hbl' 0 _ _ hp0 g00)
    obtain ⟨q1, hq1, hcase1⟩ := elem_opt hrd hgn.here (w := ⟨[.flag 1], 1, .element⟩) (by rw [hst']; simp) rfl rfl hp1 (hbl' 1 _ _ hp1 g01)
    have hread := here_readable hgn.here
    simp only [ReadableHere, onAt] at hread
    rw [show ssn[1]? = some q1 from hq1] at hread
    have hoff : q1.on = false := hread
    rcases hcase1 with ⟨_, _, _, hon1, _⟩ | ⟨_, hv1, hsameq⟩
    · rw [hoff] at hon1; cases hon1
    have g01' : (sst.set 0 (.mk true [c']))[1]? = some t01 := by rw [set_get_ne (by simp)]; exact g01
    have hF' : Filled .ElisionSyllabicGroup ssn (Cls.ElisionSyllabicGroup).info.stmts sst (sst.set 0 (.mk true [c'])) := by
      rw [hst']
      exact .cons (w := ⟨[], 0, .element⟩) hp0 hq0 g00 hsamec (by simp) (.cons (w := ⟨[.flag 1], 1, .element⟩) hp1 hq1 g01' hsameq (by simp) (by rw [set_same g01']; exact .nil))
    obtain ⟨f1', f2'⟩ := filled_fine (d' := dt) (stmts_free rfl) hgn.2.1 hbt' rfl hF'
    have h01' : (ss0.set 0 (.mk true [.comp .ElisionSyllabicGroup dt kt (sst.set 0 (.mk true [c']))]))[1]? = some (.mk false [ta]) := by rw [set_get_ne (by simp)]; exact h01
    have hF : Filled .ElisionSyllabicTextGroup ss (Cls.ElisionSyllabicTextGroup).info.stmts ss0 ((ss0.set 0 (.mk true [.comp .ElisionSyllabicGroup dt kt (sst.set 0 (.mk true [c']))])).set 1 (.mk true [a'])) := by
      rw [hst]
      exact .cons (w := ⟨[.flag 0], 0, .body⟩) hm0 hs0 h00 (hsame0 _ rfl f1' f2') (by simp) (.cons (w := ⟨[], 1, .element⟩) hm1 hs1 h01' hsame1 (by simp) .nil)
    obtain ⟨f1, f2⟩ := filled_fine (d' := d0) (stmts_free rfl) hg.2.1 hb rfl hF
    have hkids : (whole (.comp .ElisionSyllabicGroup dn kn ssn)).kids.map (Xml.child prog) = [kidOf c] := by
      rw [whole_kids, hst', List.flatMap_cons, List.flatMap_singleton, List.map_append, hv0, hv1]; rfl
    refine ⟨kidOf c, [kidOf a], _, by rw [hK, hw0, hkids]; rfl, by rw [hnc]; decide, ?_, rfl, f1, f2⟩
    have hce : Nat.beq (kidOf c).name (nm! "elision") = true := by rw [hnc]; decide +kernel
    simp only [elisionGroup, hce, if_true, List.singleton_append, List.drop_succ_cons, List.drop_zero, hbs, Bool.false_eq_true, if_false, hbt]
    rw [inner_mk _ h00]
    simp only
    rw [inner_mk _ g00, hrc]
    simp only
    rw [inner_mk _ h01', hr1]
    simp
  · -- no elision
    have h01' : (ss0.set 0 s00)[1]? = some (.mk false [ta]) := by rw [set_same h00]; exact h01
    have hF : Filled .ElisionSyllabicTextGroup ss (Cls.ElisionSyllabicTextGroup).info.stmts ss0 (ss0.set 1 (.mk true [a'])) := by
      rw [hst]
      refine .cons (w := ⟨[.flag 0], 0, .body⟩) hm0 hs0 h00 hsame0 (by simp) ?_
      rw [show (⟨[.flag 0], 0, .body⟩ : Stmt).slot = 0 from rfl, set_same h00]
      exact .cons (w := ⟨[], 1, .element⟩) hm1 hs1 h01 hsame1 (by simp) .nil
    obtain ⟨f1, f2⟩ := filled_fine (d' := d0) (stmts_free rfl) hg.2.1 hb rfl hF
    refine ⟨kidOf a, [], _, by rw [hK, hw0]; rfl, by rw [hn1]; decide, ?_, rfl, f1, f2⟩
    simp only [elisionGroup, hbe, List.nil_append, List.drop_zero, hbs, Bool.false_eq_true, if_false, hbt, if_true]
    rw [inner_mk _ h01, hr1]
    simp

theorem elision_loop {N : Nat} (hrd : RdBelow N) {d : Str} {k : Nat} {rest : List Child} (hr : RestOk [nm! "extend", nm! "end-line", nm! "end-paragraph"] rest) : ∀ (ns : List Node) (f : Nat) (ss : List Slot) (b : Bool) (acc : List Node),
    ns.length ≤ f → (∀ n ∈ ns, Good N n ∧ n.kind = .comp .ElisionSyllabicTextGroup) → ss[2]? = some (.mk b acc) →
    ∃ ns' : List Node, ns'.length = ns.length ∧ (∀ n ∈ ns', n.kind = .comp .ElisionSyllabicTextGroup ∧ Fine n) ∧ ns'.flatMap (fun n => (whole n).kids) = ns.flatMap (fun n => (whole n).kids) ∧
      elisionGroups f (.comp .SyllabicTextGroup d k ss) (ns.flatMap (fun n => (whole n).kids.map (Xml.child prog)) ++ rest) =
        ⟨.comp .SyllabicTextGroup d k (ss.set 2 (.mk b (acc ++ ns'))), true, (ns.flatMap (fun n => (whole n).kids.map (Xml.child prog))).length⟩
  | [], f, ss, b, acc, _, _, h0 => by
    refine ⟨[], rfl, by simp, rfl, ?_⟩
    rw [List.append_nil, set_same h0]
    cases f with
    | zero => rfl
    | succ f =>
      have : headIn [nm! "elision", nm! "syllabic", nm! "text"] rest = false := by
        cases rest with
        | nil => rfl
        | cons x xs =>
          have := hr x (by simp)
          simp only [List.mem_cons, List.not_mem_nil, or_false] at this
          rw [headIn]
          rcases this with e | e | e <;> rw [e] <;> decide +kernel
      rw [List.flatMap_nil, List.nil_append, elisionGroups, this]
      rfl
  | n :: ns, 0, _, _, _, h, _, _ => by simp at h
  | n :: ns, f + 1, ss, b, acc, hle, h, h0 => by
    obtain ⟨x, xs, n', e1, e2, e3, e4, e5, e6⟩ := elision_one hrd (h n (by simp)).1 (h n (by simp)).2 (ns.flatMap (fun n => (whole n).kids.map (Xml.child prog)) ++ rest)
    obtain ⟨ns', g1, g2, g3, g4⟩ := elision_loop hrd (d := d) (k := k) hr ns f (ss.set 2 (.mk b (acc ++ [n']))) b (acc ++ [n']) (by simpa using hle) (fun m hm => h m (by simp [hm])) (set_get h0)
    refine ⟨n' :: ns', by simp [g1], forall_cons ⟨e4, e5⟩ g2, by rw [List.flatMap_cons, List.flatMap_cons, g3, e6], ?_⟩
    have hm2 : (Cls.SyllabicTextGroup).info.members[2]? = some ⟨.comp .ElisionSyllabicTextGroup, .set ⟨0, none, 0, 0⟩⟩ := rfl
    rw [List.flatMap_cons, e1, List.append_assoc, List.cons_append, elisionGroups, if_pos (by
      simp only [List.mem_cons, List.not_mem_nil, or_false] at e2
      rw [headIn]
      rcases e2 with e | e <;> rw [e] <;> decide +kernel)]
    simp only
    rw [newItem_eq hm2, show make (Member.kind ⟨.comp .ElisionSyllabicTextGroup, .set ⟨0, none, 0, 0⟩⟩) = make (.comp .ElisionSyllabicTextGroup) from rfl, e3]
    simp only
    rw [List.drop_succ_cons, List.drop_left, Node.push, changeSlot_some h0, memberSet_eq hm2 rfl]
    simp only [SetCode.add, kids_mk, on_mk]
    rw [g4, List.set_set, List.append_assoc]
    simp
    omega

theorem part_one {N : Nat} (hrd : RdBelow N) {G : Cls} {last : List Nat} {d d' : Str} {k k' : Nat} {ss : List Slot} {rest : List Child} (hg : Good N (.comp G d k ss)) (hr : RestOk last rest) {p : Part} {w : Stmt}
    {m : Member} {s0 : Slot} {ss0 : List Slot} (hp : partsOk G last [p] [w] = true) (hw : w ∈ G.info.stmts) (hc : inChoice k w = true) (hm : G.info.members[w.slot]? = some m) (h0 : ss0[w.slot]? = some s0) (hb : BlankSlot m s0) :
    ∃ ss1, readParts [p] (.comp G d' k' ss0) ((wholeStmt G k (wholeSlots ss) w).map (Xml.child prog) ++ rest) =
      ⟨.comp G d' k' ss1, true, ((wholeStmt G k (wholeSlots ss) w).map (Xml.child prog)).length⟩ ∧ Filled G ss [w] ss0 ss1 := by
  obtain ⟨ss1, h1, h2⟩ := readParts_all (d' := d') (k' := k') hrd hg hr [p] [w] ss0 hp (by simpa using ⟨hw, hc⟩) (by simp) (by
    intro v hv
    rw [List.mem_singleton.mp hv]
    exact ⟨m, s0, hm, h0, hb⟩)
  rw [List.flatMap_singleton] at h1
  exact ⟨ss1, h1, h2⟩

theorem seg_rest {N : Nat} {c : Cls} {d : Str} {k : Nat} {ss : List Slot} (h : Here N (.comp c d k ss)) {w : Stmt} (hw : w ∈ c.info.stmts) {a b : List Nat} {rest : List Child} (hr : RestOk a rest)
    (hn : ∀ x ∈ names c w, x ∈ b) (hab : ∀ x ∈ a, x ∈ b) : RestOk b ((wholeStmt c k (wholeSlots ss) w).map (Xml.child prog) ++ rest) := by
  have h1 := (seg_names h (ws := [w]) (by simpa using hw)).append hr
  rw [List.flatMap_singleton] at h1
  intro x hx
  rcases List.mem_append.mp (h1 x hx) with h | h
  · exact hn _ (by simpa [namesOf] using h)
  · exact hab _ h

theorem syllabicText_reads : GroupReads .SyllabicTextGroup [nm! "end-line", nm! "end-paragraph"] syllabicText := by
  intro N hrd d k ss hg d0 k0 ss0 hb rest hr
  obtain ⟨hl, hk0, hbl⟩ := hb.slot
  have hm0 : (Cls.SyllabicTextGroup).info.members[0]? = some ⟨.leaf (nm! "syllabic") true, .opt⟩ := rfl
  have hm1 : (Cls.SyllabicTextGroup).info.members[1]? = some ⟨.leaf (nm! "text") true, .one⟩ := rfl
  have hm2 : (Cls.SyllabicTextGroup).info.members[2]? = some ⟨.comp .ElisionSyllabicTextGroup, .set ⟨0, none, 0, 0⟩⟩ := rfl
  have hm3 : (Cls.SyllabicTextGroup).info.members[3]? = some ⟨.leaf (nm! "extend") false, .opt⟩ := rfl
  have hst : (Cls.SyllabicTextGroup).info.stmts = [⟨[.flag 0], 0, .element⟩, ⟨[], 1, .element⟩, ⟨[], 2, .body⟩, ⟨[.flag 3], 3, .element⟩] := rfl
  obtain ⟨s00, h00⟩ := getElem?_same_length hl hm0
  obtain ⟨s01, h01⟩ := getElem?_same_length hl hm1
  obtain ⟨s02, h02⟩ := getElem?_same_length hl hm2
  obtain ⟨s03, h03⟩ := getElem?_same_length hl hm3
  obtain ⟨_, t1, _, _, _, _, hw1, hn1, _, _⟩ := elem_one hrd hg.here (w := ⟨[], 1, .element⟩) (by rw [hst]; simp) rfl rfl hm1 (hbl 1 _ _ hm1 h01)
  obtain ⟨s2, hs2, hok2, hgood2, hw2, hsame2⟩ := body_set hg.here (w := ⟨[], 2, .body⟩) (by rw [hst]; simp) rfl (by simp) hm2
  have r3 : RestOk [nm! "extend", nm! "end-line", nm! "end-paragraph"] ((wholeStmt .SyllabicTextGroup k (wholeSlots ss) ⟨[.flag 3], 3, .element⟩).map (Xml.child prog) ++ rest) :=
    seg_rest hg.here (by rw [hst]; simp) hr (by decide +kernel) (by decide +kernel)
  have r2 : RestOk [nm! "elision", nm! "syllabic", nm! "text", nm! "extend", nm! "end-line", nm! "end-paragraph"] ((wholeStmt .SyllabicTextGroup k (wholeSlots ss) ⟨[], 2, .body⟩).map (Xml.child prog) ++
      ((wholeStmt .SyllabicTextGroup k (wholeSlots ss) ⟨[.flag 3], 3, .element⟩).map (Xml.child prog) ++ rest)) :=
    seg_rest hg.here (by rw [hst]; simp) r3 (by decide +kernel) (by decide +kernel)
  have r1 : RestOk [nm! "text"] ((wholeStmt .SyllabicTextGroup k (wholeSlots ss) ⟨[], 1, .element⟩).map (Xml.child prog) ++ ((wholeStmt .SyllabicTextGroup k (wholeSlots ss) ⟨[], 2, .body⟩).map (Xml.child prog) ++
      ((wholeStmt .SyllabicTextGroup k (wholeSlots ss) ⟨[.flag 3], 3, .element⟩).map (Xml.child prog) ++ rest))) := by
    rw [hw1]
    intro x hx
    simp at hx
    rw [← hx, hn1]; decide
  obtain ⟨ssa, a1, a2⟩ := part_one (d' := d0) (k' := k0) hrd hg r1 (p := .one (nm! "syllabic") 0) (w := ⟨[.flag 0], 0, .element⟩) (by decide +kernel) (by rw [hst]; simp) rfl hm0 h00 (hbl 0 _ _ hm0 h00)
  have h01' : ssa[1]? = some s01 := by rw [a2.keep 1 (by simp)]; exact h01
  obtain ⟨ssb, b1, b2⟩ := part_one (d' := d0) (k' := k0) hrd hg r2 (p := .one (nm! "text") 1) (w := ⟨[], 1, .element⟩) (by decide +kernel) (by rw [hst]; simp) rfl hm1 h01' (hbl 1 _ _ hm1 h01)
  have h02' : ssb[2]? = some s02 := by rw [b2.keep 2 (by simp), a2.keep 2 (by simp)]; exact h02
  have hz2 : s02.kids = [] := List.length_eq_zero_iff.mp (hbl 2 _ _ hm2 h02).2.1
  cases s02 with
  | mk b acc =>
  rw [kids_mk] at hz2
  subst hz2
  rw [hw1, List.length_singleton] at b1
  rw [hw1] at r1 a1
  generalize hS0 : (wholeStmt .SyllabicTextGroup k (wholeSlots ss) ⟨[.flag 0], 0, .element⟩).map (Xml.child prog) = S0 at *
  generalize hS3 : (wholeStmt .SyllabicTextGroup k (wholeSlots ss) ⟨[.flag 3], 3, .element⟩).map (Xml.child prog) = S3 at *
  obtain ⟨ns', g1, g2, g3, g4⟩ := elision_loop hrd (d := d0) (k := k0) r3 s2.kids (s2.kids.flatMap (fun n => (whole n).kids.map (Xml.child prog)) ++ (S3 ++ rest)).length ssb b [] (by
    rw [List.length_append]
    have := group_count s2.kids hgood2 (fun n h1 h2 e => by obtain ⟨x, xs, n', hx, _⟩ := elision_one hrd h1 h2 []; rw [e] at hx; cases hx)
    omega) hgood2 h02'
  have h03' : (ssb.set 2 (.mk b ns'))[3]? = some s03 := by rw [set_get_ne (by simp), b2.keep 3 (by simp), a2.keep 3 (by simp)]; exact h03
  obtain ⟨ssx, x1, x2⟩ := part_one (d' := d0) (k' := k0) hrd hg hr (p := .one (nm! "extend") 3) (w := ⟨[.flag 3], 3, .element⟩) (by decide +kernel) (by rw [hst]; simp) rfl hm3 h03' (hbl 3 _ _ hm3 h03)
  have hF : Filled .SyllabicTextGroup ss (Cls.SyllabicTextGroup).info.stmts ss0 ssx := by
    rw [hst]
    refine a2.append (ws := [⟨[], 1, .element⟩, ⟨[], 2, .body⟩, ⟨[.flag 3], 3, .element⟩]) (b2.append (ws := [⟨[], 2, .body⟩, ⟨[.flag 3], 3, .element⟩]) ?_ (by simp)) (by simp)
    exact .cons (w := ⟨[], 2, .body⟩) hm2 hs2 h02' (hsame2 _ _ g1 g2 g3) (by simp) x2
  obtain ⟨f1, f2⟩ := filled_fine (d' := d0) (stmts_free rfl) hg.2.1 hb rfl hF
  refine ⟨_, ?_, rfl, f1, f2⟩
  have hK : (whole (.comp .SyllabicTextGroup d k ss)).kids.map (Xml.child prog) = S0 ++ ([kidOf t1] ++ (s2.kids.flatMap (fun n => (whole n).kids.map (Xml.child prog)) ++ S3)) := by
    rw [whole_kids, hst, List.flatMap_cons, List.flatMap_cons, List.flatMap_cons, List.flatMap_singleton, List.map_append, List.map_append, List.map_append, hw1, hw2, hS0, hS3]
  rw [← List.length_map (f := Xml.child prog), hK, List.append_assoc, List.append_assoc, List.append_assoc]
  rw [hw2] at a1 b1
  rw [hS3] at x1
  simp only [syllabicText]
  rw [a1]
  simp only
  rw [List.drop_left, b1]
  simp only
  rw [show ([kidOf t1] ++ (s2.kids.flatMap (fun n => (whole n).kids.map (Xml.child prog)) ++ (S3 ++ rest))).drop 1 = s2.kids.flatMap (fun n => (whole n).kids.map (Xml.child prog)) ++ (S3 ++ rest) from rfl, g4]
  simp only
  rw [List.drop_left, List.nil_append, x1]
  simp only [List.length_append, List.length_singleton, Nat.add_assoc]
  rfl

theorem syllabicText_head {N : Nat} (hrd : RdBelow N) {d : Str} {k : Nat} {ss : List Slot} (hg : Good N (.comp .SyllabicTextGroup d k ss)) :
    ∃ x xs, (whole (.comp .SyllabicTextGroup d k ss)).kids.map (Xml.child prog) = x :: xs ∧ x.name ∈ [nm! "syllabic", nm! "text"] := by
  obtain ⟨d0, k0, ss0, e0⟩ := kind_comp (make_kind (.comp .SyllabicTextGroup))
  have hb := make_blank .SyllabicTextGroup
  rw [e0] at hb
  obtain ⟨hl, hk0, hbl⟩ := hb.slot
  have hm0 : (Cls.SyllabicTextGroup).info.members[0]? = some ⟨.leaf (nm! "syllabic") true, .opt⟩ := rfl
  have hm1 : (Cls.SyllabicTextGroup).info.members[1]? = some ⟨.leaf (nm! "text") true, .one⟩ := rfl
  have hst : (Cls.SyllabicTextGroup).info.stmts = [⟨[.flag 0], 0, .element⟩, ⟨[], 1, .element⟩, ⟨[], 2, .body⟩, ⟨[.flag 3], 3, .element⟩] := rfl
  obtain ⟨s00, h00⟩ := getElem?_same_length hl hm0
  obtain ⟨s01, h01⟩ := getElem?_same_length hl hm1
  obtain ⟨_, t1, _, _, _, _, hw1, hn1, _, _⟩ := elem_one hrd hg.here (w := ⟨[], 1, .element⟩) (by rw [hst]; simp) rfl rfl hm1 (hbl 1 _ _ hm1 h01)
  obtain ⟨_, _, hc⟩ := elem_opt hrd hg.here (w := ⟨[.flag 0], 0, .element⟩) (by rw [hst]; simp) rfl rfl hm0 (hbl 0 _ _ hm0 h00)
  rw [whole_kids, hst, List.flatMap_cons, List.flatMap_cons, List.map_append, List.map_append, hw1]
  rcases hc with ⟨n, _, _, _, _, _, hw0, hn0, _⟩ | ⟨_, hw0, _⟩
  · rw [hw0]
    exact ⟨_, _, rfl, by rw [hn0]; decide⟩
  · rw [hw0]
    exact ⟨_, _, rfl, by rw [hn1]; decide⟩

def lyricFields : List Field := [(nm! "extend", 1, some 1), (nm! "laughing", 2, some 2), (nm! "humming", 3, some 3)]
def lyricBody : List RStmt := [.sub 0 lyricFields true, .syllables, .elem (nm! "end-line") 1 true, .elem (nm! "end-paragraph") 2 true, .group 3 p_EditorialGroup false]

/-- At the end of the lyric there is nothing to read for the syllables. -/
theorem syllabicText_end {g : Node} {x : Child} {xs : List Child} (h : x.name = nm! "end-line" ∨ x.name = nm! "end-paragraph") : syllabicText g (x :: xs) = ⟨g, true, 0⟩ := by
  have h1 : Nat.beq x.name (nm! "syllabic") = false := by rcases h with e | e <;> rw [e] <;> decide +kernel
  have h2 : Nat.beq x.name (nm! "text") = false := by rcases h with e | e <;> rw [e] <;> decide +kernel
  have h3 : Nat.beq x.name (nm! "extend") = false := by rcases h with e | e <;> rw [e] <;> decide +kernel
  have h4 : Nat.beq x.name (nm! "elision") = false := by rcases h with e | e <;> rw [e] <;> decide +kernel
  have h5 : (!Nat.beq x.name (nm! "end-line") && !Nat.beq x.name (nm! "end-paragraph")) = false := by rcases h with e | e <;> rw [e] <;> decide +kernel
  have e1 : readParts [.one (nm! "syllabic") 0] g (x :: xs) = ⟨g, true, 0⟩ := readParts_pass _ _ _ _ (by simp [partName, h1])
  have e2 : readParts [.one (nm! "text") 1] g (x :: xs) = ⟨g, true, 0⟩ := readParts_pass _ _ _ _ (by simp [partName, h2])
  have e3 : readParts [.one (nm! "extend") 3] g (x :: xs) = ⟨g, true, 0⟩ := readParts_pass _ _ _ _ (by simp [partName, h3])
  have e4 : elisionGroups (xs.length + 1) g (x :: xs) = ⟨g, true, 0⟩ := by
    rw [elisionGroups, if_neg (by simp [headIn, h1, h2, h4])]
  simp only [syllabicText, e1, List.drop_zero, e2, List.length_cons, e4, e3, h5]
  rfl

theorem syllables_idle {self : Child} {d dt : Str} {k : Nat} {ss sst : List Slot} {t : Node} (h0 : ss[0]? = some (.mk true [.comp .LyricTextChoice dt 0 sst])) (ht : sst[0]? = some (.mk true [t]))
    {x : Child} {xs : List Child} (h : x.name = nm! "end-line" ∨ x.name = nm! "end-paragraph") : (RStmt.syllables).at self (.comp .Lyric d k ss) x xs = idle (.comp .Lyric d k ss) := by
  rw [RStmt.at, innerGot_mk _ h0]
  simp only [Node.choose, Option.getD_some]
  rw [innerGot_mk _ ht, syllabicText_end h]
  simp only [Got.step, idle]
  rw [set_same ht, set_same h0]

/-- What the lyric itself says comes first. -/
theorem lyric_first {N : Nat} (hrd : RdBelow N) {self : Child} {d d' dt : Str} {k k0 kt : Nat} {ss ss0 sst : List Slot} (hg : Good N (.comp .LyricTextChoice d k ss)) (hb : Blank (.comp .LyricTextChoice dt kt sst))
    (h0 : ss0[0]? = some (.mk false [.comp .LyricTextChoice dt kt sst])) {rest : List Child} (hr : RestOk [nm! "end-line", nm! "end-paragraph"] rest) :
    ∃ n0, n0.kind = .comp .LyricTextChoice ∧ Fine n0 ∧ (whole n0).kids = (whole (.comp .LyricTextChoice d k ss)).kids ∧
      (k = 0 → ∃ dt' sst' t, n0 = .comp .LyricTextChoice dt' 0 sst' ∧ sst'[0]? = some (.mk true [t])) ∧
      L self lyricBody false (.comp .Lyric d' k0 ss0) ((whole (.comp .LyricTextChoice d k ss)).kids.map (Xml.child prog) ++ rest) = L self lyricBody false (.comp .Lyric d' k0 (ss0.set 0 (.mk true [n0]))) rest := by
  by_cases hk : k = 0
  · subst hk
    obtain ⟨hl, hk0, hbl⟩ := hb.slot
    have hm : (Cls.LyricTextChoice).info.members[0]? = some ⟨.comp .SyllabicTextGroup, .one⟩ := rfl
    have hf : (Cls.LyricTextChoice).info.stmts.filter (inChoice 0) = [⟨[.choice 0], 0, .body⟩] := rfl
    obtain ⟨s00, h00⟩ := getElem?_same_length hl hm
    obtain ⟨s0, dn, kn, ssn, du, ku, ssu, hs0, rfl, hbu, hgn, _, hw0, hsame0⟩ := body_one (w := ⟨[.choice 0], 0, .body⟩) hg.here (by simp [Cls.info, c_LyricTextChoice]) rfl (by simp) hm (hbl _ _ _ hm h00)
    obtain ⟨n1, e1, e2, e4, e3⟩ := syllabicText_reads N hrd dn kn ssn hgn du ku ssu hbu rest hr
    have hF : Filled .LyricTextChoice ss [⟨[.choice 0], 0, .body⟩] sst (sst.set 0 (.mk true [n1])) := .cons (w := ⟨[.choice 0], 0, .body⟩) hm hs0 h00 (hsame0 true n1 e2 e4 e3) (by simp) .nil
    obtain ⟨f1, f2⟩ := choice_fine (d' := dt) hg.2.1 hb hf (by simp) hF
    have hK : (whole (.comp .LyricTextChoice d 0 ss)).kids = (whole (.comp .SyllabicTextGroup dn kn ssn)).kids := by
      rw [whole_kids_choice, hf, List.flatMap_singleton, hw0]
    refine ⟨_, rfl, f1, f2, fun _ => ⟨_, _, _, rfl, set_get h00⟩, ?_⟩
    obtain ⟨x, xs, hx, hxn⟩ := syllabicText_head hrd hgn
    have hnames : ∀ y ∈ x :: xs, y.name ∈ bodyNames 7 .SyllabicTextGroup := by
      intro y hy
      rw [← hx] at hy
      obtain ⟨z, hz, rfl⟩ := List.mem_map.mp hy
      rw [child_name]
      exact bodyNames_of 7 _ (by decide +kernel) _ _ _ hgn.2.1.1 z hz
    rw [← List.length_map (f := Xml.child prog), hx] at e1
    rw [hK, hx]
    obtain ⟨l, z, hlz⟩ : ∃ l z, x :: xs = l ++ [z] := ⟨_, _, (List.dropLast_concat_getLast (by simp)).symm⟩
    have hlen : l.length = xs.length := by
      have := congrArg List.length hlz
      simpa using this.symm
    refine L_seg (pre := [.sub 0 lyricFields true]) (st := .syllables) (post := [.elem (nm! "end-line") 1 true, .elem (nm! "end-paragraph") 2 true, .group 3 p_EditorialGroup false]) (y := z) (n := xs.length) (next := false)
      ?_ ?_ ?_ (.inr ⟨rfl, ?_⟩)
    · intro p hp
      rw [List.mem_singleton.mp hp]
      refine reacts_idle ?_
      have : ∀ a ∈ [nm! "syllabic", nm! "text"], (RStmt.sub 0 lyricFields true).reacts a = false := by decide +kernel
      exact this _ hxn
    · rw [RStmt.at, innerGot_mk _ h0]
      simp only [Node.choose, Option.getD_some]
      rw [innerGot_mk _ h00, show x :: List.append xs rest = x :: xs ++ rest from rfl, e1]
      simp [Got.step]
    · rw [show x :: List.append xs rest = x :: xs ++ rest from rfl, hlz, List.append_assoc, ← hlen, List.drop_left]
      rfl
    · intro p hp
      refine reacts_idle ?_
      have : ∀ p ∈ ([.elem (nm! "end-line") 1 true, .elem (nm! "end-paragraph") 2 true, .group 3 p_EditorialGroup false] : List RStmt), ∀ a ∈ bodyNames 7 .SyllabicTextGroup, p.reacts a = false := by decide +kernel
      exact this p hp _ (hnames z (by rw [hlz]; simp))
  · have hlt : k < 4 := by
      rcases choice_lt hg.here with h | h
      · cases h
      · exact h
    have hok : choiceOk .LyricTextChoice lyricFields k = true := by
      have : ∀ k ∈ [1, 2, 3], choiceOk .LyricTextChoice lyricFields k = true := by decide +kernel
      exact this k (by simp; omega)
    obtain ⟨x, hx, f, hf, hread⟩ := choice_reads hrd hg (by simp) hok
    obtain ⟨n', e1, e2, e3, e4⟩ := hread _ hb rfl
    refine ⟨n', e2, e4, e3, fun h => absurd h hk, ?_⟩
    rw [hx]
    refine L_seg (pre := []) (st := .sub 0 lyricFields true) (post := [.syllables, .elem (nm! "end-line") 1 true, .elem (nm! "end-paragraph") 2 true, .group 3 p_EditorialGroup false]) (y := x) (n := 0) (next := true)
      (by simp) ?_ rfl (.inl rfl)
    rw [RStmt.at]
    simp only [hf]
    rw [inner_mk _ h0, e1]

/-- The signs at its end. -/
theorem lyric_mark {N : Nat} (hrd : RdBelow N) {self : Child} {d d' : Str} {k k0 name : Nat} {ss ss0 : List Slot} {w : Stmt} (hg : Here N (.comp .Lyric d k ss)) (hw : w ∈ (Cls.Lyric).info.stmts) (hi : inChoice k w = true)
    (hh : w.how = .element) (hm : (Cls.Lyric).info.members[w.slot]? = some ⟨.leaf name false, .opt⟩) {s0 : Slot} (h0 : ss0[w.slot]? = some s0) (hb : BlankSlot ⟨.leaf name false, .opt⟩ s0) {pre post : List RStmt}
    (hpre : onAt ss w.slot = true → ∀ x : Child, x.name = name → ∀ xs, ∀ p ∈ pre, p.at self (.comp .Lyric d' k0 ss0) x xs = idle (.comp .Lyric d' k0 ss0)) (rest : List Child) :
    ∃ s s1, ss[w.slot]? = some s ∧ SlotSame .Lyric w.slot ⟨.leaf name false, .opt⟩ w.how s s1 ∧
      L self (pre ++ .elem name w.slot true :: post) false (.comp .Lyric d' k0 ss0) ((wholeStmt .Lyric k (wholeSlots ss) w).map (Xml.child prog) ++ rest) =
        L self (pre ++ .elem name w.slot true :: post) false (.comp .Lyric d' k0 (ss0.set w.slot s1)) rest := by
  obtain ⟨s, hs, hc⟩ := elem_opt hrd hg hw hi hh hm hb
  rcases hc with ⟨n, n', t, hon, _, rfl, hw0, hn0, hr, hsame⟩ | ⟨_, hw0, hsame⟩
  · refine ⟨s, _, hs, hsame, ?_⟩
    rw [hw0]
    refine L_seg (y := kidOf n) (n := 0) (next := true) (hpre (by simp [onAt, hs, hon]) _ hn0 _) ?_ rfl (.inl rfl)
    rw [RStmt.at, if_pos (show Nat.beq (kidOf n).name name = true from by rw [hn0]; exact Nat.beq_refl _), inner_mk _ h0, hr]
  · exact ⟨s, s0, hs, hsame, by rw [hw0, set_same h0]; rfl⟩

theorem lyric_reads : ClassReads .Lyric := by
  intro N hrd d k ss hg d0 k0 ss0 hb nm
  obtain ⟨hl, hk0, hbl⟩ := hb.slot
  have hm0 : (Cls.Lyric).info.members[0]? = some ⟨.comp .LyricTextChoice, .one⟩ := rfl
  have hm1 : (Cls.Lyric).info.members[1]? = some ⟨.leaf (nm! "end-line") false, .opt⟩ := rfl
  have hm2 : (Cls.Lyric).info.members[2]? = some ⟨.leaf (nm! "end-paragraph") false, .opt⟩ := rfl
  have hm3 : (Cls.Lyric).info.members[3]? = some ⟨.comp .EditorialGroup, .one⟩ := rfl
  have hst : (Cls.Lyric).info.stmts = [⟨[], 0, .body⟩, ⟨[.flag 1], 1, .element⟩, ⟨[.flag 2], 2, .element⟩, ⟨[], 3, .body⟩] := rfl
  obtain ⟨s00, h00⟩ := getElem?_same_length hl hm0
  obtain ⟨s01, h01⟩ := getElem?_same_length hl hm1
  obtain ⟨s02, h02⟩ := getElem?_same_length hl hm2
  obtain ⟨s03, h03⟩ := getElem?_same_length hl hm3
  obtain ⟨s0, dn, kn, ssn, dt, kt, sst, hs0, rfl, hbt, hgn, hkn, hw0, hsame0⟩ := body_one (w := ⟨[], 0, .body⟩) hg (by rw [hst]; simp) rfl (by simp) hm0 (hbl _ _ _ hm0 h00)
  obtain ⟨s3, de, ke, sse, du, ku, ssu, hs3, rfl, hbu, hge, hke, hw3, hsame3⟩ := body_one (w := ⟨[], 3, .body⟩) hg (by rw [hst]; simp) rfl (by simp) hm3 (hbl _ _ _ hm3 h03)
  have hread := here_readable hg
  simp only [ReadableHere] at hread
  have hread' : flagAt ss 3 0 = onAt sse 0 ∧ flagAt ss 3 1 = onAt sse 1 ∧ choiceAt ss 0 = kn := by
    have a : kidsAt ss 3 = [.comp .EditorialGroup de ke sse] := by rw [kidsAt, show ss[3]? = some s3 from hs3]; exact hke
    have b : kidsAt ss 0 = [.comp .LyricTextChoice dn kn ssn] := by rw [kidsAt, show ss[0]? = some s0 from hs0]; exact hkn
    refine ⟨?_, ?_, ?_⟩
    · rw [flagAt, a]
    · rw [flagAt, a]
    · rw [choiceAt, b]
  rw [hread'.1, hread'.2.1, hread'.2.2] at hread
  -- nothing is written for the editorial group
  have hnil : ∀ (dd : Str) (kk : Nat) (tt : List Slot), onAt tt 0 = false → onAt tt 1 = false → (whole (.comp .EditorialGroup dd kk tt)).kids = [] := by
    intro dd kk tt h0 h1
    rw [whole_kids, show (Cls.EditorialGroup).info.stmts = [⟨[.flag 0], 0, .element⟩, ⟨[.flag 1], 1, .element⟩] from rfl, List.flatMap_cons, List.flatMap_singleton, List.append_eq_nil_iff]
    have go : ∀ (i : Nat), onAt tt i = false → i < 2 → wholeStmt .EditorialGroup kk (wholeSlots tt) ⟨[.flag i], i, .element⟩ = [] := by
      intro i hi hlt
      cases hti : tt[i]? with
      | none =>
        simp [wholeStmt, wholeSlots_get, hti]
      | some s =>
        have hon : s.on = false := by simpa [onAt, hti] using hi
        rw [wholeStmt_part (w := ⟨[.flag i], i, .element⟩) hti]
        have : ∃ kd, (Cls.EditorialGroup).info.members[i]? = some ⟨kd, .opt⟩ := by
          rcases (by omega : i = 0 ∨ i = 1) with rfl | rfl <;> exact ⟨_, rfl⟩
        obtain ⟨kd, hkd⟩ := this
        rw [show (Cls.EditorialGroup).info.members[(⟨[.flag i], i, .element⟩ : Stmt).slot]? = _ from hkd, inUse_opt rfl, hon]
        simp
    exact ⟨go 0 h0 (by omega), go 1 h1 (by omega)⟩
  have hE : (whole (.comp .EditorialGroup de ke sse)).kids = [] := hnil _ _ _ hread.1 hread.2.1
  obtain ⟨hlu, _, hblu⟩ := hbu.slot
  have hU : (whole (.comp .EditorialGroup du ku ssu)).kids = [] := by
    refine hnil _ _ _ ?_ ?_
    · cases h : ssu[0]? with
      | none => simp [onAt, h]
      | some s => have := (hblu 0 _ s rfl h).1; simpa [onAt, h] using this
    · cases h : ssu[1]? with
      | none => simp [onAt, h]
      | some s => have := (hblu 1 _ s rfl h).1; simpa [onAt, h] using this
  -- the round over the children
  have hK : (whole (.comp .Lyric d k ss)).kids.map (Xml.child prog) = (whole (.comp .LyricTextChoice dn kn ssn)).kids.map (Xml.child prog) ++
      ((wholeStmt .Lyric k (wholeSlots ss) ⟨[.flag 1], 1, .element⟩).map (Xml.child prog) ++ ((wholeStmt .Lyric k (wholeSlots ss) ⟨[.flag 2], 2, .element⟩).map (Xml.child prog) ++ [])) := by
    rw [whole_kids, hst, List.flatMap_cons, List.flatMap_cons, List.flatMap_cons, List.flatMap_singleton, List.map_append, List.map_append, List.map_append, hw0, hw3, hE]
    rfl
  have hr : RestOk [nm! "end-line", nm! "end-paragraph"] ((wholeStmt .Lyric k (wholeSlots ss) ⟨[.flag 1], 1, .element⟩).map (Xml.child prog) ++ ((wholeStmt .Lyric k (wholeSlots ss) ⟨[.flag 2], 2, .element⟩).map (Xml.child prog) ++ [])) :=
    seg_rest hg (by rw [hst]; simp) (seg_rest (a := []) (b := [nm! "end-paragraph"]) hg (by rw [hst]; simp) (by intro x hx; cases hx) (by decide +kernel) (by decide +kernel)) (by decide +kernel) (by decide +kernel)
  obtain ⟨n0, a1, a2, a3, a4, a5⟩ := lyric_first hrd (self := ⟨nm, readInto prog nm d ((whole (.comp .Lyric d k ss)).kids.map (Xml.child prog)) 3⟩) (d' := d) (k0 := k0) hgn hbt h00 hr
  have hsub : ∀ a ∈ [nm! "end-line", nm! "end-paragraph"], (RStmt.sub 0 lyricFields true).reacts a = false := by decide +kernel
  obtain ⟨s1, t1, b1, b2, b3⟩ := lyric_mark hrd (self := ⟨nm, readInto prog nm d ((whole (.comp .Lyric d k ss)).kids.map (Xml.child prog)) 3⟩) (d' := d) (k0 := k0) (w := ⟨[.flag 1], 1, .element⟩) (ss0 := ss0.set 0 (.mk true [n0])) hg (by rw [hst]; simp) rfl rfl hm1
    (by rw [set_get_ne (by simp)]; exact h01) (hbl _ _ _ hm1 h01) (pre := [.sub 0 lyricFields true, .syllables]) (post := [.elem (nm! "end-paragraph") 2 true, .group 3 p_EditorialGroup false]) (by
      intro hon x hx xs p hp
      have hk : kn = 0 := by
        rcases Nat.eq_zero_or_pos kn with h | h
        · exact h
        · rw [(hread.2.2 (by omega)).1] at hon
          cases hon
      obtain ⟨dt', sst', t, rfl, ht⟩ := a4 hk
      rcases List.mem_cons.mp hp with rfl | hp
      · exact reacts_idle (by rw [hx]; exact hsub _ (by simp))
      · rw [List.mem_singleton.mp hp]
        exact syllables_idle (set_get h00) ht (.inl hx)) ((wholeStmt .Lyric k (wholeSlots ss) ⟨[.flag 2], 2, .element⟩).map (Xml.child prog) ++ [])
  have h02' : ((ss0.set 0 (.mk true [n0])).set 1 t1)[2]? = some s02 := by rw [set_get_ne (by simp), set_get_ne (by simp)]; exact h02
  obtain ⟨s2, t2, c1, c2, c3⟩ := lyric_mark hrd (self := ⟨nm, readInto prog nm d ((whole (.comp .Lyric d k ss)).kids.map (Xml.child prog)) 3⟩) (d' := d) (k0 := k0) (w := ⟨[.flag 2], 2, .element⟩) (ss0 := (ss0.set 0 (.mk true [n0])).set 1 t1) hg (by rw [hst]; simp) rfl rfl hm2
    h02' (hbl _ _ _ hm2 h02) (pre := [.sub 0 lyricFields true, .syllables, .elem (nm! "end-line") 1 true]) (post := [.group 3 p_EditorialGroup false]) (by
      intro hon x hx xs p hp
      have hk : kn = 0 := by
        rcases Nat.eq_zero_or_pos kn with h | h
        · exact h
        · rw [(hread.2.2 (by omega)).2] at hon
          cases hon
      obtain ⟨dt', sst', t, rfl, ht⟩ := a4 hk
      rcases List.mem_cons.mp hp with rfl | hp
      · exact reacts_idle (by rw [hx]; exact hsub _ (by simp))
      · rcases List.mem_cons.mp hp with rfl | hp
        · exact syllables_idle (by rw [set_get_ne (by simp)]; exact set_get h00) ht (.inr hx)
        · rw [List.mem_singleton.mp hp]
          exact reacts_idle (by rw [hx]; decide +kernel)) []
  have h03' : (((ss0.set 0 (.mk true [n0])).set 1 t1).set 2 t2)[3]? = some (.mk false [.comp .EditorialGroup du ku ssu]) := by
    rw [set_get_ne (by simp), set_get_ne (by simp), set_get_ne (by simp)]; exact h03
  have hF : Filled .Lyric ss (Cls.Lyric).info.stmts ss0 (((ss0.set 0 (.mk true [n0])).set 1 t1).set 2 t2) := by
    rw [hst]
    refine .cons (w := ⟨[], 0, .body⟩) hm0 hs0 h00 (hsame0 true n0 a1 a2 a3) (by simp) ?_
    refine .cons (w := ⟨[.flag 1], 1, .element⟩) hm1 b1 (by rw [set_get_ne (by simp)]; exact h01) b2 (by simp) ?_
    refine .cons (w := ⟨[.flag 2], 2, .element⟩) hm2 c1 h02' c2 (by simp) ?_
    refine .cons (w := ⟨[], 3, .body⟩) hm3 hs3 h03' (hsame3 false _ rfl (blank_fine hbu) (by rw [hU, hE])) (by simp) ?_
    rw [show (⟨[], 3, .body⟩ : Stmt).slot = 3 from rfl, set_same h03']
    exact .nil
  obtain ⟨f1, f2⟩ := filled_fine (d' := d) (stmts_free rfl) hg.2.1 hb rfl hF
  refine ⟨k0, _, ?_, f1, f2⟩
  rw [show prog .Lyric = .loop none lyricBody false [] from rfl, RProg.run]
  simp only [Option.map_none, Option.getD_none, Bool.true_and, List.isEmpty_nil, Bool.true_or, Bool.and_true]
  generalize hself : (⟨nm, readInto prog nm d ((whole (.comp .Lyric d k ss)).kids.map (Xml.child prog)) 3⟩ : Child) = self at *
  rw [show readLoop self lyricBody false ((whole (.comp .Lyric d k ss)).kids.map (Xml.child prog)).length (.comp .Lyric d k0 ss0) ((whole (.comp .Lyric d k ss)).kids.map (Xml.child prog)) =
    L self lyricBody false (.comp .Lyric d k0 ss0) ((whole (.comp .Lyric d k ss)).kids.map (Xml.child prog)) from rfl, hK, a5]
  have e := (show L self lyricBody false (.comp .Lyric d k0 (ss0.set 0 (.mk true [n0]))) _ = L self lyricBody false (.comp .Lyric d k0 ((ss0.set 0 (.mk true [n0])).set 1 t1)) _ from b3).trans
    (show L self lyricBody false (.comp .Lyric d k0 ((ss0.set 0 (.mk true [n0])).set 1 t1)) _ = L self lyricBody false (.comp .Lyric d k0 (((ss0.set 0 (.mk true [n0])).set 1 t1).set 2 t2)) [] from c3)
  rw [e, L_nil]

end Mx.Content
