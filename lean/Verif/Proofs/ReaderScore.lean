import Verif.Proofs.ReaderNote

/-
Scores, their headers and lists of parts.
-/
open Mx.Spec
namespace Mx.Content

/-! ## The header -/

def headBody : List RStmt := match prog .ScoreHeaderGroup with | .loop _ b _ _ => b | _ => []

theorem head_prog : prog .ScoreHeaderGroup = .loop none headBody false [] := rfl

/-- Children that follow the header. -/
theorem head_after {self : Child} {name : Nat} (hname : (headBody.take 7).all (fun p => !p.reacts name) = true) {o : Node} (ho : o.isOn 6 = true) :
    ∀ (rest : List Child), (∀ x ∈ rest, x.name = name) → L self headBody false o rest = (o, true)
  | [], _ => rfl
  | x :: xs, h => by
    have hx := h x (by simp)
    have hst : (RStmt.unless 6).at self o x xs = ⟨o, true, 0, true⟩ := by rw [RStmt.at, ho]
    rw [show headBody = headBody.take 7 ++ RStmt.unless 6 :: [] from rfl]
    rw [L_seg (y := x) (rest := xs) (fun p hp => reacts_idle (by rw [hx]; simpa using List.all_eq_true.mp hname p hp)) hst rfl (.inl rfl)]
    exact head_after hname ho xs (fun y hy => h y (by simp [hy]))

theorem head_reads {N : Nat} (hrd : RdBelow N) {d d0 d' : Str} {k k0 : Nat} {ss ss0 : List Slot} (hg : Here N (.comp .ScoreHeaderGroup d k ss)) (hb : Blank (.comp .ScoreHeaderGroup d0 k0 ss0))
    {self : Child} {name : Nat} (hname : (headBody.take 7).all (fun p => !p.reacts name) = true) (hB : serveAllB .ScoreHeaderGroup headBody false [name] [] (Cls.ScoreHeaderGroup).info.stmts = true) {rest : List Child} (hrest : ∀ x ∈ rest, x.name = name) :
    ∃ n', (prog .ScoreHeaderGroup).run self ((whole (.comp .ScoreHeaderGroup d k ss)).kids.map (Xml.child prog) ++ rest) (.comp .ScoreHeaderGroup d' k0 ss0) = (n', true) ∧
      n'.kind = .comp .ScoreHeaderGroup ∧ Fine n' ∧ (whole n').kids = (whole (.comp .ScoreHeaderGroup d k ss)).kids := by
  have hS : ServeAll N self headBody false .ScoreHeaderGroup [name] (Cls.ScoreHeaderGroup).info.stmts := serveAll_of hrd (fun _ _ _ _ h => by cases h) [] _ rfl hB
  obtain ⟨ss1, h1, h2, h3, h4⟩ := loop_reads (d' := d') (stmts_free rfl) hg hb (fun x hx => by rw [hrest x (List.mem_of_mem_head? hx)]; simp) hS
  refine ⟨_, ?_, rfl, h2, h3⟩
  obtain ⟨m, s, hm, hs, _, _⟩ := good_slot hg (w := ⟨[], 6, .element⟩) (by simp [Cls.info, c_ScoreHeaderGroup]) rfl
  obtain ⟨s1, e1, e2⟩ := h4.same ⟨[], 6, .element⟩ (by simp [Cls.info, c_ScoreHeaderGroup]) m s hm hs
  have hmm : m.mult = .one := by
    have : (Cls.ScoreHeaderGroup).info.members[6]? = some ⟨.comp .PartList, .one⟩ := rfl
    rw [show (Cls.ScoreHeaderGroup).info.members[(⟨[], 6, .element⟩ : Stmt).slot]? = _ from this] at hm
    cases hm; rfl
  have hon : (Node.comp .ScoreHeaderGroup d' k0 ss1).isOn 6 = true := by
    simp only [Node.isOn]
    rw [show ss1[6]? = some s1 from e1]
    exact e2.seen rfl hmm
  rw [head_after hname hon rest hrest] at h1
  rw [head_prog, RProg.run]
  simp only [Option.map_none, Option.getD_none, Bool.true_and, List.isEmpty_nil, Bool.true_or, Bool.and_true]
  exact h1

/-! ## The two kinds of score -/

/-- Children that a loop of one kind of item does not know. -/
theorem items_pass {self : Child} {name i : Nat} {o : Node} {rest : List Child} : ∀ (l : List Child), (∀ x ∈ l, Nat.beq x.name name = false) →
    L self [.item name i] false o (l ++ rest) = L self [.item name i] false o rest
  | [], _ => rfl
  | x :: xs, h => by
    rw [List.cons_append, L_round (o' := o) (n := 0) (next := false) (by rw [runBody_idle]; rfl; intro p hp; rw [List.mem_singleton.mp hp]; exact reacts_idle (h x (by simp))) (.inr rfl)]
    exact items_pass xs (fun y hy => h y (by simp [hy]))

theorem score_reads {c G : Cls} {name : Nat} (hp : prog c = .loop (some 0) [.item name 1] false []) (hc : Free c) (hst : c.info.stmts = [⟨[], 0, .body⟩, ⟨[], 1, .element⟩])
    (hm0 : c.info.members[0]? = some ⟨.comp .ScoreHeaderGroup, .one⟩) (hm1 : c.info.members[1]? = some ⟨.comp G, .set ⟨1, none, 1, 1⟩⟩) (hkn : kindName (.comp G) = name)
    (hlo : Nat.ble 1 (wide.lo c 1) = true)
    (hname : (headBody.take 7).all (fun p => !p.reacts name) = true) (hB : serveAllB .ScoreHeaderGroup headBody false [name] [] (Cls.ScoreHeaderGroup).info.stmts = true)
    (hno : (bodyNames 7 .ScoreHeaderGroup).all (fun n => !Nat.beq n name) = true) : ClassReads c := by
  intro N hrd d k ss hg d0 k0 ss0 hb nm
  obtain ⟨hl, hk0, hbl⟩ := hb.slot
  obtain ⟨s00, h00⟩ := getElem?_same_length hl hm0
  obtain ⟨s01, h01⟩ := getElem?_same_length hl hm1
  obtain ⟨s, dn, kn, ssn, dt, kt, sst, hs, rfl, htb, hgn, hsk, hkids0, hsame0⟩ := body_one hg (w := ⟨[], 0, .body⟩) (by rw [hst]; simp) (free_inChoice rfl k) (by simp) hm0 (hbl 0 _ _ hm0 h00)
  obtain ⟨s1, ns', hs1, hkids1, hnm1, hok1, hread1, hlen1, hsame1⟩ := elem_set hrd hg (w := ⟨[], 1, .element⟩) (by rw [hst]; simp) (free_inChoice rfl k) rfl hm1
  have hkids : (whole (.comp c d k ss)).kids.map (Xml.child prog) = (whole (.comp .ScoreHeaderGroup dn kn ssn)).kids.map (Xml.child prog) ++ s1.kids.map kidOf := by
    rw [whole_kids, hst, List.flatMap_cons, List.flatMap_singleton, List.map_append, hkids0, hkids1]
  rw [hkn] at hnm1
  have hread0 := fun self => head_reads hrd hgn.here htb (d' := d) (self := self) hname hB hnm1
  rw [hkids]
  obtain ⟨n', e1, e2, e3, e4⟩ := hread0 ⟨nm, readInto prog nm d ((whole (.comp .ScoreHeaderGroup dn kn ssn)).kids.map (Xml.child prog) ++ s1.kids.map kidOf) 2⟩
  obtain ⟨m1, s1', hm1', hs1', hok, hgood⟩ := good_slot hg (w := ⟨[], 1, .element⟩) (by rw [hst]; simp) (free_inChoice rfl k)
  rw [show c.info.members[(⟨[], 1, .element⟩ : Stmt).slot]? = _ from hm1] at hm1'; cases hm1'
  rw [hs1] at hs1'; cases hs1'
  have hserve : Serve N ⟨nm, readInto prog nm d ((whole (.comp .ScoreHeaderGroup dn kn ssn)).kids.map (Xml.child prog) ++ s1.kids.map kidOf) 3⟩ ([] ++ .item name 1 :: []) false c ⟨[], 1, .element⟩ [] :=
    serve_item (w := ⟨[], 1, .element⟩) hrd (by rw [hst]; simp) rfl hm1 rfl ⟨Nat.le_refl 1, .inr (Nat.le_of_ble_eq_true hlo)⟩ hkn.symm ⟨by simp, .inl rfl⟩
  have h01' : (ss0.set 0 (.mk true [n']))[1]? = some s01 := by rw [set_get_ne (by simp)]; exact h01
  obtain ⟨t1, hS1, hL⟩ := hserve d k0 (ss0.set 0 (.mk true [n'])) _ s1 s01 [] hm1 hok hgood h01' (hbl 1 _ _ hm1 h01) (by intro x hx; cases hx)
  rw [segOf_on rfl, flatMap_seg_element, List.append_nil, L_nil] at hL
  have hF : Filled c ss c.info.stmts ss0 ((ss0.set 0 (.mk true [n'])).set 1 t1) := by
    rw [hst]
    exact .cons (w := ⟨[], 0, .body⟩) hm0 hs h00 (hsame0 true n' e2 e3 e4) (by simp) (.cons (w := ⟨[], 1, .element⟩) hm1 hs1 h01' hS1 (by simp) .nil)
  obtain ⟨f1, f2⟩ := filled_fine (d' := d) hc hg.2.1 hb rfl hF
  refine ⟨k0, _, ?_, f1, by rw [f2]⟩
  rw [hp, RProg.run]
  simp only [Option.map_some, Option.getD_some, List.isEmpty_nil, Bool.true_or, Bool.and_true]
  rw [inner_mk _ h00, readInto, e1]
  simp only [Bool.true_and]
  rw [show readLoop _ _ _ (_ : List Child).length _ _ = L _ _ _ _ _ from rfl, items_pass _ ?_]
  · exact hL
  · intro x hx
    obtain ⟨y, hy, rfl⟩ := List.mem_map.mp hx
    rw [child_name]
    have := List.all_eq_true.mp hno _ (bodyNames_of 7 .ScoreHeaderGroup (deep_all _) dn kn ssn hgn.2.1.1 y hy)
    simpa using this

theorem scorePartwise_reads : ClassReads .ScorePartwise :=
  score_reads rfl (stmts_free rfl) rfl rfl rfl rfl (by decide +kernel) (by decide +kernel) (by decide +kernel) (by decide +kernel)
theorem scoreTimewise_reads : ClassReads .ScoreTimewise :=
  score_reads rfl (stmts_free rfl) rfl rfl rfl rfl (by decide +kernel) (by decide +kernel) (by decide +kernel) (by decide +kernel)

end Mx.Content
