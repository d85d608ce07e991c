import Verif.Proofs.ReaderSpecialH

/-
Credits.
-/
open Mx.Spec
namespace Mx.Content

theorem push_all {c : Cls} {d : Str} {k i : Nat} (hadd : ∀ y ks, (memberSet c i).add y ks = ks ++ [y]) : ∀ (ns : List Node) (ss : List Slot) (b : Bool) (acc : List Node), ss[i]? = some (.mk b acc) →
    ns.foldl (fun o x => o.push i x) (Node.comp c d k ss) = .comp c d k (ss.set i (.mk b (acc ++ ns)))
  | [], ss, b, acc, h => by rw [List.append_nil, set_same h]; rfl
  | n :: ns, ss, b, acc, h => by
    rw [List.foldl_cons, Node.push, changeSlot_some h, hadd]
    rw [push_all hadd ns _ _ _ (set_get h), List.set_set]
    simp [kids_mk, on_mk]

theorem pushRun_read {c : Cls} {d : Str} {k i : Nat} {kd : Kind} {sc : SetCode} (hm : c.info.members[i]? = some ⟨kd, .set sc⟩) (hmost : sc.most = none) {ss : List Slot} {b : Bool} (h0 : ss[i]? = some (.mk b []))
    {ns ns' : List Node} {rest : List Child} {name : Nat} (hn : ∀ x ∈ ns.map kidOf, x.name = name) (hr : (ns.map kidOf).map (fun y => y.read (make kd)) = ns'.map (fun n => (n, true)))
    (hrest : ∀ x ∈ rest.head?, x.name ≠ name) :
    pushRun name i (.comp c d k ss) (ns.map kidOf ++ rest) = ⟨.comp c d k (ss.set i (.mk b ns')), true, (ns.map kidOf).length⟩ := by
  have hadd : ∀ y ks, (memberSet c i).add y ks = ks ++ [y] := by
    intro y ks
    rw [memberSet_eq hm rfl, SetCode.add, hmost]
  simp only [pushRun]
  rw [runItems_seg hn hrest, newItem_eq hm, hr, map_fst_pair, all_snd_pair, push_all hadd _ _ _ _ h0, List.nil_append]

/-- An element read by simple objects: they get its attributes and value. -/
def Gives (self : Child) (D : Str) : Prop := ∀ t h x, self.read (.leaf t h x) = (.leaf t h D, true)

/-- Simple objects with the same attributes and value, read from that element once for each of the children. -/
theorem same_leaves {self : Child} {D : Str} (hself : Gives self D) {t : Nat} {h : Bool} : ∀ (ns : List Node), (∀ n ∈ ns, n.kind = .leaf t h ∧ HasData D n) →
    (ns.map kidOf).map (fun _ => self.read (make (.leaf t h))) = ns.map (fun n => (n, true))
  | [], _ => rfl
  | n :: ns, hn => by
    obtain ⟨h1, t', h', rfl⟩ := hn n (by simp)
    injection h1 with e1 e2
    subst e1 e2
    simp only [List.map_cons, List.cons.injEq]
    exact ⟨hself _ _ _, same_leaves hself ns (fun m hm => hn m (by simp [hm]))⟩

theorem leaf_fine {N : Nat} {n : Node} (h : Good N n) : Fine n := h.2.1

/-- A group of words whose links and bookmarks have the attributes and the value of the credit. -/
theorem words_group {N : Nat} (hrd : RdBelow N) {n : Node} (hg : Good N n) (hk : n.kind = .comp .CreditWordsGroup) {self : Child} {D : Str} (hself : Gives self D)
    (hD : ∀ x ∈ partsAt n 0 ++ partsAt n 1, HasData D x) :
    ∃ (l0 l1 : List Child) (x : Child), (whole n).kids.map (Xml.child prog) = l0 ++ (l1 ++ [x]) ∧ x.name = nm! "credit-words" ∧ (∀ y ∈ l0, y.name = nm! "link") ∧ (∀ y ∈ l1, y.name = nm! "bookmark") ∧
      ∃ n', n'.kind = .comp .CreditWordsGroup ∧ Fine n' ∧ (whole n').kids = (whole n).kids ∧
      ∀ f (c : Node) (xs : List Child), creditWords self (f + 1) c (make (.comp .CreditWordsGroup)) (l0 ++ (l1 ++ (x :: xs))) =
        ((creditWords self f (c.push 2 n') (c.newItem 2) xs).1, (creditWords self f (c.push 2 n') (c.newItem 2) xs).2) := by
  obtain ⟨d, k, ss, rfl⟩ := kind_comp hk
  obtain ⟨d0, k0, ss0, e0⟩ := kind_comp (make_kind (.comp .CreditWordsGroup))
  have hb := make_blank .CreditWordsGroup
  rw [e0] at hb ⊢
  obtain ⟨hl, hk0, hbl⟩ := hb.slot
  have hm0 : (Cls.CreditWordsGroup).info.members[0]? = some ⟨.leaf (nm! "link") false, .set ⟨0, none, 0, 0⟩⟩ := rfl
  have hm1 : (Cls.CreditWordsGroup).info.members[1]? = some ⟨.leaf (nm! "bookmark") false, .set ⟨0, none, 0, 0⟩⟩ := rfl
  have hm2 : (Cls.CreditWordsGroup).info.members[2]? = some ⟨.leaf (nm! "credit-words") true, .one⟩ := rfl
  have hst : (Cls.CreditWordsGroup).info.stmts = [⟨[], 0, .element⟩, ⟨[], 1, .element⟩, ⟨[], 2, .element⟩] := rfl
  obtain ⟨s00, h00⟩ := getElem?_same_length hl hm0
  obtain ⟨s01, h01⟩ := getElem?_same_length hl hm1
  obtain ⟨s02, h02⟩ := getElem?_same_length hl hm2
  obtain ⟨s0, ns0, hs0, hw0, hn0, hok0, hr0, hlen0, _⟩ := elem_set hrd hg.here (w := ⟨[], 0, .element⟩) (by rw [hst]; simp) rfl rfl hm0
  obtain ⟨s1, ns1, hs1, hw1, hn1, hok1, hr1, hlen1, _⟩ := elem_set hrd hg.here (w := ⟨[], 1, .element⟩) (by rw [hst]; simp) rfl rfl hm1
  obtain ⟨s2, a, a', ta, hs2, rfl, hw2, hn2, hr2, hsame2⟩ := elem_one hrd hg.here (w := ⟨[], 2, .element⟩) (by rw [hst]; simp) rfl rfl hm2 (hbl 2 _ _ hm2 h02)
  have hfine : ∀ s ∈ ss, ∀ n ∈ s.kids, Fine n := by
    intro s hs n hn
    obtain ⟨_, ⟨hw, hsc⟩, _⟩ := hg
    cases hw with
    | comp _ _ _ _ _ hw => cases hsc with | comp _ _ _ _ _ hsc => exact ⟨hw s hs n hn, hsc s hs n hn⟩
  have hd0 : ∀ n ∈ s0.kids, n.kind = .leaf (nm! "link") false ∧ HasData D n := fun n hn => ⟨hok0.1 n hn, hD n (by
    rw [List.mem_append]; left; show n ∈ kidsAt ss 0; simpa [kidsAt, show ss[0]? = some s0 from hs0] using hn)⟩
  have hd1 : ∀ n ∈ s1.kids, n.kind = .leaf (nm! "bookmark") false ∧ HasData D n := fun n hn => ⟨hok1.1 n hn, hD n (by
    rw [List.mem_append]; right; show n ∈ kidsAt ss 1; simpa [kidsAt, show ss[1]? = some s1 from hs1] using hn)⟩
  have hz : ∀ {i : Nat} {s : Bool} {nm : Nat}, (Cls.CreditWordsGroup).info.members[i]? = some ⟨.leaf nm s, .set ⟨0, none, 0, 0⟩⟩ → ∀ (s0 : Slot), ss0[i]? = some s0 → s0 = .mk false [] := by
    intro i s nm hm s0 h0
    have hb0 := hbl i _ _ hm h0
    cases s0 with
    | mk b ks =>
      have h1 := hb0.1
      have h2 := hb0.2.1
      rw [on_mk] at h1
      rw [kids_mk] at h2
      rw [h1, List.length_eq_zero_iff.mp h2]
  rw [hz hm0 _ h00] at h00
  rw [hz hm1 _ h01] at h01
  have h01' : (ss0.set 0 (.mk false s0.kids))[1]? = some (.mk false []) := by rw [set_get_ne (by simp)]; exact h01
  have h02' : ((ss0.set 0 (.mk false s0.kids)).set 1 (.mk false s1.kids))[2]? = some (.mk false [ta]) := by rw [set_get_ne (by simp), set_get_ne (by simp)]; exact h02
  have hF : Filled .CreditWordsGroup ss (Cls.CreditWordsGroup).info.stmts ss0 (((ss0.set 0 (.mk false s0.kids)).set 1 (.mk false s1.kids)).set 2 (.mk true [a'])) := by
    rw [hst]
    exact .cons (w := ⟨[], 0, .element⟩) hm0 hs0 h00 (slotSame_set rfl hok0 rfl (fun n hn => ⟨hok0.1 n hn, hfine s0 (List.mem_of_getElem? hs0) n hn⟩) rfl) (by simp)
      (.cons (w := ⟨[], 1, .element⟩) hm1 hs1 h01' (slotSame_set rfl hok1 rfl (fun n hn => ⟨hok1.1 n hn, hfine s1 (List.mem_of_getElem? hs1) n hn⟩) rfl) (by simp)
      (.cons (w := ⟨[], 2, .element⟩) hm2 hs2 h02' hsame2 (by simp) .nil))
  obtain ⟨f1, f2⟩ := filled_fine (d' := d0) (stmts_free rfl) hg.2.1 hb rfl hF
  refine ⟨s0.kids.map kidOf, s1.kids.map kidOf, kidOf a, ?_, hn2, hn0, hn1, _, rfl, f1, f2, ?_⟩
  · rw [whole_kids, hst, List.flatMap_cons, List.flatMap_cons, List.flatMap_singleton, List.map_append, List.map_append, hw0, hw1, hw2]
  · intro f c xs
    have hadd : ∀ {i : Nat} {kd : Kind}, (Cls.CreditWordsGroup).info.members[i]? = some ⟨kd, .set ⟨0, none, 0, 0⟩⟩ → ∀ y ks, (memberSet .CreditWordsGroup i).add y ks = ks ++ [y] := by
      intro i kd hm y ks
      rw [memberSet_eq hm rfl]; rfl
    have r1 : runItems (nm! "bookmark") (s1.kids.map kidOf ++ kidOf a :: xs) = s1.kids.map kidOf := runItems_seg hn1 (by
      intro y hy; simp at hy; rw [← hy, hn2]; decide)
    have r0 : runItems (nm! "link") (s0.kids.map kidOf ++ (s1.kids.map kidOf ++ kidOf a :: xs)) = s0.kids.map kidOf := runItems_seg hn0 (by
      intro y hy
      cases hc : s1.kids.map kidOf with
      | nil => rw [hc] at hy; simp at hy; rw [← hy, hn2]; decide
      | cons z zs =>
        rw [hc] at hy
        simp at hy
        rw [← hy, hn1 z (by rw [hc]; simp)]; decide)
    have hhead : headIn [nm! "link", nm! "bookmark", nm! "credit-words"] (s0.kids.map kidOf ++ (s1.kids.map kidOf ++ kidOf a :: xs)) = true := by
      cases hc0 : s0.kids.map kidOf with
      | cons z zs => rw [List.cons_append, headIn, hn0 z (by rw [hc0]; simp)]; decide +kernel
      | nil =>
        rw [List.nil_append]
        cases hc : s1.kids.map kidOf with
        | nil => rw [List.nil_append, headIn, hn2]; decide +kernel
        | cons z zs => rw [List.cons_append, headIn, hn1 z (by rw [hc]; simp)]; decide +kernel
    have q0 := same_leaves hself s0.kids hd0
    have q1 := same_leaves hself s1.kids hd1
    rw [creditWords, if_pos hhead]
    simp only []
    rw [r0, newItem_eq hm0, q0, map_fst_pair, all_snd_pair, push_all (hadd hm0) _ _ _ _ h00, List.nil_append, show (s0.kids.map (fun n => (n, true))).length = (s0.kids.map kidOf).length by simp, List.drop_left, r1,
      newItem_eq hm1, q1, map_fst_pair, all_snd_pair, push_all (hadd hm1) _ _ _ _ h01', List.nil_append, show (s1.kids.map (fun n => (n, true))).length = (s1.kids.map kidOf).length by simp, List.drop_left]
    simp only []
    rw [hn2, show Nat.beq (kindName (.leaf (nm! "credit-words") true)) (nm! "credit-words") = true from by decide +kernel, if_pos rfl, inner_mk _ h02', hr2]
    simp only [Bool.and_self, Bool.true_and]

theorem creditWords_loop {N : Nat} (hrd : RdBelow N) {self : Child} {D : Str} (hself : Gives self D) {d : Str} {k : Nat} : ∀ (ns : List Node) (f : Nat) (ss : List Slot) (b : Bool) (acc : List Node), ns.length ≤ f →
    (∀ n ∈ ns, Good N n ∧ n.kind = .comp .CreditWordsGroup) → (∀ n ∈ ns, ∀ x ∈ partsAt n 0 ++ partsAt n 1, HasData D x) → ss[2]? = some (.mk b acc) →
    ∃ ns' : List Node, ns'.length = ns.length ∧ (∀ n ∈ ns', n.kind = .comp .CreditWordsGroup ∧ Fine n) ∧ ns'.flatMap (fun n => (whole n).kids) = ns.flatMap (fun n => (whole n).kids) ∧
      creditWords self f (.comp .CreditChoice d k ss) (make (.comp .CreditWordsGroup)) (ns.flatMap (fun n => (whole n).kids.map (Xml.child prog))) =
        (.comp .CreditChoice d k (ss.set 2 (.mk b (acc ++ ns'))), true)
  | [], f, ss, b, acc, _, _, _, h0 => by
    refine ⟨[], rfl, by simp, rfl, ?_⟩
    rw [List.append_nil, set_same h0]
    cases f <;> rfl
  | n :: ns, 0, _, _, _, h, _, _, _ => by simp at h
  | n :: ns, f + 1, ss, b, acc, hle, h, hD, h0 => by
    obtain ⟨l0, l1, x, hx, hxn, _, _, n', e2, e3, e4, e1⟩ := words_group hrd (h n (by simp)).1 (h n (by simp)).2 hself (hD n (by simp))
    obtain ⟨ns', g1, g2, g3, g4⟩ := creditWords_loop hrd hself (d := d) (k := k) ns f (ss.set 2 (.mk b (acc ++ [n']))) b (acc ++ [n']) (by simpa using hle) (fun m hm => h m (by simp [hm]))
      (fun m hm => hD m (by simp [hm])) (set_get h0)
    refine ⟨n' :: ns', by simp [g1], forall_cons ⟨e2, e3⟩ g2, by rw [List.flatMap_cons, List.flatMap_cons, g3, e4], ?_⟩
    rw [List.flatMap_cons, hx, List.append_assoc, List.append_assoc, List.singleton_append, e1]
    generalize hl : ns.flatMap (fun n => (whole n).kids.map (Xml.child prog)) = l at g4 ⊢
    have hm2 : (Cls.CreditChoice).info.members[2]? = some ⟨.comp .CreditWordsGroup, .set ⟨0, none, 0, 0⟩⟩ := rfl
    rw [newItem_eq hm2, Node.push, changeSlot_some h0, memberSet_eq hm2 rfl]
    simp only [SetCode.add, kids_mk, on_mk]
    rw [g4, List.set_set, List.append_assoc]
    rfl

/-- What `readCredit` does with the choice. -/
def creditChoice (self : Child) (l : List Child) (g : Node) : Node × Bool :=
  match l with
  | [] => (g, true)
  | x :: xs =>
    if Nat.beq x.name (nm! "credit-image") then g.readField (0, some 0) x
    else
      let w := g.readField (1, some 1) x
      let q := creditWords self xs.length w.1 (w.1.newItem 2) xs
      (q.1, w.2 && q.2)

theorem creditChoice_reads {N : Nat} (hrd : RdBelow N) {self : Child} {D : Str} (hself : Gives self D) {d : Str} {k : Nat} {ss : List Slot} (hg : Good N (.comp .CreditChoice d k ss))
    (hD : k = 1 → ∀ g ∈ kidsAt ss 2, ∀ n ∈ partsAt g 0 ++ partsAt g 1, HasData D n) {d0 : Str} {k0 : Nat} {ss0 : List Slot} (hb : Blank (.comp .CreditChoice d0 k0 ss0)) :
    ∃ x xs n', (whole (.comp .CreditChoice d k ss)).kids.map (Xml.child prog) = x :: xs ∧ x.name ∈ [nm! "credit-image", nm! "credit-words"] ∧ creditChoice self (x :: xs) (.comp .CreditChoice d0 k0 ss0) = (n', true) ∧
      n'.kind = .comp .CreditChoice ∧ Fine n' ∧ (whole n').kids = (whole (.comp .CreditChoice d k ss)).kids := by
  rcases two_choices hg.here rfl with rfl | rfl
  · obtain ⟨x, hx, f, hf, hread⟩ := choice_reads hrd hg (by simp) (fs := [(nm! "credit-image", 0, some 0)]) (by decide +kernel)
    obtain ⟨n', e1, e2, e3, e4⟩ := hread _ hb rfl
    obtain ⟨hn, rfl⟩ := field_one hf
    refine ⟨x, [], n', hx, by rw [hn]; decide, ?_, e2, e4, e3⟩
    simp only [creditChoice]
    rw [hn, beq_self, if_pos rfl, e1]
  · obtain ⟨hl, hk0, hbl⟩ := hb.slot
    have hm1 : (Cls.CreditChoice).info.members[1]? = some ⟨.leaf (nm! "credit-words") true, .one⟩ := rfl
    have hm2 : (Cls.CreditChoice).info.members[2]? = some ⟨.comp .CreditWordsGroup, .set ⟨0, none, 0, 0⟩⟩ := rfl
    have hf : (Cls.CreditChoice).info.stmts.filter (inChoice 1) = [⟨[.choice 1], 1, .element⟩, ⟨[.choice 1], 2, .body⟩] := rfl
    have hmem : ∀ w ∈ ([⟨[.choice 1], 1, .element⟩, ⟨[.choice 1], 2, .body⟩] : List Stmt), w ∈ (Cls.CreditChoice).info.stmts := by
      intro w hw
      rw [← hf] at hw
      exact (List.mem_filter.mp hw).1
    obtain ⟨s01, h01⟩ := getElem?_same_length hl hm1
    obtain ⟨s02, h02⟩ := getElem?_same_length hl hm2
    obtain ⟨s1, a, a', ta, hs1, rfl, hw1, hn1, hr1, hsame1⟩ := elem_one hrd hg.here (w := ⟨[.choice 1], 1, .element⟩) (hmem _ (by simp)) rfl rfl hm1 (hbl 1 _ _ hm1 h01)
    obtain ⟨s2, hs2, hok2, hgood2, hw2, hsame2⟩ := body_set hg.here (w := ⟨[.choice 1], 2, .body⟩) (hmem _ (by simp)) rfl (by simp) hm2
    have h02' : (ss0.set 1 (.mk true [a']))[2]? = some s02 := by rw [set_get_ne (by simp)]; exact h02
    have hz2 : s02.kids = [] := List.length_eq_zero_iff.mp (hbl 2 _ _ hm2 h02).2.1
    cases s02 with
    | mk b acc =>
    rw [kids_mk] at hz2
    subst hz2
    have hD2 : ∀ g ∈ s2.kids, ∀ n ∈ partsAt g 0 ++ partsAt g 1, HasData D n := fun g hg => hD rfl g (by simpa [kidsAt, show ss[2]? = some s2 from hs2] using hg)
    have hlen : s2.kids.length ≤ (s2.kids.flatMap (fun n => (whole n).kids.map (Xml.child prog))).length := by
      have : ∀ ns : List Node, (∀ n ∈ ns, Good N n ∧ n.kind = .comp .CreditWordsGroup) → (∀ g ∈ ns, ∀ n ∈ partsAt g 0 ++ partsAt g 1, HasData D n) →
          ns.length ≤ (ns.flatMap (fun n => (whole n).kids.map (Xml.child prog))).length := by
        intro ns
        induction ns with
        | nil => simp
        | cons n ns ih =>
          intro h h'
          obtain ⟨l0, l1, x, hx, _⟩ := words_group hrd (h n (by simp)).1 (h n (by simp)).2 hself (h' n (by simp))
          have := ih (fun m hm => h m (by simp [hm])) (fun m hm => h' m (by simp [hm]))
          rw [List.flatMap_cons, hx, List.length_append, List.length_append, List.length_append, List.length_cons]
          simp only [List.length_cons, List.length_nil]
          omega
      exact this _ hgood2 hD2
    obtain ⟨ns', g1, g2, g3, g4⟩ := creditWords_loop hrd hself (d := d0) (k := 1) s2.kids (s2.kids.flatMap (fun n => (whole n).kids.map (Xml.child prog))).length _ b [] hlen hgood2 hD2 h02'
    have hF : Filled .CreditChoice ss [⟨[.choice 1], 1, .element⟩, ⟨[.choice 1], 2, .body⟩] ss0 ((ss0.set 1 (.mk true [a'])).set 2 (.mk b ns')) :=
      .cons (w := ⟨[.choice 1], 1, .element⟩) hm1 hs1 h01 hsame1 (by simp) (.cons (w := ⟨[.choice 1], 2, .body⟩) hm2 hs2 h02' (hsame2 _ _ g1 g2 g3) (by simp) .nil)
    obtain ⟨f1, f2⟩ := choice_fine (d' := d0) hg.2.1 hb hf (by simp) hF
    refine ⟨kidOf a, s2.kids.flatMap (fun n => (whole n).kids.map (Xml.child prog)), _, ?_, by rw [hn1]; decide, ?_, rfl, f1, f2⟩
    · rw [whole_kids_choice, hf, List.flatMap_cons, List.flatMap_singleton, List.map_append, hw1, hw2]; rfl
    · simp only [creditChoice]
      rw [hn1, if_neg (by decide +kernel), Node.readField, inner_mk _ h01, hr1]
      simp only [Node.choose, Option.getD_some]
      rw [newItem_eq hm2, g4]
      rfl

theorem credit_reads : ClassReads .Credit := by
  intro N hrd d k ss hg d0 k0 ss0 hb nm
  obtain ⟨hl, hk0, hbl⟩ := hb.slot
  have hm0 : (Cls.Credit).info.members[0]? = some ⟨.leaf (nm! "credit-type") true, .set ⟨0, none, 0, 0⟩⟩ := rfl
  have hm1 : (Cls.Credit).info.members[1]? = some ⟨.leaf (nm! "link") false, .set ⟨0, none, 0, 0⟩⟩ := rfl
  have hm2 : (Cls.Credit).info.members[2]? = some ⟨.leaf (nm! "bookmark") false, .set ⟨0, none, 0, 0⟩⟩ := rfl
  have hm3 : (Cls.Credit).info.members[3]? = some ⟨.comp .CreditChoice, .one⟩ := rfl
  have hst : (Cls.Credit).info.stmts = [⟨[], 0, .element⟩, ⟨[], 1, .element⟩, ⟨[], 2, .element⟩, ⟨[], 3, .body⟩] := rfl
  obtain ⟨s00, h00⟩ := getElem?_same_length hl hm0
  obtain ⟨s01, h01⟩ := getElem?_same_length hl hm1
  obtain ⟨s02, h02⟩ := getElem?_same_length hl hm2
  obtain ⟨s03, h03⟩ := getElem?_same_length hl hm3
  obtain ⟨s0, ns0, hs0, hw0, hn0, hok0, hr0, hlen0, hsame0⟩ := elem_set hrd hg (w := ⟨[], 0, .element⟩) (by rw [hst]; simp) rfl rfl hm0
  obtain ⟨s1, ns1, hs1, hw1, hn1, hok1, hr1, hlen1, hsame1⟩ := elem_set hrd hg (w := ⟨[], 1, .element⟩) (by rw [hst]; simp) rfl rfl hm1
  obtain ⟨s2, ns2, hs2, hw2, hn2, hok2, hr2, hlen2, hsame2⟩ := elem_set hrd hg (w := ⟨[], 2, .element⟩) (by rw [hst]; simp) rfl rfl hm2
  obtain ⟨s3, dn, kn, ssn, dt, kt, sst, hs3, rfl, hbt, hgn, hkn, hw3, hsame3⟩ := body_one (w := ⟨[], 3, .body⟩) hg (by rw [hst]; simp) rfl (by simp) hm3 (hbl 3 _ _ hm3 h03)
  generalize hself : (⟨nm, readInto prog nm d ((whole (.comp .Credit d k ss)).kids.map (Xml.child prog)) 3⟩ : Child) = self
  have hself' : Gives self d := by
    rw [← hself]
    intro t h x
    rfl
  have hread := here_readable hg
  simp only [ReadableHere, kidsAt] at hread
  rw [show ss[3]? = some s3 from hs3] at hread
  obtain ⟨x, xs, n', e1, e2, e3, e4, e5, e6⟩ := creditChoice_reads hrd hself' hgn (fun hk => hread (.comp .CreditChoice dn kn ssn) (by show _ ∈ s3.kids; rw [hkn]; simp) hk) hbt
  have hz : ∀ {i : Nat} {s : Bool} {nm : Nat}, (Cls.Credit).info.members[i]? = some ⟨.leaf nm s, .set ⟨0, none, 0, 0⟩⟩ → ∀ (s0 : Slot), ss0[i]? = some s0 → s0 = .mk false [] := by
    intro i s nm hm s0 h0
    have hb0 := hbl i _ _ hm h0
    cases s0 with
    | mk b ks =>
      have h1 := hb0.1
      have h2 := hb0.2.1
      rw [on_mk] at h1
      rw [kids_mk] at h2
      rw [h1, List.length_eq_zero_iff.mp h2]
  rw [hz hm0 _ h00] at h00
  rw [hz hm1 _ h01] at h01
  rw [hz hm2 _ h02] at h02
  have h01' : (ss0.set 0 (.mk false ns0))[1]? = some (.mk false []) := by rw [set_get_ne (by simp)]; exact h01
  have h02' : ((ss0.set 0 (.mk false ns0)).set 1 (.mk false ns1))[2]? = some (.mk false []) := by rw [set_get_ne (by simp), set_get_ne (by simp)]; exact h02
  have h03' : (((ss0.set 0 (.mk false ns0)).set 1 (.mk false ns1)).set 2 (.mk false ns2))[3]? = some (.mk false [.comp .CreditChoice dt kt sst]) := by rw [set_get_ne (by simp), set_get_ne (by simp), set_get_ne (by simp)]; exact h03
  have hF : Filled .Credit ss (Cls.Credit).info.stmts ss0 ((((ss0.set 0 (.mk false ns0)).set 1 (.mk false ns1)).set 2 (.mk false ns2)).set 3 (.mk true [n'])) := by
    rw [hst]
    exact .cons (w := ⟨[], 0, .element⟩) hm0 hs0 h00 (hsame0 _) (by simp) (.cons (w := ⟨[], 1, .element⟩) hm1 hs1 h01' (hsame1 _) (by simp)
      (.cons (w := ⟨[], 2, .element⟩) hm2 hs2 h02' (hsame2 _) (by simp) (.cons (w := ⟨[], 3, .body⟩) hm3 hs3 h03' (hsame3 _ _ e4 e5 e6) (by simp) .nil)))
  obtain ⟨f1, f2⟩ := filled_fine (d' := d) (stmts_free rfl) hg.2.1 hb rfl hF
  refine ⟨k0, _, ?_, f1, f2⟩
  have hK : (whole (.comp .Credit d k ss)).kids.map (Xml.child prog) = s0.kids.map kidOf ++ (s1.kids.map kidOf ++ (s2.kids.map kidOf ++ x :: xs)) := by
    rw [whole_kids, hst, List.flatMap_cons, List.flatMap_cons, List.flatMap_cons, List.flatMap_singleton, List.map_append, List.map_append, List.map_append, hw0, hw1, hw2, hw3, e1]
  rw [show prog .Credit = .credit from rfl, RProg.run, hK]
  have hxl : x.name ≠ nm! "credit-type" ∧ x.name ≠ nm! "link" ∧ x.name ≠ nm! "bookmark" := by
    simp only [List.mem_cons, List.not_mem_nil, or_false] at e2
    rcases e2 with e | e <;> rw [e] <;> decide
  have t2 : ∀ y ∈ (x :: xs : List Child).head?, y.name ≠ nm! "bookmark" := by
    intro y hy; simp at hy; rw [← hy]; exact hxl.2.2
  have t1 : ∀ y ∈ (s2.kids.map kidOf ++ x :: xs).head?, y.name ≠ nm! "link" := by
    intro y hy
    cases hc : s2.kids.map kidOf with
    | nil => rw [hc] at hy; simp at hy; rw [← hy]; exact hxl.2.1
    | cons z zs =>
      rw [hc] at hy
      simp at hy
      rw [← hy, hn2 z (by rw [hc]; simp)]; decide
  have t0 : ∀ y ∈ (s1.kids.map kidOf ++ (s2.kids.map kidOf ++ x :: xs)).head?, y.name ≠ nm! "credit-type" := by
    intro y hy
    cases hc1 : s1.kids.map kidOf with
    | cons z zs =>
      rw [hc1] at hy
      simp at hy
      rw [← hy, hn1 z (by rw [hc1]; simp)]; decide
    | nil =>
      rw [hc1, List.nil_append] at hy
      cases hc : s2.kids.map kidOf with
      | nil => rw [hc] at hy; simp at hy; rw [← hy]; exact hxl.1
      | cons z zs =>
        rw [hc] at hy
        simp at hy
        rw [← hy, hn2 z (by rw [hc]; simp)]; decide
  have p0 := pushRun_read (d := d) (k := k0) (name := nm! "credit-type") hm0 rfl h00 hn0 hr0 t0
  have p1 := pushRun_read (d := d) (k := k0) (name := nm! "link") hm1 rfl h01' hn1 hr1 t1
  have p2 := pushRun_read (d := d) (k := k0) (name := nm! "bookmark") hm2 rfl h02' hn2 hr2 t2
  have q1 : ∀ (a b c : List Child), (a ++ (b ++ c)).drop (a.length + b.length) = c := by
    intro a b c
    rw [← List.append_assoc, ← List.length_append, List.drop_left]
  have q2 : ∀ (a b c e : List Child), (a ++ (b ++ (c ++ e))).drop (a.length + b.length + c.length) = e := by
    intro a b c e
    rw [← List.append_assoc, ← List.append_assoc, ← List.length_append, ← List.length_append, List.drop_left]
  simp only [readCredit]
  rw [p0]
  simp only
  rw [List.drop_left, p1]
  simp only
  rw [q1, p2]
  simp only
  rw [q2]
  simp only [Bool.and_self, Bool.true_and]
  simp only [creditChoice] at e3
  by_cases hi : Nat.beq x.name (nm! "credit-image") = true
  · rw [if_pos hi] at e3 ⊢
    rw [inner_mk _ h03', e3]
  · rw [if_neg hi] at e3 ⊢
    have hxw : x.name = nm! "credit-words" := by
      simp only [List.mem_cons, List.not_mem_nil, or_false] at e2
      rcases e2 with e | e
      · rw [e] at hi; exact absurd (beq_self _) hi
      · exact e
    rw [hxw, beq_self, if_pos rfl, inner_mk _ h03', e3]

end Mx.Content
