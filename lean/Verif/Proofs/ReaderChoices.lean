import Verif.Proofs.ReaderGroups

/-
Choices, and groups whose fields are read one by one.
-/
open Mx.Spec
namespace Mx.Content

theorem whole_kids_choice (c : Cls) (d : Str) (k : Nat) (ss : List Slot) :
    (whole (.comp c d k ss)).kids = (c.info.stmts.filter (inChoice k)).flatMap (wholeStmt c k (wholeSlots ss)) := by
  rw [whole_kids]
  have : ∀ l : List Stmt, l.flatMap (wholeStmt c k (wholeSlots ss)) = (l.filter (inChoice k)).flatMap (wholeStmt c k (wholeSlots ss)) := by
    intro l
    induction l with
    | nil => rfl
    | cons w ws ih =>
      rw [List.flatMap_cons, List.filter_cons]
      by_cases h : inChoice k w = true
      · rw [if_pos h, List.flatMap_cons, ih]
      · rw [if_neg h, ih]
        have h' : inChoice k w = false := by simpa using h
        have : wholeStmt c k (wholeSlots ss) w = [] := by
          unfold wholeStmt
          split <;> simp [h']
        rw [this, List.nil_append]
  exact this _

/-- The choice `k` is one element, and the fields know it. -/
def choiceOk (G : Cls) (fs : List Field) (k : Nat) : Bool :=
  match G.info.stmts.filter (inChoice k) with
  | [w] => match w.how, G.info.members[w.slot]? with
    | .element, some ⟨kd, .one⟩ => match field fs (kindName kd) with
      | some (i, some j) => Nat.beq i w.slot && Nat.beq j k
      | _ => false
    | _, _ => false
  | _ => false

theorem choiceOk_cases {G : Cls} {fs : List Field} {k : Nat} (h : choiceOk G fs k = true) :
    ∃ w m, G.info.stmts.filter (inChoice k) = [w] ∧ w.how = .element ∧ G.info.members[w.slot]? = some m ∧ m.mult = .one ∧ field fs (kindName m.kind) = some (w.slot, some k) := by
  unfold choiceOk at h
  split at h
  · next w hf =>
    split at h
    · next hh hm =>
      split at h
      · next i j hfield =>
        simp only [Bool.and_eq_true] at h
        have e1 := Nat.eq_of_beq_eq_true h.1
        have e2 := Nat.eq_of_beq_eq_true h.2
        subst e1 e2
        exact ⟨w, _, hf, hh, hm, rfl, hfield⟩
      · cases h
    · cases h
  · cases h

/-- All members but one are blank; the one of the choice has been read. -/
theorem choice_fine {c : Cls} {d d' d0 : Str} {k k0 : Nat} {ss ss0 ss1 : List Slot} (hn : Fine (.comp c d k ss)) (hb : Blank (.comp c d0 k0 ss0)) {ws : List Stmt}
    (hws : c.info.stmts.filter (inChoice k) = ws) (hsound : c ≠ .Sound) (hf : Filled c ss ws ss0 ss1) :
    Fine (.comp c d' k ss1) ∧ (whole (.comp c d' k ss1)).kids = (whole (.comp c d k ss)).kids := by
  obtain ⟨hl, hk0, hbl⟩ := hb.slot
  refine same_of_slots (by rw [hf.length, hl]) hn (.inr rfl) (fun _ _ => rfl) ?_ (stmts_cover c) (fun h => absurd h hsound)
  intro v hv m s s' hm hs hs'
  constructor
  · intro hc
    obtain ⟨s1, e1, e2⟩ := hf.same v (by rw [← hws]; exact List.mem_filter.mpr ⟨hv, hc⟩) m s hm hs
    rw [hs'] at e1; cases e1
    exact e2
  · intro hc
    rw [hf.keep] at hs'
    · exact hbl _ m s' hm hs'
    · intro u hu e
      rw [← hws] at hu
      obtain ⟨hu1, hu2⟩ := List.mem_filter.mp hu
      have : u = v := by
        have hnd := stmts_nodup c
        obtain ⟨a, ha⟩ := List.getElem?_of_mem hu1
        obtain ⟨b, hb'⟩ := List.getElem?_of_mem hv
        have h1 : (c.info.stmts.map (·.slot))[a]? = some u.slot := by rw [List.getElem?_map, ha]; rfl
        have h2 : (c.info.stmts.map (·.slot))[b]? = some u.slot := by rw [List.getElem?_map, hb', e]; rfl
        have hlt := (List.getElem?_eq_some_iff.mp h1).1
        have hab := (List.getElem?_inj hlt hnd).mp (h1.trans h2.symm)
        subst hab
        rw [ha] at hb'
        cases hb'; rfl
      rw [this, hc] at hu2
      cases hu2

theorem choice_reads {N : Nat} (hrd : RdBelow N) {G : Cls} {fs : List Field} {d : Str} {k : Nat} {ss : List Slot} (hg : Good N (.comp G d k ss)) (hsound : G ≠ .Sound)
    (hok : choiceOk G fs k = true) :
    ∃ x : Child, (whole (.comp G d k ss)).kids.map (Xml.child prog) = [x] ∧ ∃ f, field fs x.name = some f ∧
      ∀ t, Blank t → t.kind = .comp G → ∃ n', t.readField f x = (n', true) ∧ n'.kind = .comp G ∧ (whole n').kids = (whole (.comp G d k ss)).kids ∧ Fine n' := by
  obtain ⟨w, m, hf, hh, hm, hmult, hfield⟩ := choiceOk_cases hok
  have hw : w ∈ G.info.stmts ∧ inChoice k w = true := List.mem_filter.mp (by rw [hf]; simp)
  obtain ⟨m', s, hm', hs, hsok, hgood⟩ := good_slot hg.here hw.1 hw.2
  rw [hm] at hm'; cases hm'
  have hu : inUse (some m) s.on = true := inUse_one (by rw [hmult]; simp) _
  obtain ⟨n, hn, hk⟩ := ok_one (.inl hmult) hsok
  have hR := hrd n (hgood hu n (by rw [hn]; simp)) (by rw [hk]; exact stmt_named hw.1 hm hh)
  refine ⟨kidOf n, ?_, (w.slot, some k), by rw [kidOf_name, hk]; exact hfield, ?_⟩
  · rw [whole_kids_choice, hf, List.flatMap_singleton, segOf_eq hm hs hw.2, segOf_on hu, hn, List.flatMap_singleton, hh, seg_element]
  · intro t ht htk
    cases t with
    | leaf => simp [Node.kind] at htk
    | comp c' d' k' ss0 =>
    simp only [Node.kind, Kind.comp.injEq] at htk
    subst htk
    obtain ⟨hl, hk', hbl⟩ := ht.slot
    obtain ⟨s0, h0⟩ := getElem?_same_length hl hm
    obtain ⟨t, rfl, htk, htb⟩ := blank_one (.inl hmult) (hbl _ m s0 hm h0)
    obtain ⟨n', e1, e2, e3, e4⟩ := hR.read t htb (by rw [htk, hk])
    have hS : SlotSame c' w.slot m w.how s (.mk true [n']) :=
      slotSame_one (.inl hmult) hn (fun h => by rw [hmult] at h; cases h) (by rw [e2, hk]) e4 (by rw [hh]; simp [partOf, e3])
    have hF : Filled c' ss [w] ss0 (ss0.set w.slot (.mk true [n'])) := .cons hm hs h0 hS (by simp) .nil
    obtain ⟨h1, h2⟩ := choice_fine (d' := d') hg.2.1 ht hf hsound hF
    refine ⟨.comp c' d' k (ss0.set w.slot (.mk true [n'])), ?_, rfl, h2, h1⟩
    rw [Node.readField, inner_mk _ h0, e1]
    rfl

section
variable {N : Nat} {self : Child} {pre post : List RStmt} {strict : Bool} {c : Cls} {w : Stmt} {later : List Nat}

/-- Which choices the reader of the member knows: all those that are readable. -/
def ChoicesOk (G : Cls) (fs : List Field) : Prop := ∀ d k ss, (G.info.choices = 0 ∨ k < G.info.choices) → ReadableHere G d k ss → choiceOk G fs k = true

theorem choices_of {G : Cls} {fs : List Field} (h : ChoicesOk G fs) {n : Node} (hg : Good N n) (hk : n.kind = .comp G) :
    ∃ d k ss, n = .comp G d k ss ∧ choiceOk G fs k = true := by
  cases n with
  | leaf => simp [Node.kind] at hk
  | comp c' d k ss =>
    simp only [Node.kind, Kind.comp.injEq] at hk
    subst hk
    refine ⟨d, k, ss, rfl, h d k ss ?_ ?_⟩
    · obtain ⟨_, ⟨h2, _⟩, _⟩ := hg
      cases h2 with
      | comp _ _ _ _ hsh _ =>
        rcases hsh.choice with h | h
        · exact .inl h
        · exact .inr h.1
    · obtain ⟨_, _, h4⟩ := hg
      cases h4 with
      | comp _ _ _ _ h _ => exact h

theorem serve_sub_choice {fs : List Field} {next : Bool} (hrd : RdBelow N) (hh : w.how ≠ .element) {m : Member} (hm : c.info.members[w.slot]? = some m)
    (hmult : m.mult = .one ∨ m.mult = .opt) {G : Cls} (hk : m.kind = .comp G) (hsound : G ≠ .Sound) (hch : ChoicesOk G fs) (ha : Around c w pre post strict next) :
    Serve N self (pre ++ .sub w.slot fs next :: post) strict c w later := by
  intro d k ss m' s s0 rest hm' hok hgood h0 hb _
  rw [hm] at hm'; cases hm'
  rcases one_cases hm hmult hb with ⟨hu, hon⟩ | ⟨hu, hsame⟩
  · obtain ⟨n, hn, hnk⟩ := ok_one hmult hok
    obtain ⟨t, rfl, htk, htb⟩ := blank_one hmult hb
    have hgn := hgood hu n (by rw [hn]; simp)
    have hnames := seg_names_body hm hh hk hgn (by rw [hnk, hk])
    obtain ⟨dn, kn, ssn, rfl, hco⟩ := choices_of hch hgn (by rw [hnk, hk])
    obtain ⟨x, hx, f, hf, hread⟩ := choice_reads hrd hgn hsound hco
    obtain ⟨n', e1, e2, e3, e4⟩ := hread t htb (by rw [htk, hk])
    refine ⟨.mk true [n'], slotSame_one hmult hn hon (by rw [e2, hk]) e4 (by rw [partOf_body hh, partOf_body hh, e3]), ?_⟩
    rw [segOf_on hu, hn, List.flatMap_singleton, seg, partOf_body hh, hx, List.singleton_append]
    refine L_one ha (hnames x (by rw [hx]; simp)) ?_
    rw [RStmt.at, hf]
    simp only
    rw [inner_mk _ h0, e1]
  · refine ⟨s0, hsame _, ?_⟩
    rw [segOf_off hu, List.nil_append, set_same h0]

/-- New items of a vector of choices. -/
theorem each_loop {fs : List Field} (hrd : RdBelow N) (hh : w.how ≠ .element) {m : Member} (hm : c.info.members[w.slot]? = some m)
    {sc : SetCode} (hmult : m.mult = .set sc) (hmost : sc.most = none) {G : Cls} (hk : m.kind = .comp G) (hsound : G ≠ .Sound) (hch : ChoicesOk G fs)
    (ha : Around c w pre post strict true) {d : Str} {k : Nat} {rest : List Child} :
    ∀ (ns : List Node) (ss : List Slot) (b : Bool) (acc : List Node), (∀ n ∈ ns, Good N n ∧ n.kind = m.kind) → ss[w.slot]? = some (.mk b acc) →
      ∃ ns' : List Node, ns'.length = ns.length ∧ (∀ n ∈ ns', n.kind = m.kind ∧ Fine n) ∧ ns'.flatMap (fun n => partOf w.how (whole n)) = ns.flatMap (fun n => partOf w.how (whole n)) ∧
        L self (pre ++ .each w.slot fs :: post) strict (.comp c d k ss) (ns.flatMap (seg w.how) ++ rest) =
          L self (pre ++ .each w.slot fs :: post) strict (.comp c d k (ss.set w.slot (.mk b (acc ++ ns')))) rest
  | [], ss, b, acc, _, h0 => ⟨[], rfl, by simp, rfl, by rw [List.append_nil, set_same h0]; rfl⟩
  | n :: ns, ss, b, acc, h, h0 => by
    obtain ⟨hgn, hnk⟩ := h n (by simp)
    have hnames := seg_names_body hm hh hk hgn (by rw [hnk, hk])
    obtain ⟨dn, kn, ssn, rfl, hco⟩ := choices_of hch hgn (by rw [hnk, hk])
    obtain ⟨x, hx, f, hf, hread⟩ := choice_reads hrd hgn hsound hco
    obtain ⟨n', e1, e2, e3, e4⟩ := hread (make m.kind) (make_blank_member hm) (by rw [make_kind, hk])
    obtain ⟨ns', g1, g2, g3, g4⟩ := each_loop hrd hh hm hmult hmost hk hsound hch ha ns (ss.set w.slot (.mk b (acc ++ [n']))) b (acc ++ [n'])
      (fun x hx => h x (by simp [hx])) (set_get h0)
    refine ⟨n' :: ns', by simp [g1], ?_, ?_, ?_⟩
    · intro y hy
      rcases List.mem_cons.mp hy with rfl | hy
      · exact ⟨by rw [e2, hk], e4⟩
      · exact g2 y hy
    · rw [List.flatMap_cons, List.flatMap_cons, g3, partOf_body hh, partOf_body hh, e3]
    · rw [List.flatMap_cons, seg, partOf_body hh, hx, List.append_assoc, List.singleton_append]
      have hadd : ∀ y ks, (memberSet c w.slot).add y ks = ks ++ [y] := by
        intro y ks
        rw [memberSet_eq hm hmult, SetCode.add, hmost]
      have hst : (RStmt.each w.slot fs).at self (.comp c d k ss) x (ns.flatMap (seg w.how) ++ rest) =
          ⟨.comp c d k (ss.set w.slot (.mk b (acc ++ [n']))), true, 0, true⟩ := by
        rw [RStmt.at, hf]
        simp only
        rw [newItem_eq hm, e1, Node.push, changeSlot_some h0, hadd]
        rfl
      rw [L_one ha (hnames x (by rw [hx]; simp)) hst, g4, List.set_set, List.append_assoc, List.singleton_append]

theorem serve_each {fs : List Field} (hrd : RdBelow N) (hh : w.how ≠ .element) {m : Member} (hm : c.info.members[w.slot]? = some m)
    {sc : SetCode} (hmult : m.mult = .set sc) (hmost : sc.most = none) (hstart : sc.start = 0) {G : Cls} (hk : m.kind = .comp G) (hsound : G ≠ .Sound) (hch : ChoicesOk G fs)
    (ha : Around c w pre post strict true) :
    Serve N self (pre ++ .each w.slot fs :: post) strict c w later := by
  intro d k ss m' s s0 rest hm' hok hgood h0 hb _
  rw [hm] at hm'; cases hm'
  have hu := set_use (m := m) hmult s.on
  have hkids : s0.kids = [] := by
    have := hb.2.1
    rw [hmult, Mult.start, hstart] at this
    exact List.length_eq_zero_iff.mp this
  cases s0 with
  | mk b ks =>
  rw [kids_mk] at hkids
  subst hkids
  obtain ⟨ns', g1, g2, g3, g4⟩ := each_loop (self := self) (d := d) (k := k) (rest := rest) hrd hh hm hmult hmost hk hsound hch ha s.kids ss b [] (fun n hn => ⟨hgood hu n hn, hok.1 n hn⟩) h0
  exact ⟨.mk b ns', slotSame_set hmult hok g1 g2 g3, by rw [segOf_on hu, g4, List.nil_append]⟩

/-! ## Groups whose fields are read one by one -/

/-- The statement is an element of the group, and the fields know it. -/
def fieldOk (G : Cls) (fs : List Field) (v : Stmt) : Bool :=
  match v.how, G.info.members[v.slot]? with
  | .element, some ⟨kd, mult⟩ => (match mult with | .set _ => false | _ => true) && (match field fs (kindName kd) with | some (i, none) => Nat.beq i v.slot | _ => false)
  | _, _ => false

theorem fieldOk_cases {G : Cls} {fs : List Field} {v : Stmt} (h : fieldOk G fs v = true) :
    v.how = .element ∧ ∃ m, G.info.members[v.slot]? = some m ∧ (m.mult = .one ∨ m.mult = .opt) ∧ field fs (kindName m.kind) = some (v.slot, none) := by
  unfold fieldOk at h
  split at h
  · next kd mult hh hm =>
    simp only [Bool.and_eq_true] at h
    refine ⟨hh, ⟨kd, mult⟩, hm, ?_, ?_⟩
    · cases mult <;> simp_all
    · have h2 := h.2
      split at h2
      · next i hf =>
        rw [← Nat.eq_of_beq_eq_true h2]
        exact hf
      · cases h2
  · cases h

/-- The state of the owner while the group is read. -/
theorem fields_loop {fs : List Field} {next : Bool} (hrd : RdBelow N) (hh : w.how ≠ .element) {m : Member} (hm : c.info.members[w.slot]? = some m) {G : Cls} (hk : m.kind = .comp G)
    (ha : Around c w pre post strict next) {d : Str} {k : Nat} {rest : List Child} {dn d' : Str} {kn k' : Nat} {ssn : List Slot} (hg : Good N (.comp G dn kn ssn)) :
    ∀ (vs : List Stmt) (ssg ss : List Slot) (b : Bool), vs.all (fieldOk G fs) = true → (∀ v ∈ vs, v ∈ G.info.stmts ∧ inChoice kn v = true) → (vs.map (·.slot)).Nodup →
      (∀ v ∈ vs, ∃ m s0, G.info.members[v.slot]? = some m ∧ ssg[v.slot]? = some s0 ∧ BlankSlot m s0) → ss[w.slot]? = some (.mk b [.comp G d' k' ssg]) →
      ∃ ssg1 b1, L self (pre ++ .sub w.slot fs next :: post) strict (.comp c d k ss) ((vs.flatMap (wholeStmt G kn (wholeSlots ssn))).map (Xml.child prog) ++ rest) =
          L self (pre ++ .sub w.slot fs next :: post) strict (.comp c d k (ss.set w.slot (.mk b1 [.comp G d' k' ssg1]))) rest ∧ Filled G ssn vs ssg ssg1
  | [], ssg, ss, b, _, _, _, _, h0 => ⟨ssg, b, by rw [set_same h0]; rfl, .nil⟩
  | v :: vs, ssg, ss, b, hS, hw, hnd, hb, h0 => by
    simp only [List.all_cons, Bool.and_eq_true] at hS
    obtain ⟨hvh, mv, hmv, hmult, hfield⟩ := fieldOk_cases hS.1
    obtain ⟨m', s, hm', hs, hok, hgood⟩ := good_slot hg.here (hw v (by simp)).1 (hw v (by simp)).2
    rw [hmv] at hm'; cases hm'
    obtain ⟨m', s0, hm', hs0, hbl⟩ := hb v (by simp)
    rw [hmv] at hm'; cases hm'
    have hnd' : (∀ u ∈ vs, u.slot ≠ v.slot) ∧ (vs.map (·.slot)).Nodup := by
      rw [List.map_cons, List.nodup_cons] at hnd
      exact ⟨fun u hu e => hnd.1 (List.mem_map.mpr ⟨u, hu, e⟩), hnd.2⟩
    have hblank : ∀ s1, ∀ u ∈ vs, ∃ m s0, G.info.members[u.slot]? = some m ∧ (ssg.set v.slot s1)[u.slot]? = some s0 ∧ BlankSlot m s0 := by
      intro s1 u hu
      obtain ⟨m', s', e1, e2, e3⟩ := hb u (by simp [hu])
      exact ⟨m', s', e1, by rw [set_get_ne (fun e => hnd'.1 u hu e.symm)]; exact e2, e3⟩
    rw [List.flatMap_cons, List.map_append, segOf_eq hmv hs (hw v (by simp)).2, List.append_assoc]
    rcases one_cases hmv hmult hbl with ⟨hu, hon⟩ | ⟨hu, hsame⟩
    · obtain ⟨n, hn, hnk⟩ := ok_one hmult hok
      obtain ⟨t, rfl, htk, htb⟩ := blank_one hmult hbl
      have hR := hrd n (hgood hu n (by rw [hn]; simp)) (by rw [hnk]; exact stmt_named (hw v (by simp)).1 hmv hvh)
      obtain ⟨n', e1, e2, e3, e4⟩ := hR.read t htb (by rw [htk, hnk])
      have hsame : SlotSame G v.slot mv v.how s (.mk true [n']) := slotSame_one hmult hn hon (by rw [e2, hnk]) e4 (by rw [hvh]; simp [partOf, e3])
      obtain ⟨ssg1, b1, hL, hF⟩ := fields_loop hrd hh hm hk ha (rest := rest) hg vs (ssg.set v.slot (.mk true [n']))
        (ss.set w.slot (.mk true [.comp G d' k' (ssg.set v.slot (.mk true [n']))])) true hS.2 (fun u hu => hw u (by simp [hu])) hnd'.2 (hblank _) (set_get h0)
      refine ⟨ssg1, b1, ?_, .cons hmv hs hs0 hsame hnd'.1 hF⟩
      rw [segOf_on hu, hn, List.flatMap_singleton, hvh, seg_element, List.singleton_append]
      have hname : (kidOf n).name ∈ names c w := by
        refine seg_names_body hm hh hk hg rfl (kidOf n) ?_
        rw [whole_kids]
        refine List.mem_map.mpr ⟨(whole n).element, ?_, rfl⟩
        refine List.mem_flatMap.mpr ⟨v, (hw v (by simp)).1, ?_⟩
        rw [wholeStmt_part hs, hmv, (hw v (by simp)).2, Bool.true_and, if_pos hu, hn, hvh]
        simp [partOf]
      have hst : (RStmt.sub w.slot fs next).at self (.comp c d k ss) (kidOf n) ((vs.flatMap (wholeStmt G kn (wholeSlots ssn))).map (Xml.child prog) ++ rest) =
          ⟨.comp c d k (ss.set w.slot (.mk true [.comp G d' k' (ssg.set v.slot (.mk true [n']))])), true, 0, next⟩ := by
        rw [RStmt.at, kidOf_name, hnk, hfield]
        simp only
        rw [inner_mk _ h0, Node.readField, inner_mk _ hs0, e1]
        rfl
      rw [L_one ha hname hst, hL, List.set_set]
    · obtain ⟨ssg1, b1, hL, hF⟩ := fields_loop hrd hh hm hk ha (rest := rest) hg vs (ssg.set v.slot s0) ss b hS.2 (fun u hu => hw u (by simp [hu])) hnd'.2 (hblank _) (by rw [set_same hs0]; exact h0)
      refine ⟨ssg1, b1, ?_, .cons hmv hs hs0 (hsame _) hnd'.1 hF⟩
      rw [segOf_off hu, List.nil_append, hL]

theorem serve_sub_group {fs : List Field} {next : Bool} (hrd : RdBelow N) (hh : w.how ≠ .element) {m : Member} (hm : c.info.members[w.slot]? = some m)
    (hmult : m.mult = .one) {G : Cls} (hk : m.kind = .comp G) (hc : G.info.choices = 0) (hfs : G.info.stmts.all (fieldOk G fs) = true) (ha : Around c w pre post strict next) :
    Serve N self (pre ++ .sub w.slot fs next :: post) strict c w later := by
  intro d k ss m' s s0 rest hm' hok hgood h0 hb _
  rw [hm] at hm'; cases hm'
  have hu : inUse (some m) s.on = true := inUse_one (by rw [hmult]; simp) _
  obtain ⟨n, hn, hnk⟩ := ok_one (.inl hmult) hok
  obtain ⟨t, rfl, htk, htb⟩ := blank_one (.inl hmult) hb
  have hgn := hgood hu n (by rw [hn]; simp)
  rw [hk] at hnk htk
  cases n with
  | leaf => simp [Node.kind] at hnk
  | comp c' dn kn ssn =>
  cases t with
  | leaf => simp [Node.kind] at htk
  | comp c'' d' k' ssg =>
  simp only [Node.kind, Kind.comp.injEq] at hnk htk
  subst hnk htk
  obtain ⟨hl, hk', hbl⟩ := htb.slot
  have hfree := fun v hv => free_inChoice (stmts_free hc v hv) kn
  obtain ⟨ssg1, b1, hL, hF⟩ := fields_loop (self := self) (rest := rest) (d := d) (k := k) hrd hh hm hk ha hgn _ ssg ss false hfs (fun v hv => ⟨hv, hfree v hv⟩) (stmts_nodup _) (by
    intro v hv
    obtain ⟨mv, sv, hmv, hsv, _, _⟩ := good_slot hgn.here hv (hfree v hv)
    obtain ⟨sv0, hv0⟩ := getElem?_same_length hl hmv
    exact ⟨mv, sv0, hmv, hv0, hbl _ mv sv0 hmv hv0⟩) h0
  obtain ⟨hfine, hwhole⟩ := filled_fine (d' := d') (stmts_free hc) hgn.2.1 htb rfl hF
  refine ⟨.mk b1 [.comp c'' d' k' ssg1], ?_, ?_⟩
  · exact {
      ok := ⟨by simp [kids_mk, hk, Node.kind], by simp [hmult, kids_mk]⟩
      fine := by simp [kids_mk, hfine]
      on := fun h => by rw [hmult] at h; cases h
      seen := fun h => absurd h hh
      text := fun _ => by simp [kids_mk, hn, partOf_body hh, hwhole] }
  · rw [segOf_on hu, hn, List.flatMap_singleton, seg, partOf_body hh, whole_kids, hL]

end
end Mx.Content
