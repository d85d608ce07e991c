import Verif.Proofs.ReaderStmts

/-
Groups and choices.
-/
open Mx.Spec
namespace Mx.Content

theorem readParts_nil : ∀ (ps : List Part) (g : Node), readParts ps g [] = ⟨g, true, 0⟩
  | [], _ => rfl
  | .one .. :: _, _ => rfl
  | .run .. :: _, _ => rfl

theorem readParts_skip {p : Part} {ps : List Part} {g : Node} {l : List Child} (h : ∀ x ∈ l.head?, x.name ≠ partName p) :
    readParts (p :: ps) g l = readParts ps g l := by
  cases l with
  | nil => rw [readParts_nil, readParts_nil]
  | cons x xs =>
    have hb : Nat.beq x.name (partName p) = false := beq_ne (h x (by simp))
    cases p with
    | one n i =>
      have hb' : Nat.beq x.name n = false := hb
      rw [readParts, hb']; rfl
    | run n i =>
      have hb' : Nat.beq x.name n = false := hb
      rw [readParts, runItems_nil hb']
      simp only [List.isEmpty_nil, if_true, List.map_nil, List.all_nil, Bool.true_and, List.length_nil, List.drop_zero, Nat.add_zero]

def setFitsB (c : Cls) (i : Nat) (sc : SetCode) : Bool := Nat.ble sc.start 1 && (Nat.beq sc.start 0 || Nat.ble 1 (wide.lo c i))

theorem setFits_of {c : Cls} {i : Nat} {sc : SetCode} (h : setFitsB c i sc = true) : SetFits c i sc := by
  simp only [setFitsB, Bool.and_eq_true, Bool.or_eq_true] at h
  refine ⟨Nat.le_of_ble_eq_true h.1, ?_⟩
  rcases h.2 with h | h
  · exact .inl (Nat.eq_of_beq_eq_true h)
  · exact .inr (Nat.le_of_ble_eq_true h)

/-- The part belongs to the statement. -/
def partOk (G : Cls) (p : Part) (w : Stmt) : Bool :=
  match w.how, G.info.members[w.slot]?, p with
  | .element, some ⟨kd, .one⟩, .one name i => Nat.beq i w.slot && Nat.beq name (kindName kd)
  | .element, some ⟨kd, .opt⟩, .one name i => Nat.beq i w.slot && Nat.beq name (kindName kd)
  | .element, some ⟨kd, .set sc⟩, .run name i => Nat.beq i w.slot && Nat.beq name (kindName kd) && setFitsB G i sc
  | _, _, _ => false

/-- The statement always writes its member. -/
def mandatory (G : Cls) (w : Stmt) : Bool :=
  match G.info.members[w.slot]? with
  | some ⟨_, .one⟩ => true
  | _ => false

def partsOk (G : Cls) (later : List Nat) : List Part → List Stmt → Bool
  | [], [] => true
  | p :: ps, w :: ws => partOk G p w && (mandatory G w || !((namesOf G ws ++ later).any (Nat.beq (partName p)))) && partsOk G later ps ws
  | _, _ => false

theorem partOk_cases {G : Cls} {p : Part} {w : Stmt} (h : partOk G p w = true) :
    w.how = .element ∧ ∃ m, G.info.members[w.slot]? = some m ∧ partName p = kindName m.kind ∧
      (p = .one (kindName m.kind) w.slot ∧ (m.mult = .one ∨ m.mult = .opt) ∨
       p = .run (kindName m.kind) w.slot ∧ ∃ sc, m.mult = .set sc ∧ SetFits G w.slot sc) := by
  unfold partOk at h
  split at h
  · next hh hm =>
    simp only [Bool.and_eq_true] at h
    obtain ⟨rfl, rfl⟩ : _ ∧ _ := ⟨Nat.eq_of_beq_eq_true h.1, Nat.eq_of_beq_eq_true h.2⟩
    exact ⟨hh, _, hm, rfl, .inl ⟨rfl, .inl rfl⟩⟩
  · next hh hm =>
    simp only [Bool.and_eq_true] at h
    obtain ⟨rfl, rfl⟩ : _ ∧ _ := ⟨Nat.eq_of_beq_eq_true h.1, Nat.eq_of_beq_eq_true h.2⟩
    exact ⟨hh, _, hm, rfl, .inl ⟨rfl, .inr rfl⟩⟩
  · next hh hm =>
    simp only [Bool.and_eq_true] at h
    obtain ⟨rfl, rfl⟩ : _ ∧ _ := ⟨Nat.eq_of_beq_eq_true h.1.1, Nat.eq_of_beq_eq_true h.1.2⟩
    exact ⟨hh, _, hm, rfl, .inr ⟨rfl, _, rfl, setFits_of h.2⟩⟩
  · cases h

theorem readParts_all {N : Nat} (hrd : RdBelow N) {G : Cls} {last : List Nat} {d d' : Str} {k k' : Nat} {ss : List Slot} {rest : List Child}
    (hg : Good N (.comp G d k ss)) (hr : RestOk last rest) :
    ∀ (ps : List Part) (ws : List Stmt) (ss0 : List Slot), partsOk G last ps ws = true → (∀ w ∈ ws, w ∈ G.info.stmts ∧ inChoice k w = true) → (ws.map (·.slot)).Nodup →
      (∀ w ∈ ws, ∃ m s0, G.info.members[w.slot]? = some m ∧ ss0[w.slot]? = some s0 ∧ BlankSlot m s0) →
      ∃ ss1, readParts ps (.comp G d' k' ss0) ((ws.flatMap (wholeStmt G k (wholeSlots ss))).map (Xml.child prog) ++ rest) =
          ⟨.comp G d' k' ss1, true, ((ws.flatMap (wholeStmt G k (wholeSlots ss))).map (Xml.child prog)).length⟩ ∧ Filled G ss ws ss0 ss1
  | [], [], ss0, _, _, _, _ => ⟨ss0, rfl, .nil⟩
  | [], _ :: _, _, h, _, _, _ => by simp [partsOk] at h
  | _ :: _, [], _, h, _, _, _ => by simp [partsOk] at h
  | p :: ps, w :: ws, ss0, hS, hw, hnd, hb => by
    simp only [partsOk, Bool.and_eq_true, Bool.or_eq_true, Bool.not_eq_true'] at hS
    obtain ⟨⟨hp, hlater⟩, hS⟩ := hS
    obtain ⟨hh, m, hm, hname, hcase⟩ := partOk_cases hp
    obtain ⟨m', s, hm', hs, hok, hgood⟩ := good_slot hg.here (hw w (by simp)).1 (hw w (by simp)).2
    rw [hm] at hm'; cases hm'
    obtain ⟨m', s0, hm', h0, hbl⟩ := hb w (by simp)
    rw [hm] at hm'; cases hm'
    have hnd' : (∀ v ∈ ws, v.slot ≠ w.slot) ∧ (ws.map (·.slot)).Nodup := by
      rw [List.map_cons, List.nodup_cons] at hnd
      exact ⟨fun v hv e => hnd.1 (List.mem_map.mpr ⟨v, hv, e⟩), hnd.2⟩
    have hrest : RestOk (namesOf G ws ++ last) ((ws.flatMap (wholeStmt G k (wholeSlots ss))).map (Xml.child prog) ++ rest) :=
      (seg_names hg.here (fun v hv => (hw v (by simp [hv])).1)).append hr
    have hnamed := stmt_named (hw w (by simp)).1 hm hh
    -- it is enough to deal with the one part
    suffices key : ∃ s1, SlotSame G w.slot m w.how s s1 ∧ ∀ l, RestOk (namesOf G ws ++ last) l →
        readParts (p :: ps) (.comp G d' k' ss0) (segOf w m s ++ l) =
          ⟨(readParts ps (.comp G d' k' (ss0.set w.slot s1)) l).obj, (readParts ps (.comp G d' k' (ss0.set w.slot s1)) l).ok,
            (readParts ps (.comp G d' k' (ss0.set w.slot s1)) l).used + (segOf w m s).length⟩ by
      obtain ⟨s1, hsame, hL⟩ := key
      obtain ⟨ss1, hL', hF⟩ := readParts_all hrd hg hr ps ws (ss0.set w.slot s1) hS (fun v hv => hw v (by simp [hv])) hnd'.2 (by
        intro v hv
        obtain ⟨m', s', e1, e2, e3⟩ := hb v (by simp [hv])
        exact ⟨m', s', e1, by rw [set_get_ne (fun e => hnd'.1 v hv e.symm)]; exact e2, e3⟩)
      refine ⟨ss1, ?_, .cons hm hs h0 hsame hnd'.1 hF⟩
      rw [List.flatMap_cons, List.map_append, segOf_eq hm hs (hw w (by simp)).2, List.append_assoc, hL _ hrest, hL', List.length_append, Nat.add_comm]
    have hlater' : m.mult ≠ .one → (namesOf G ws ++ last).any (Nat.beq (partName p)) = false := by
      intro hmm
      rcases hlater with h | h
      · exfalso
        obtain ⟨kd, mu⟩ := m
        unfold mandatory at h
        rw [hm] at h
        cases mu <;> first | exact hmm rfl | cases h
      · exact h
    have hskip : m.mult ≠ .one → ∀ l, RestOk (namesOf G ws ++ last) l → ∀ g, readParts (p :: ps) g l = readParts ps g l :=
      fun hmm l hl g => readParts_skip (restOk_head hl (hlater' hmm))
    rcases hcase with ⟨rfl, hmult⟩ | ⟨rfl, sc, hmult, hf⟩
    · rcases one_cases (s := s) hm hmult hbl with ⟨hu, hon⟩ | ⟨hu, hsame⟩
      · obtain ⟨n, hn, hk⟩ := ok_one hmult hok
        obtain ⟨t, rfl, htk, htb⟩ := blank_one hmult hbl
        have hR := hrd n (hgood hu n (by rw [hn]; simp)) (by rw [hk]; exact hnamed)
        obtain ⟨n', e1, e2, e3, e4⟩ := hR.read t htb (by rw [htk, hk])
        refine ⟨.mk true [n'], slotSame_one hmult hn hon (by rw [e2, hk]) e4 (by rw [hh]; simp [partOf, e3]), ?_⟩
        intro l _
        rw [segOf_on hu, hn, List.flatMap_singleton, hh, seg_element, List.singleton_append, readParts, kidOf_name, hk, beq_self, if_pos rfl, inner_mk _ h0, e1]
        rfl
      · refine ⟨s0, hsame _, fun l hl => ?_⟩
        rw [segOf_off hu, List.nil_append, set_same h0, hskip (fun e => by rw [inUse_one (by rw [e]; simp)] at hu; cases hu) l hl]; rfl
    · have hns : m.mult ≠ .one := by rw [hmult]; simp
      have hu := set_use (m := m) hmult s.on
      by_cases he : s.kids = []
      · refine ⟨s0, set_cases hm hmult hf hok hbl he _, fun l hl => ?_⟩
        rw [segOf_on hu, he, List.flatMap_nil, List.nil_append, set_same h0, hskip hns l hl]; rfl
      · obtain ⟨ns', h1, h2, h3, h4⟩ := items_read hrd (hw w (by simp)).1 hh hm hok (hgood hu)
        refine ⟨.mk s0.on ns', slotSame_set hmult hok h2 h3 (by rw [hh]; exact flatMap_element h4), fun l hl => ?_⟩
        rw [segOf_on hu, hh, flatMap_seg_element]
        have hnames : ∀ x ∈ s.kids.map kidOf, x.name = kindName m.kind := by
          intro x hx
          obtain ⟨n, hn, rfl⟩ := List.mem_map.mp hx
          rw [kidOf_name, hok.1 n hn]
        have hrun := runItems_seg hnames (restOk_head hl (hlater' hns))
        obtain ⟨n0, ks, hcons⟩ := List.exists_cons_of_ne_nil he
        have hne : (s.kids.map kidOf).isEmpty = false := by rw [hcons]; rfl
        have hsplit : s.kids.map kidOf ++ l = kidOf n0 :: (ks.map kidOf ++ l) := by rw [hcons]; rfl
        rw [hsplit, readParts, ← hsplit, hrun, newItem_eq hm]
        rw [h1, map_fst_pair, all_snd_pair, hne, List.drop_left, addRun_some h0, blank_kids hmult hf.start hbl]
        simp only [Bool.false_eq_true, if_false, List.nil_append, Bool.true_and]

/-- All parts of a group. -/
theorem readParts_group {N : Nat} (hrd : RdBelow N) {G : Cls} {last : List Nat} {ps : List Part} (hc : G.info.choices = 0) (hp : partsOk G last ps G.info.stmts = true)
    {n t : Node} (hg : Good N n) (hn : n.kind = .comp G) (ht : Blank t) (htk : t.kind = .comp G) {rest : List Child} (hr : RestOk last rest) :
    ∃ n', readParts ps t ((whole n).kids.map (Xml.child prog) ++ rest) = ⟨n', true, (whole n).kids.length⟩ ∧ n'.kind = .comp G ∧ (whole n').kids = (whole n).kids ∧ Fine n' := by
  cases n with
  | leaf => simp [Node.kind] at hn
  | comp c d k ss =>
  cases t with
  | leaf => simp [Node.kind] at htk
  | comp c' d' k' ss0 =>
  simp only [Node.kind, Kind.comp.injEq] at hn htk
  subst hn htk
  obtain ⟨hl, hk, hbl⟩ := ht.slot
  obtain ⟨ss1, h1, h2⟩ := readParts_all (d' := d') (k' := k') hrd hg hr ps _ ss0 hp (fun w hw => ⟨hw, free_inChoice (stmts_free hc w hw) k⟩) (stmts_nodup _) (by
    intro w hw
    obtain ⟨m, s, hm, hs, _, _⟩ := good_slot hg.here hw (free_inChoice (stmts_free hc w hw) k)
    obtain ⟨s0, h0⟩ := getElem?_same_length hl hm
    exact ⟨m, s0, hm, h0, hbl _ m s0 hm h0⟩)
  obtain ⟨hf, hw⟩ := filled_fine (d' := d') (stmts_free hc) hg.2.1 ht rfl h2
  refine ⟨.comp _ d' k' ss1, ?_, rfl, hw, hf⟩
  rw [whole_kids, h1, List.length_map]

section
variable {N : Nat} {self : Child} {pre post : List RStmt} {strict : Bool} {c : Cls} {w : Stmt} {later : List Nat}

theorem seg_names_body {m : Member} {G : Cls} (hm : c.info.members[w.slot]? = some m) (hh : w.how ≠ .element) (hk : m.kind = .comp G) {n : Node} (hg : Good N n) (hn : n.kind = .comp G) :
    ∀ x ∈ (whole n).kids.map (Xml.child prog), x.name ∈ names c w := by
  intro x hx
  rw [names_body hm hh hk]
  obtain ⟨y, hy, rfl⟩ := List.mem_map.mp hx
  rw [child_name]
  cases n with
  | leaf => simp [Node.kind] at hn
  | comp c' d k ss =>
    simp only [Node.kind, Kind.comp.injEq] at hn
    subst hn
    exact bodyNames_of 7 _ (deep_all _) d k ss hg.2.1.1 y hy

theorem serve_group {parts : List Part} {back : Bool} (hrd : RdBelow N) (hh : w.how ≠ .element) {m : Member} (hm : c.info.members[w.slot]? = some m)
    (hmult : m.mult = .one) {G : Cls} (hk : m.kind = .comp G) (hc : G.info.choices = 0) (hp : partsOk G later parts G.info.stmts = true) (ha : Around c w pre post strict false)
    (hback : back = true ∨ ∀ n ∈ later, (∀ p ∈ pre, p.reacts n = false) ∧ (RStmt.group w.slot parts back).reacts n = false) :
    Serve N self (pre ++ .group w.slot parts back :: post) strict c w later := by
  intro d k ss m' s s0 rest hm' hok hgood h0 hb hr
  rw [hm] at hm'; cases hm'
  have hu : inUse (some m) s.on = true := inUse_one (by rw [hmult]; simp) _
  obtain ⟨n, hn, hnk⟩ := ok_one (.inl hmult) hok
  obtain ⟨t, rfl, htk, htb⟩ := blank_one (.inl hmult) hb
  have hgn := hgood hu n (by rw [hn]; simp)
  obtain ⟨n', e1, e2, e3, e4⟩ := readParts_group hrd hc hp hgn (by rw [hnk, hk]) htb (by rw [htk, hk]) hr
  have hseg : segOf w m s = (whole n).kids.map (Xml.child prog) := by
    rw [segOf_on hu, hn, List.flatMap_singleton, seg, partOf_body hh]
  rw [hseg]
  have hnames := seg_names_body hm hh hk hgn (by rw [hnk, hk])
  cases hks : (whole n).kids with
  | nil =>
    -- nothing was written, nothing is read
    obtain ⟨n'', f1, f2, f3, f4⟩ := readParts_group (rest := []) hrd hc hp hgn (by rw [hnk, hk]) htb (by rw [htk, hk]) (by intro x hx; cases hx)
    rw [hks, List.map_nil, List.nil_append, readParts_nil] at f1
    obtain ⟨rfl, -, -⟩ := Got.mk.inj f1
    refine ⟨.mk false [t], ?_, by rw [List.map_nil, List.nil_append, set_same h0]⟩
    exact {
      ok := ⟨by simp [kids_mk, htk], by simp [hmult, kids_mk]⟩
      fine := by simp [kids_mk, f4]
      on := fun h => by rw [hmult] at h; cases h
      seen := fun h => absurd h hh
      text := fun _ => by simp [kids_mk, hn, partOf_body hh, f3] }
  | cons y ys =>
    refine ⟨.mk true [n'], slotSame_one (.inl hmult) hn (fun h => by rw [hmult] at h; cases h) (by rw [e2, hk]) e4 (by rw [partOf_body hh, partOf_body hh, e3]), ?_⟩
    rw [hks] at e1 hnames
    rw [List.map_cons, List.cons_append] at e1 ⊢
    have hx := hnames (y.child prog) (by simp)
    have hlast : ∃ l z, (y :: ys).map (Xml.child prog) = l ++ [z] := ⟨_, _, (List.dropLast_concat_getLast (by simp)).symm⟩
    obtain ⟨l, z, hlz⟩ := hlast
    have hz : z.name ∈ names c w := hnames z (by rw [hlz]; simp)
    have hlen : (y :: ys).length = l.length + 1 := by
      have := congrArg List.length hlz
      simpa using this
    have happ : y.child prog :: (ys.map (Xml.child prog) ++ rest) = l ++ z :: rest := by
      rw [← List.cons_append, ← List.map_cons, hlz]; simp
    have hst : (RStmt.group w.slot parts back).at self (.comp c d k ss) (y.child prog) (ys.map (Xml.child prog) ++ rest) =
        ⟨.comp c d k (ss.set w.slot (.mk true [n'])), true, groupAdv back (l.length + 1) (l.length + 1 + rest.length), false⟩ := by
      simp only [RStmt.at, Node.kid?, h0, Option.bind_some, kids_mk, List.head?_cons]
      rw [e1, hlen]
      simp only [Nat.add_eq_zero_iff, Nat.one_ne_zero, and_false, if_false, Node.setKid, changeSlot_some h0, kids_mk, List.tail_cons]
      have : (ys.map (Xml.child prog) ++ rest).length + 1 = l.length + 1 + rest.length := by
        have := congrArg List.length happ
        simp at this ⊢
        omega
      rw [this]
    by_cases hadv : (back || (l.length + 1 == l.length + 1 + rest.length)) = true
    · have ea : groupAdv back (l.length + 1) (l.length + 1 + rest.length) = l.length := by rw [groupAdv, if_pos hadv]; rfl
      rw [ea] at hst
      exact L_seg (fun p hp => reacts_idle (ha.pre p hp _ hx)) hst (by rw [happ]; exact drop_last) (by
        rcases ha.post with h | ⟨h5, h6⟩
        · cases h
        · exact .inr ⟨h5, fun p hp => reacts_idle (h6 p hp _ hz)⟩)
    · have ea : groupAdv back (l.length + 1) (l.length + 1 + rest.length) = l.length + 1 := by rw [groupAdv, if_neg hadv]
      rw [ea] at hst
      cases rest with
      | nil => simp at hadv
      | cons r rs =>
        rcases hback with hback | hback
        · simp [hback] at hadv
        · have hr' := hback r.name (hr r (by simp))
          exact L_seg_on (fun p hp => reacts_idle (ha.pre p hp _ hx)) hst (by
            rw [happ]
            have : l ++ z :: r :: rs = (l ++ [z]) ++ r :: rs := by simp
            rw [this]
            have : l.length + 1 = (l ++ [z]).length := by simp
            rw [this]; exact drop_last) (fun p hp => reacts_idle (hr'.1 p hp)) (reacts_idle hr'.2)

end
end Mx.Content
