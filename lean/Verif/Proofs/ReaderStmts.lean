import Verif.Proofs.ReaderServe

/-
The statements of the loops, one kind after the other.
-/
open Mx.Spec
namespace Mx.Content

theorem names_element {c : Cls} {w : Stmt} {m : Member} (hm : c.info.members[w.slot]? = some m) (hh : w.how = .element) : names c w = [kindName m.kind] := by
  simp [names, stmtNames, hm, hh]

theorem names_body {c : Cls} {w : Stmt} {m : Member} {G : Cls} (hm : c.info.members[w.slot]? = some m) (hh : w.how ≠ .element) (hk : m.kind = .comp G) : names c w = bodyNames 7 G := by
  cases e : w.how <;> simp_all [names, stmtNames]

theorem partOf_body {h : How} (hh : h ≠ .element) (w : Whole) : partOf h w = w.kids := by
  cases h <;> simp_all [partOf]

/-- The statements before pass the names, and those after do, unless they are left out. -/
structure Around (c : Cls) (w : Stmt) (pre post : List RStmt) (strict next : Bool) : Prop where
  pre : ∀ p ∈ pre, ∀ n ∈ names c w, p.reacts n = false
  post : next = true ∨ strict = false ∧ ∀ p ∈ post, ∀ n ∈ names c w, p.reacts n = false

section
variable {N : Nat} {self : Child} {pre post : List RStmt} {strict : Bool} {c : Cls} {w : Stmt} {later : List Nat}

/-- A statement that takes one child. -/
theorem L_one {st : RStmt} {o o' : Node} {x : Child} {rest : List Child} {next : Bool} (ha : Around c w pre post strict next) (hx : x.name ∈ names c w)
    (hst : st.at self o x rest = ⟨o', true, 0, next⟩) :
    L self (pre ++ st :: post) strict o (x :: rest) = L self (pre ++ st :: post) strict o' rest :=
  L_seg (fun p hp => reacts_idle (ha.pre p hp _ hx)) hst (List.drop_zero ..) (by
    rcases ha.post with h | ⟨h1, h2⟩
    · exact .inl h
    · exact .inr ⟨h1, fun p hp => reacts_idle (h2 p hp _ hx)⟩)

theorem segOf_on {m : Member} {s : Slot} (h : inUse (some m) s.on = true) : segOf w m s = s.kids.flatMap (seg w.how) := by
  rw [segOf, if_pos h]

theorem segOf_off {m : Member} {s : Slot} (h : inUse (some m) s.on = false) : segOf w m s = [] := by
  rw [segOf, h]; rfl

/-- A pointer: either in use, or a flag that is off. -/
theorem one_cases {i : Nat} {m : Member} {s s0 : Slot} (hm : c.info.members[i]? = some m) (hmult : m.mult = .one ∨ m.mult = .opt) (hb : BlankSlot m s0) :
    inUse (some m) s.on = true ∧ (m.mult = .opt → s.on = true) ∨ inUse (some m) s.on = false ∧ ∀ h, SlotSame c i m h s s0 := by
  rcases hmult with h | h
  · exact .inl ⟨inUse_one (by rw [h]; simp) _, fun h' => by rw [h] at h'; cases h'⟩
  · cases hon : s.on with
    | true => exact .inl ⟨by rw [inUse_opt h], fun _ => rfl⟩
    | false => exact .inr ⟨by rw [inUse_opt h], fun _ => slotSame_off hm h hon hb⟩

theorem serve_elem {name : Nat} {next : Bool} (hrd : RdBelow N) (hw : w ∈ c.info.stmts) (hh : w.how = .element) {m : Member} (hm : c.info.members[w.slot]? = some m)
    (hmult : m.mult = .one ∨ m.mult = .opt) (hname : name = kindName m.kind) (ha : Around c w pre post strict next) :
    Serve N self (pre ++ .elem name w.slot next :: post) strict c w later := by
  intro d k ss m' s s0 rest hm' hok hgood h0 hb _
  rw [hm] at hm'; cases hm'
  rcases one_cases hm hmult hb with ⟨hu, hon⟩ | ⟨hu, hsame⟩
  · obtain ⟨n, hn, hk⟩ := ok_one hmult hok
    obtain ⟨t, rfl, htk, htb⟩ := blank_one hmult hb
    have hR := hrd n (hgood hu n (by rw [hn]; simp)) (by rw [hk]; exact stmt_named hw hm hh)
    obtain ⟨n', e1, e2, e3, e4⟩ := hR.read t htb (by rw [htk, hk])
    refine ⟨.mk true [n'], slotSame_one hmult hn hon (by rw [e2, hk]) e4 (by rw [hh]; simp [partOf, e3]), ?_⟩
    rw [segOf_on hu, hn, List.flatMap_singleton, hh, seg_element, List.singleton_append]
    refine L_one ha (by rw [names_element hm hh, kidOf_name, hk]; simp) ?_
    rw [RStmt.at, kidOf_name, hk, hname, beq_self, if_pos rfl, inner_mk _ h0, e1]
  · refine ⟨s0, hsame _, ?_⟩
    rw [segOf_off hu, List.nil_append, set_same h0]

/-- The number of items a vector has at the beginning does not get into the way. -/
structure SetFits (c : Cls) (i : Nat) (sc : SetCode) : Prop where
  start : sc.start ≤ 1
  least : sc.start = 0 ∨ 1 ≤ wide.lo c i

theorem blank_kids {m : Member} {s0 : Slot} {sc : SetCode} (hm : m.mult = .set sc) (hs : sc.start ≤ 1) (hb : BlankSlot m s0) :
    (if s0.kids.length = 1 then [] else s0.kids) = [] := by
  have := hb.2.1
  rw [hm, Mult.start] at this
  split
  · rfl
  · have : s0.kids.length = 0 := by omega
    exact List.length_eq_zero_iff.mp this

theorem set_cases {i : Nat} {m : Member} {s s0 : Slot} {sc : SetCode} (hi : c.info.members[i]? = some m) (hm : m.mult = .set sc) (hf : SetFits c i sc) (hok : SlotOk wide c i m s)
    (hb : BlankSlot m s0) (hs : s.kids = []) : ∀ h, SlotSame c i m h s s0 := by
  intro h
  have h0 : s0.kids = [] := by
    rcases hf.least with h1 | h1
    · have := hb.2.1
      rw [hm, Mult.start, h1] at this
      exact List.length_eq_zero_iff.mp this
    · have := hok.2
      rw [hm] at this
      have h2 := this.1
      rw [hs] at h2
      simp at h2
      omega
  cases s0 with
  | mk b ks =>
    rw [kids_mk] at h0
    subst h0
    exact slotSame_set hm hok (by rw [hs]) (by simp) (by rw [hs])

theorem flatMap_element {ns ns' : List Node} (h : ns'.map (fun n => (whole n).element) = ns.map (fun n => (whole n).element)) :
    ns'.flatMap (fun n => partOf .element (whole n)) = ns.flatMap (fun n => partOf .element (whole n)) := by
  have e : ∀ l : List Node, l.flatMap (fun n => partOf .element (whole n)) = l.map (fun n => (whole n).element) := by
    intro l
    induction l with
    | nil => rfl
    | cons x xs ih => rw [List.flatMap_cons, ih]; rfl
  rw [e, e, h]

theorem flatMap_seg_element (ns : List Node) : ns.flatMap (seg .element) = ns.map kidOf := by
  induction ns with
  | nil => rfl
  | cons x xs ih => rw [List.flatMap_cons, ih, seg_element]; rfl

theorem map_fst_pair (ns : List Node) : (ns.map (fun n => (n, true))).map (·.1) = ns := by
  rw [List.map_map]; exact List.map_id' ns

theorem all_snd_pair (ns : List Node) : (ns.map (fun n => (n, true))).all (·.2) = true := by simp

/-- A vector of elements is in use. -/
theorem set_use {m : Member} {sc : SetCode} (hm : m.mult = .set sc) (b : Bool) : inUse (some m) b = true := inUse_one (by rw [hm]; simp) b

theorem drop_last {l : List Child} {y : Child} {rest : List Child} : (l ++ y :: rest).drop l.length = y :: rest := List.drop_left

/-- The items of a vector, all read into new objects. -/
theorem items_read (hrd : RdBelow N) (hw : w ∈ c.info.stmts) (hh : w.how = .element) {m : Member} (hm : c.info.members[w.slot]? = some m) {s : Slot}
    (hok : SlotOk wide c w.slot m s) (hgood : ∀ x ∈ s.kids, Good N x) :
    ∃ ns' : List Node, (s.kids.map kidOf).map (fun y => y.read (make m.kind)) = ns'.map (fun n => (n, true)) ∧ ns'.length = s.kids.length ∧
      (∀ n ∈ ns', n.kind = m.kind ∧ Fine n) ∧ ns'.map (fun n => (whole n).element) = s.kids.map (fun n => (whole n).element) :=
  list_reads (make_blank_member hm) (make_kind _) s.kids (fun n hn => ⟨hok.1 n hn, hrd n (hgood n hn) (by rw [hok.1 n hn]; exact stmt_named hw hm hh)⟩)

theorem serve_set {name : Nat} {next : Bool} (hrd : RdBelow N) (hw : w ∈ c.info.stmts) (hh : w.how = .element) {m : Member} (hm : c.info.members[w.slot]? = some m) {sc : SetCode}
    (hmult : m.mult = .set sc) (hf : SetFits c w.slot sc) (hname : name = kindName m.kind) (hl : later.any (Nat.beq name) = false) (ha : Around c w pre post strict next) :
    Serve N self (pre ++ .set name w.slot next :: post) strict c w later := by
  intro d k ss m' s s0 rest hm' hok hgood h0 hb hr
  rw [hm] at hm'; cases hm'
  have hu := set_use (m := m) hmult s.on
  by_cases he : s.kids = []
  · refine ⟨s0, set_cases hm hmult hf hok hb he _, ?_⟩
    rw [segOf_on hu, he, List.flatMap_nil, List.nil_append, set_same h0]
  · obtain ⟨ns', h1, h2, h3, h4⟩ := items_read hrd hw hh hm hok (hgood hu)
    refine ⟨.mk s0.on ns', slotSame_set hmult hok h2 h3 (by rw [hh]; exact flatMap_element h4), ?_⟩
    rw [segOf_on hu, hh, flatMap_seg_element]
    have hnames : ∀ x ∈ s.kids.map kidOf, x.name = name := by
      intro x hx
      obtain ⟨n, hn, rfl⟩ := List.mem_map.mp hx
      rw [kidOf_name, hok.1 n hn, hname]
    have hrun := runItems_seg hnames (restOk_head hr hl)
    have hmem : ∀ x ∈ s.kids.map kidOf, x.name ∈ names c w := fun x hx => by rw [hnames x hx, names_element hm hh, hname]; simp
    obtain ⟨n0, ks, hcons⟩ := List.exists_cons_of_ne_nil he
    -- the last child of the run
    have hlast : ∃ l y, s.kids.map kidOf = l ++ [y] := by
      have hne : s.kids.map kidOf ≠ [] := by simpa using he
      exact ⟨_, _, (List.dropLast_concat_getLast hne).symm⟩
    obtain ⟨l, y, hly⟩ := hlast
    have hy : y.name ∈ names c w := hmem y (by rw [hly]; simp)
    have hl' : (s.kids.map kidOf).length - 1 = l.length := by rw [hly]; simp
    have hx : kidOf n0 ∈ s.kids.map kidOf := by rw [hcons]; simp
    have hd : (kidOf n0 :: (ks.map kidOf ++ rest)).drop l.length = y :: rest := by
      have : kidOf n0 :: (ks.map kidOf ++ rest) = l ++ y :: rest := by
        rw [← List.cons_append, ← List.map_cons, ← hcons, hly]; simp
      rw [this]; exact drop_last
    have hsplit : s.kids.map kidOf ++ rest = kidOf n0 :: (ks.map kidOf ++ rest) := by rw [hcons]; rfl
    have hst : (RStmt.set name w.slot next).at self (.comp c d k ss) (kidOf n0) (ks.map kidOf ++ rest) =
        ⟨.comp c d k (ss.set w.slot (.mk s0.on ns')), true, l.length, next⟩ := by
      rw [RStmt.at, hnames _ hx, beq_self, if_pos rfl, ← hsplit, hrun, newItem_eq hm]
      dsimp only
      rw [h1, map_fst_pair, all_snd_pair, hl', addRun_some h0, blank_kids hmult hf.start hb]
      rfl
    rw [hsplit]
    exact L_seg (fun p hp => reacts_idle (ha.pre p hp _ (hmem _ hx))) hst hd (by
      rcases ha.post with h | ⟨h5, h6⟩
      · exact .inl h
      · exact .inr ⟨h5, fun p hp => reacts_idle (h6 p hp _ hy)⟩)

/-- One item after the other. -/
theorem items_loop {name : Nat} {m : Member} (hm : c.info.members[w.slot]? = some m) (hh : w.how = .element) (hname : name = kindName m.kind)
    (ha : Around c w pre post strict true) {d : Str} {k : Nat} {rest : List Child} :
    ∀ (ns ns' : List Node) (ss : List Slot) (acc : List Node), (∀ n ∈ ns, n.kind = m.kind) → (ns.map kidOf).map (fun y => y.read (make m.kind)) = ns'.map (fun n => (n, true)) →
      ss[w.slot]? = some (.mk true acc) →
      L self (pre ++ .item name w.slot :: post) strict (.comp c d k ss) (ns.map kidOf ++ rest) =
        L self (pre ++ .item name w.slot :: post) strict (.comp c d k (ss.set w.slot (.mk true (acc ++ ns')))) rest
  | [], ns', ss, acc, _, h, h0 => by
    have : ns' = [] := by simpa using h.symm
    subst this
    rw [List.append_nil, set_same h0]; rfl
  | n :: ns, [], ss, acc, _, h, h0 => by simp at h
  | n :: ns, n' :: ns', ss, acc, hk, h, h0 => by
    simp only [List.map_cons, List.cons.injEq] at h
    have hx : (kidOf n).name = name := by rw [kidOf_name, hk n (by simp), hname]
    have hst : (RStmt.item name w.slot).at self (.comp c d k ss) (kidOf n) (ns.map kidOf ++ rest) =
        ⟨.comp c d k (ss.set w.slot (.mk true (acc ++ [n']))), true, 0, true⟩ := by
      rw [RStmt.at, hx, beq_self, if_pos rfl, newItem_eq hm, h.1, addItem_some h0]
      simp [on_mk, kids_mk]
    rw [List.map_cons, List.cons_append, L_one ha (by rw [hx, names_element hm hh, hname]; simp) hst,
      items_loop hm hh hname ha ns ns' _ (acc ++ [n']) (fun x hx => hk x (by simp [hx])) h.2 (set_get h0), List.set_set, List.append_assoc, List.singleton_append]

theorem serve_item {name : Nat} (hrd : RdBelow N) (hw : w ∈ c.info.stmts) (hh : w.how = .element) {m : Member} (hm : c.info.members[w.slot]? = some m) {sc : SetCode}
    (hmult : m.mult = .set sc) (hf : SetFits c w.slot sc) (hname : name = kindName m.kind) (ha : Around c w pre post strict true) :
    Serve N self (pre ++ .item name w.slot :: post) strict c w later := by
  intro d k ss m' s s0 rest hm' hok hgood h0 hb hr
  rw [hm] at hm'; cases hm'
  have hu := set_use (m := m) hmult s.on
  cases he : s.kids with
  | nil =>
    refine ⟨s0, set_cases hm hmult hf hok hb he _, ?_⟩
    rw [segOf_on hu, he, List.flatMap_nil, List.nil_append, set_same h0]
  | cons n ks =>
    obtain ⟨ns', h1, h2, h3, h4⟩ := items_read hrd hw hh hm hok (hgood hu)
    refine ⟨.mk true ns', slotSame_set hmult hok h2 h3 (by rw [hh]; exact flatMap_element h4), ?_⟩
    rw [segOf_on hu, hh, flatMap_seg_element, he]
    rw [he] at h1
    cases ns' with
    | nil => simp at h1
    | cons n' ns' =>
      simp only [List.map_cons, List.cons.injEq] at h1
      have hx : (kidOf n).name = name := by rw [kidOf_name, hok.1 n (by rw [he]; simp), hname]
      have hst : (RStmt.item name w.slot).at self (.comp c d k ss) (kidOf n) (ks.map kidOf ++ rest) =
          ⟨.comp c d k (ss.set w.slot (.mk true [n'])), true, 0, true⟩ := by
        rw [RStmt.at, hx, beq_self, if_pos rfl, newItem_eq hm, h1.1, addItem_some h0]
        simp only [hb.1, and_true]
        rw [blank_kids hmult hf.start hb]
        rfl
      rw [List.map_cons, List.cons_append, L_one ha (by rw [hx, names_element hm hh, hname]; simp) hst,
        items_loop hm hh hname ha ks ns' _ [n'] (fun x hx => hok.1 x (by rw [he]; simp [hx])) h1.2 (set_get h0), List.set_set]
      rfl

end
end Mx.Content
