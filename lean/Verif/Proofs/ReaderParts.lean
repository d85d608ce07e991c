import Verif.Proofs.ReaderSpecialB

/-
The members of an object one by one, for readers with a form of their own.
-/
open Mx.Spec
namespace Mx.Content

section
variable {N : Nat} {c : Cls} {d : Str} {k : Nat} {ss : List Slot} {w : Stmt}

theorem elem_one (hrd : RdBelow N) (hg : Here N (.comp c d k ss)) (hw : w ∈ c.info.stmts) (hc : inChoice k w = true) (hh : w.how = .element) {kd : Kind}
    (hm : c.info.members[w.slot]? = some ⟨kd, .one⟩) {s0 : Slot} (hb : BlankSlot ⟨kd, .one⟩ s0) :
    ∃ s n n' t, ss[w.slot]? = some s ∧ s0 = .mk false [t] ∧ (wholeStmt c k (wholeSlots ss) w).map (Xml.child prog) = [kidOf n] ∧ (kidOf n).name = kindName kd ∧
      (kidOf n).read t = (n', true) ∧ SlotSame c w.slot ⟨kd, .one⟩ w.how s (.mk true [n']) := by
  obtain ⟨m, s, hm', hs, hok, hgood⟩ := good_slot hg hw hc
  rw [hm] at hm'; cases hm'
  have hu : inUse (some ⟨kd, .one⟩) s.on = true := rfl
  obtain ⟨n, hn, hk⟩ := ok_one (.inl rfl) hok
  obtain ⟨t, rfl, htk, htb⟩ := blank_one (.inl rfl) hb
  have hR := hrd n (hgood hu n (by rw [hn]; simp)) (by rw [hk]; exact stmt_named hw hm hh)
  obtain ⟨n', e1, e2, e3, e4⟩ := hR.read t htb (by rw [htk, hk])
  refine ⟨s, n, n', t, hs, rfl, ?_, by rw [kidOf_name, hk], e1, slotSame_one (.inl rfl) hn (fun h => by cases h) (by rw [e2, hk]) e4 (by rw [hh]; simp [partOf, e3])⟩
  rw [segOf_eq hm hs hc, segOf_on hu, hn, List.flatMap_singleton, hh, seg_element]

theorem elem_opt (hrd : RdBelow N) (hg : Here N (.comp c d k ss)) (hw : w ∈ c.info.stmts) (hc : inChoice k w = true) (hh : w.how = .element) {kd : Kind}
    (hm : c.info.members[w.slot]? = some ⟨kd, .opt⟩) {s0 : Slot} (hb : BlankSlot ⟨kd, .opt⟩ s0) :
    ∃ s, ss[w.slot]? = some s ∧
      ((∃ n n' t, s.on = true ∧ s.kids = [n] ∧ s0 = .mk false [t] ∧ (wholeStmt c k (wholeSlots ss) w).map (Xml.child prog) = [kidOf n] ∧ (kidOf n).name = kindName kd ∧
        (kidOf n).read t = (n', true) ∧ SlotSame c w.slot ⟨kd, .opt⟩ w.how s (.mk true [n'])) ∨
      (s.on = false ∧ (wholeStmt c k (wholeSlots ss) w).map (Xml.child prog) = [] ∧ SlotSame c w.slot ⟨kd, .opt⟩ w.how s s0)) := by
  obtain ⟨m, s, hm', hs, hok, hgood⟩ := good_slot hg hw hc
  rw [hm] at hm'; cases hm'
  refine ⟨s, hs, ?_⟩
  cases hon : s.on with
  | true =>
    have hu : inUse (some ⟨kd, .opt⟩) s.on = true := by rw [inUse_opt rfl]; exact hon
    obtain ⟨n, hn, hk⟩ := ok_one (.inr rfl) hok
    obtain ⟨t, rfl, htk, htb⟩ := blank_one (.inr rfl) hb
    have hR := hrd n (hgood hu n (by rw [hn]; simp)) (by rw [hk]; exact stmt_named hw hm hh)
    obtain ⟨n', e1, e2, e3, e4⟩ := hR.read t htb (by rw [htk, hk])
    refine .inl ⟨n, n', t, rfl, hn, rfl, ?_, by rw [kidOf_name, hk], e1, slotSame_one (.inr rfl) hn (fun _ => hon) (by rw [e2, hk]) e4 (by rw [hh]; simp [partOf, e3])⟩
    rw [segOf_eq hm hs hc, segOf_on hu, hn, List.flatMap_singleton, hh, seg_element]
  | false =>
    refine .inr ⟨rfl, ?_, slotSame_off hm rfl hon hb⟩
    rw [segOf_eq hm hs hc, segOf_off (by rw [inUse_opt rfl]; exact hon)]

theorem elem_set (hrd : RdBelow N) (hg : Here N (.comp c d k ss)) (hw : w ∈ c.info.stmts) (hc : inChoice k w = true) (hh : w.how = .element) {kd : Kind} {sc : SetCode}
    (hm : c.info.members[w.slot]? = some ⟨kd, .set sc⟩) :
    ∃ (s : Slot) (ns' : List Node), ss[w.slot]? = some s ∧ (wholeStmt c k (wholeSlots ss) w).map (Xml.child prog) = s.kids.map kidOf ∧
      (∀ x ∈ s.kids.map kidOf, x.name = kindName kd) ∧ SlotOk wide c w.slot ⟨kd, .set sc⟩ s ∧
      (s.kids.map kidOf).map (fun y => y.read (make kd)) = ns'.map (fun n => (n, true)) ∧ ns'.length = s.kids.length ∧
      ∀ b, SlotSame c w.slot ⟨kd, .set sc⟩ w.how s (.mk b ns') := by
  obtain ⟨m, s, hm', hs, hok, hgood⟩ := good_slot hg hw hc
  rw [hm] at hm'; cases hm'
  have hu : inUse (some ⟨kd, .set sc⟩) s.on = true := rfl
  obtain ⟨ns', h1, h2, h3, h4⟩ := items_read hrd hw hh hm hok (hgood hu)
  refine ⟨s, ns', hs, ?_, ?_, hok, h1, h2, fun b => slotSame_set rfl hok h2 h3 (by rw [hh]; exact flatMap_element h4)⟩
  · rw [segOf_eq hm hs hc, segOf_on hu, hh, flatMap_seg_element]
  · intro x hx
    obtain ⟨n, hn, rfl⟩ := List.mem_map.mp hx
    rw [kidOf_name, hok.1 n hn]

theorem kind_comp {n : Node} {G : Cls} (h : n.kind = .comp G) : ∃ d k ss, n = .comp G d k ss := by
  cases n with
  | leaf => simp [Node.kind] at h
  | comp c d k ss =>
    simp only [Node.kind, Kind.comp.injEq] at h
    subst h
    exact ⟨d, k, ss, rfl⟩

/-- A group or choice. -/
theorem body_one (hg : Here N (.comp c d k ss)) (hw : w ∈ c.info.stmts) (hc : inChoice k w = true) (hh : w.how ≠ .element) {G : Cls}
    (hm : c.info.members[w.slot]? = some ⟨.comp G, .one⟩) {s0 : Slot} (hb : BlankSlot ⟨.comp G, .one⟩ s0) :
    ∃ s dn kn ssn dt kt sst, ss[w.slot]? = some s ∧ s0 = .mk false [.comp G dt kt sst] ∧ Blank (.comp G dt kt sst) ∧ Good N (.comp G dn kn ssn) ∧ s.kids = [.comp G dn kn ssn] ∧
      wholeStmt c k (wholeSlots ss) w = (whole (.comp G dn kn ssn)).kids ∧
      ∀ b n', n'.kind = .comp G → Fine n' → (whole n').kids = (whole (.comp G dn kn ssn)).kids → SlotSame c w.slot ⟨.comp G, .one⟩ w.how s (.mk b [n']) := by
  obtain ⟨m, s, hm', hs, hok, hgood⟩ := good_slot hg hw hc
  rw [hm] at hm'; cases hm'
  have hu : inUse (some ⟨.comp G, .one⟩) s.on = true := rfl
  obtain ⟨n, hn, hk⟩ := ok_one (.inl rfl) hok
  obtain ⟨t, rfl, htk, htb⟩ := blank_one (.inl rfl) hb
  have hgn := hgood hu n (by rw [hn]; simp)
  obtain ⟨dn, kn, ssn, rfl⟩ := kind_comp hk
  obtain ⟨dt, kt, sst, rfl⟩ := kind_comp htk
  refine ⟨s, dn, kn, ssn, dt, kt, sst, hs, rfl, htb, hgn, hn, ?_, ?_⟩
  · rw [wholeStmt_part hs, hm, hc, Bool.true_and, if_pos hu, hn, List.flatMap_singleton, partOf_body hh]
  · intro b n' h1 h2 h3
    exact {
      ok := ⟨by simp [kids_mk, h1], by simp [kids_mk]⟩
      fine := by simpa [kids_mk] using h2
      on := fun h => by cases h
      seen := fun h => absurd h hh
      text := fun _ => by simp [kids_mk, hn, partOf_body hh, h3] }

/-- The same for a member that may be absent. -/
theorem body_opt (hg : Here N (.comp c d k ss)) (hw : w ∈ c.info.stmts) (hc : inChoice k w = true) (hh : w.how ≠ .element) {G : Cls}
    (hm : c.info.members[w.slot]? = some ⟨.comp G, .opt⟩) {s0 : Slot} (hb : BlankSlot ⟨.comp G, .opt⟩ s0) :
    ∃ s, ss[w.slot]? = some s ∧
      ((∃ dn kn ssn dt kt sst, s.on = true ∧ s0 = .mk false [.comp G dt kt sst] ∧ Blank (.comp G dt kt sst) ∧ Good N (.comp G dn kn ssn) ∧ s.kids = [.comp G dn kn ssn] ∧
        wholeStmt c k (wholeSlots ss) w = (whole (.comp G dn kn ssn)).kids ∧
        ∀ n', n'.kind = .comp G → Fine n' → (whole n').kids = (whole (.comp G dn kn ssn)).kids → SlotSame c w.slot ⟨.comp G, .opt⟩ w.how s (.mk true [n'])) ∨
      (s.on = false ∧ wholeStmt c k (wholeSlots ss) w = [] ∧ SlotSame c w.slot ⟨.comp G, .opt⟩ w.how s s0)) := by
  obtain ⟨m, s, hm', hs, hok, hgood⟩ := good_slot hg hw hc
  rw [hm] at hm'; cases hm'
  refine ⟨s, hs, ?_⟩
  cases hon : s.on with
  | true =>
    have hu : inUse (some ⟨.comp G, .opt⟩) s.on = true := by rw [inUse_opt rfl]; exact hon
    obtain ⟨n, hn, hk⟩ := ok_one (.inr rfl) hok
    obtain ⟨t, rfl, htk, htb⟩ := blank_one (.inr rfl) hb
    have hgn := hgood hu n (by rw [hn]; simp)
    obtain ⟨dn, kn, ssn, rfl⟩ := kind_comp hk
    obtain ⟨dt, kt, sst, rfl⟩ := kind_comp htk
    refine .inl ⟨dn, kn, ssn, dt, kt, sst, rfl, rfl, htb, hgn, hn, ?_, ?_⟩
    · rw [wholeStmt_part hs, hm, hc, Bool.true_and, if_pos hu, hn, List.flatMap_singleton, partOf_body hh]
    · intro n' h1 h2 h3
      exact {
        ok := ⟨by simp [kids_mk, h1], by simp [kids_mk]⟩
        fine := by simpa [kids_mk] using h2
        on := fun _ => by rw [hon, on_mk]
        seen := fun h => absurd h hh
        text := fun _ => by simp [kids_mk, hn, partOf_body hh, h3] }
  | false =>
    refine .inr ⟨rfl, ?_, slotSame_off hm rfl hon hb⟩
    rw [wholeStmt_part hs, hm, hc, Bool.true_and, if_neg (by rw [inUse_opt rfl, hon]; simp)]

/-- Items that are groups. -/
theorem body_set (hg : Here N (.comp c d k ss)) (hw : w ∈ c.info.stmts) (hc : inChoice k w = true) (hh : w.how ≠ .element) {G : Cls} {sc : SetCode}
    (hm : c.info.members[w.slot]? = some ⟨.comp G, .set sc⟩) :
    ∃ s, ss[w.slot]? = some s ∧ SlotOk wide c w.slot ⟨.comp G, .set sc⟩ s ∧ (∀ n ∈ s.kids, Good N n ∧ n.kind = .comp G) ∧
      (wholeStmt c k (wholeSlots ss) w).map (Xml.child prog) = s.kids.flatMap (fun n => (whole n).kids.map (Xml.child prog)) ∧
      ∀ b (ns' : List Node), ns'.length = s.kids.length → (∀ n ∈ ns', n.kind = .comp G ∧ Fine n) → ns'.flatMap (fun n => (whole n).kids) = s.kids.flatMap (fun n => (whole n).kids) →
        SlotSame c w.slot ⟨.comp G, .set sc⟩ w.how s (.mk b ns') := by
  obtain ⟨m, s, hm', hs, hok, hgood⟩ := good_slot hg hw hc
  rw [hm] at hm'; cases hm'
  have hu : inUse (some ⟨.comp G, .set sc⟩) s.on = true := rfl
  refine ⟨s, hs, hok, fun n hn => ⟨hgood hu n hn, hok.1 n hn⟩, ?_, ?_⟩
  · rw [segOf_eq hm hs hc, segOf_on hu]
    have : seg w.how = fun n => (whole n).kids.map (Xml.child prog) := by
      funext n; rw [seg, partOf_body hh]
    rw [this]
  · intro b ns' h1 h2 h3
    have e : (fun n => partOf w.how (whole n)) = fun n => (whole n).kids := by
      funext n; rw [partOf_body hh]
    exact slotSame_set rfl hok h1 h2 (by rw [e]; exact h3)

end

/-- The reader of a group takes what the group has written. -/
def GroupReads (G : Cls) (last : List Nat) (f : Node → List Child → Got) : Prop :=
  ∀ N, RdBelow N → ∀ d k ss, Good N (.comp G d k ss) → ∀ d0 k0 ss0, Blank (.comp G d0 k0 ss0) → ∀ rest, RestOk last rest → ∃ n',
    f (.comp G d0 k0 ss0) ((whole (.comp G d k ss)).kids.map (Xml.child prog) ++ rest) = ⟨n', true, (whole (.comp G d k ss)).kids.length⟩ ∧ n'.kind = .comp G ∧
      Fine n' ∧ (whole n').kids = (whole (.comp G d k ss)).kids

theorem parts_reads {G : Cls} {last : List Nat} {ps : List Part} (hc : G.info.choices = 0) (hp : partsOk G last ps G.info.stmts = true) : GroupReads G last (readParts ps) := by
  intro N hrd d k ss hg d0 k0 ss0 hb rest hr
  obtain ⟨n', e1, e2, e3, e4⟩ := readParts_group hrd hc hp hg rfl hb rfl hr
  exact ⟨n', e1, e2, e4, e3⟩

/-- A statement that hands the children to the reader of a group. -/
theorem serve_got {N : Nat} {self : Child} {pre post : List RStmt} {strict next : Bool} {c : Cls} {w : Stmt} {later : List Nat} {G : Cls} {st : RStmt} {f : Node → List Child → Got}
    (hrd : RdBelow N) (hh : w.how ≠ .element) (hm : c.info.members[w.slot]? = some ⟨.comp G, .one⟩) (hG : GroupReads G later f)
    (hne : ∀ d k ss, Good N (.comp G d k ss) → (whole (.comp G d k ss)).kids ≠ [])
    (hst : ∀ d k ss, Good N (.comp G d k ss) → ∀ x xs, (whole (.comp G d k ss)).kids.map (Xml.child prog) = x :: xs →
      ∀ o rest, st.at self o x (xs ++ rest) = (o.innerGot w.slot (fun t => f t (x :: (xs ++ rest)))).step next)
    (ha : Around c w pre post strict next) : Serve N self (pre ++ st :: post) strict c w later := by
  intro d k ss m' s s0 rest hm' hok hgood h0 hb hr
  rw [hm] at hm'; cases hm'
  have hu : inUse (some ⟨.comp G, .one⟩) s.on = true := rfl
  obtain ⟨n, hn, hnk⟩ := ok_one (.inl rfl) hok
  obtain ⟨t, rfl, htk, htb⟩ := blank_one (.inl rfl) hb
  have hgn := hgood hu n (by rw [hn]; simp)
  have hnames := seg_names_body hm hh rfl hgn hnk
  obtain ⟨dn, kn, ssn, rfl⟩ := kind_comp hnk
  obtain ⟨dt, kt, sst, rfl⟩ := kind_comp htk
  obtain ⟨n', e1, e2, e4, e3⟩ := hG N hrd dn kn ssn hgn dt kt sst htb rest hr
  have hseg : segOf w ⟨.comp G, .one⟩ s = (whole (.comp G dn kn ssn)).kids.map (Xml.child prog) := by
    rw [segOf_on hu, hn, List.flatMap_singleton, seg, partOf_body hh]
  refine ⟨.mk true [n'], slotSame_one (.inl rfl) hn (fun h => by cases h) e2 e4 (by rw [partOf_body hh, partOf_body hh, e3]), ?_⟩
  rw [hseg]
  obtain ⟨x, xs, hx⟩ := List.exists_cons_of_ne_nil (l := (whole (.comp G dn kn ssn)).kids.map (Xml.child prog)) (by simpa using hne dn kn ssn hgn)
  have hat := hst dn kn ssn hgn x xs hx (.comp c d k ss) rest
  rw [innerGot_mk _ h0] at hat
  rw [hx] at hnames
  have hlast : ∃ l z, x :: xs = l ++ [z] := ⟨_, _, (List.dropLast_concat_getLast (by simp)).symm⟩
  obtain ⟨l, z, hlz⟩ := hlast
  have hz : z.name ∈ names c w := hnames z (by rw [hlz]; simp)
  have hlen : (whole (.comp G dn kn ssn)).kids.length = l.length + 1 := by
    have := congrArg List.length hx
    rw [List.length_map, hlz] at this
    simpa using this
  have happ : x :: (xs ++ rest) = l ++ z :: rest := by
    rw [← List.cons_append, hlz]; simp
  rw [hx] at e1
  rw [List.cons_append] at e1
  rw [e1, hlen] at hat
  rw [hx, List.cons_append]
  exact L_seg (fun p hp => reacts_idle (ha.pre p hp _ (hnames x (by simp)))) hat (by rw [happ]; exact drop_last) (by
    rcases ha.post with h | ⟨h5, h6⟩
    · exact .inl h
    · exact .inr ⟨h5, fun p hp => reacts_idle (h6 p hp _ hz)⟩)

/-- The first child of an object whose first statement writes an element. -/
theorem first_elem {N : Nat} {c : Cls} {d : Str} {k : Nat} {ss : List Slot} {w : Stmt} {ws : List Stmt} (hg : Here N (.comp c d k ss)) (hst : c.info.stmts = w :: ws)
    (hc : inChoice k w = true) (hh : w.how = .element) {kd : Kind} (hm : c.info.members[w.slot]? = some ⟨kd, .one⟩) :
    ∃ n, (whole (.comp c d k ss)).kids.map (Xml.child prog) = kidOf n :: (ws.flatMap (wholeStmt c k (wholeSlots ss))).map (Xml.child prog) ∧ (kidOf n).name = kindName kd := by
  obtain ⟨m, s, hm', hs, hok, _⟩ := good_slot hg (w := w) (by rw [hst]; simp) hc
  rw [hm] at hm'; cases hm'
  obtain ⟨n, hn, hk⟩ := ok_one (.inl rfl) hok
  refine ⟨n, ?_, by rw [kidOf_name, hk]⟩
  rw [whole_kids, hst, List.flatMap_cons, List.map_append, segOf_eq hm hs hc, segOf_on rfl, hn, List.flatMap_singleton, hh, seg_element]
  rfl

theorem split_unique : ∀ {l a b a' b' : List Stmt} {v w : Stmt}, (l.map (·.slot)).Nodup → l = a ++ v :: b → l = a' ++ w :: b' → v.slot = w.slot → v = w ∧ b = b'
  | _, [], b, [], b', v, w, _, h1, h2, _ => by
    rw [h1] at h2
    simpa using h2
  | _, [], b, x :: a', b', v, w, hnd, h1, h2, e => by
    rw [h1] at h2
    simp only [List.nil_append, List.cons_append, List.cons.injEq] at h2
    rw [h1] at hnd
    simp only [List.nil_append, List.map_cons, List.nodup_cons] at hnd
    exact absurd (List.mem_map.mpr ⟨w, by rw [h2.2]; simp, e.symm⟩) hnd.1
  | _, x :: a, b, [], b', v, w, hnd, h1, h2, e => by
    rw [h2] at h1
    simp only [List.nil_append, List.cons_append, List.cons.injEq] at h1
    rw [h2] at hnd
    simp only [List.nil_append, List.map_cons, List.nodup_cons] at hnd
    exact absurd (List.mem_map.mpr ⟨v, by rw [h1.2]; simp, e⟩) hnd.1
  | _, x :: a, b, y :: a', b', v, w, hnd, h1, h2, e => by
    rw [h1] at h2 hnd
    simp only [List.cons_append, List.cons.injEq] at h2
    simp only [List.cons_append, List.map_cons, List.nodup_cons] at hnd
    exact split_unique hnd.2 rfl h2.2 e

/-- All statements of the class are served, one of them in a way of its own. -/
theorem serveAll_but {N : Nat} {self : Child} {body : List RStmt} {strict : Bool} {c : Cls} {last : List Nat} (hrd : RdBelow N) {a b : List Stmt} {v : Stmt}
    (hst : c.info.stmts = a ++ v :: b) (hv : Serve N self body strict c v (namesOf c b ++ last)) (h : serveAllB c body strict last [v.slot] c.info.stmts = true) :
    ServeAll N self body strict c last c.info.stmts := by
  refine serveAll_of (skip := [v.slot]) hrd ?_ [] _ rfl h
  intro pre w ws he hw
  obtain ⟨rfl, rfl⟩ := split_unique (stmts_nodup c) hst he (List.mem_singleton.mp hw).symm
  exact hv

end Mx.Content
