import Verif.Proofs.ReaderSpecialE

/-
Time signatures and chord symbols.
-/
open Mx.Spec
namespace Mx.Content

/-! ## `time` -/

def timeParts : List Part := [.one (nm! "beats") 0, .one (nm! "beat-type") 1, .one (nm! "interchangeable") 2]
def timeBody : List RStmt := [.sub 0 [(nm! "senza-misura", 1, some 1)] true, .times]

/-- As `parts_reads`, with the members that have been read. -/
theorem parts_filled {G : Cls} {last : List Nat} {ps : List Part} (hc : G.info.choices = 0) (hp : partsOk G last ps G.info.stmts = true) {N : Nat} (hrd : RdBelow N)
    {d d0 : Str} {k k0 : Nat} {ss ss0 : List Slot} (hg : Good N (.comp G d k ss)) (hb : Blank (.comp G d0 k0 ss0)) {rest : List Child} (hr : RestOk last rest) :
    ∃ ss1, readParts ps (.comp G d0 k0 ss0) ((whole (.comp G d k ss)).kids.map (Xml.child prog) ++ rest) = ⟨.comp G d0 k0 ss1, true, (whole (.comp G d k ss)).kids.length⟩ ∧
      Filled G ss G.info.stmts ss0 ss1 ∧ Fine (.comp G d0 k0 ss1) ∧ (whole (.comp G d0 k0 ss1)).kids = (whole (.comp G d k ss)).kids := by
  obtain ⟨hl, hk, hbl⟩ := hb.slot
  obtain ⟨ss1, h1, h2⟩ := readParts_all (d' := d0) (k' := k0) hrd hg hr ps _ ss0 hp (fun w hw => ⟨hw, free_inChoice (stmts_free hc w hw) k⟩) (stmts_nodup _) (by
    intro w hw
    obtain ⟨m, s, hm, hs, _, _⟩ := good_slot hg.here hw (free_inChoice (stmts_free hc w hw) k)
    obtain ⟨s0, h0⟩ := getElem?_same_length hl hm
    exact ⟨m, s0, hm, h0, hbl _ m s0 hm h0⟩)
  obtain ⟨hf, hw⟩ := filled_fine (d' := d0) (stmts_free hc) hg.2.1 hb rfl h2
  refine ⟨ss1, ?_, h2, hf, hw⟩
  rw [whole_kids, h1, List.length_map]

theorem filled_on {G : Cls} {d d0 : Str} {k k0 : Nat} {ss ss0 ss1 : List Slot} {N : Nat} (hg : Good N (.comp G d k ss)) (hf : Filled G ss G.info.stmts ss0 ss1) {w : Stmt}
    (hw : w ∈ G.info.stmts) (hc : inChoice k w = true) (hh : w.how = .element) {kd : Kind} (hm : G.info.members[w.slot]? = some ⟨kd, .one⟩) : (Node.comp G d0 k0 ss1).isOn w.slot = true := by
  obtain ⟨m, s, hm', hs, _, _⟩ := good_slot hg.here hw hc
  rw [hm] at hm'; cases hm'
  obtain ⟨s1, e1, e2⟩ := hf.same w hw _ s hm hs
  simp only [Node.isOn, e1, Option.map_some, Option.getD_some]
  exact e2.seen hh rfl

theorem time_head {N : Nat} {n : Node} (hg : Good N n) (hk : n.kind = .comp .TimeSignatureGroup) : ∃ x xs, (whole n).kids.map (Xml.child prog) = x :: xs ∧ x.name = nm! "beats" := by
  obtain ⟨d, k, ss, rfl⟩ := kind_comp hk
  obtain ⟨n, h1, h2⟩ := first_elem (w := ⟨[], 0, .element⟩) (ws := [⟨[], 1, .element⟩, ⟨[.flag 2], 2, .element⟩]) hg.here rfl rfl rfl (show (Cls.TimeSignatureGroup).info.members[0]? = some ⟨.leaf (nm! "beats") true, .one⟩ from rfl)
  exact ⟨_, _, h1, h2⟩

theorem head_names {G : Cls} {N : Nat} {name : Nat} (h : ∀ n, Good N n → n.kind = .comp G → ∃ x xs, (whole n).kids.map (Xml.child prog) = x :: xs ∧ x.name = name) :
    ∀ (ns : List Node), (∀ n ∈ ns, Good N n ∧ n.kind = .comp G) → RestOk [name] (ns.flatMap fun n => (whole n).kids.map (Xml.child prog))
  | [], _ => by intro x hx; cases hx
  | n :: ns, hn => by
    obtain ⟨y, ys, hy, hyn⟩ := h n (hn n (by simp)).1 (hn n (by simp)).2
    intro z hz
    rw [List.flatMap_cons, hy] at hz
    simp at hz
    rw [← hz, hyn]; simp

/-- What is left of the items when one is added. -/
def kept (b : Bool) (acc : List Node) : List Node := if acc.length = 1 ∧ b = false then [] else acc

theorem times_one {N : Nat} (hrd : RdBelow N) {self : Child} {d dc : Str} {k kc : Nat} {ss ssc : List Slot} {b bg : Bool} {acc : List Node} {rest : List Child} {n : Node}
    (hg : Good N n) (hk : n.kind = .comp .TimeSignatureGroup) (h0 : ss[0]? = some (.mk b [.comp .TimeChoice dc kc ssc])) (hc0 : ssc[0]? = some (.mk bg acc)) (hr : RestOk [nm! "beats"] rest) :
    ∃ n', n'.kind = .comp .TimeSignatureGroup ∧ Fine n' ∧ (whole n').kids = (whole n).kids ∧
      L self timeBody false (.comp .Time d k ss) ((whole n).kids.map (Xml.child prog) ++ rest) =
        L self timeBody false (.comp .Time d k (ss.set 0 (.mk true [.comp .TimeChoice dc 0 (ssc.set 0 (.mk true (kept bg acc ++ [n'])))]))) rest := by
  obtain ⟨x, xs, hx, hxn⟩ := time_head hg hk
  obtain ⟨dn, kn, ssn, rfl⟩ := kind_comp hk
  obtain ⟨d0, k0, ss0, e0⟩ := kind_comp (make_kind (.comp .TimeSignatureGroup))
  have hb := make_blank .TimeSignatureGroup
  rw [e0] at hb
  obtain ⟨ss1, e1, e2, e3, e4⟩ := parts_filled (ps := timeParts) rfl (by decide +kernel) hrd hg hb hr
  refine ⟨_, rfl, e3, e4, ?_⟩
  have hon0 : (Node.comp .TimeSignatureGroup d0 k0 ss1).isOn 0 = true := filled_on (w := ⟨[], 0, .element⟩) hg e2 (by simp [Cls.info, c_TimeSignatureGroup]) rfl rfl (show (Cls.TimeSignatureGroup).info.members[0]? = some ⟨.leaf (nm! "beats") true, .one⟩ from rfl)
  have hon1 : (Node.comp .TimeSignatureGroup d0 k0 ss1).isOn 1 = true := filled_on (w := ⟨[], 1, .element⟩) hg e2 (by simp [Cls.info, c_TimeSignatureGroup]) rfl rfl (show (Cls.TimeSignatureGroup).info.members[1]? = some ⟨.leaf (nm! "beat-type") true, .one⟩ from rfl)
  have hlast : ∃ l z, x :: xs = l ++ [z] := ⟨_, _, (List.dropLast_concat_getLast (by simp)).symm⟩
  obtain ⟨l, z, hlz⟩ := hlast
  have hlen : (whole (.comp .TimeSignatureGroup dn kn ssn)).kids.length = l.length + 1 := by
    have := congrArg List.length hx
    rw [List.length_map, hlz] at this
    simpa using this
  have happ : x :: (xs ++ rest) = l ++ z :: rest := by
    rw [← List.cons_append, hlz]; simp
  rw [hx] at e1 ⊢
  rw [List.cons_append] at e1 ⊢
  have hst : RStmt.times.at self (.comp .Time d k ss) x (xs ++ rest) =
      ⟨.comp .Time d k (ss.set 0 (.mk true [.comp .TimeChoice dc 0 (ssc.set 0 (.mk true (kept bg acc ++ [.comp .TimeSignatureGroup d0 k0 ss1])))])), true, l.length, true⟩ := by
    rw [RStmt.at, innerGot_mk _ h0]
    simp only
    rw [newItem_eq (c := .TimeChoice) (i := 0) rfl, show make (Member.kind ⟨.comp .TimeSignatureGroup, .set ⟨1, none, 0, 1⟩⟩) = make (.comp .TimeSignatureGroup) from rfl, e0]
    simp only [timeParts] at e1
    rw [e1]
    simp only
    rw [hon0, hon1, addItem_some hc0, hlen]
    rfl
  exact L_seg (pre := [.sub 0 [(nm! "senza-misura", 1, some 1)] true]) (post := []) (fun p hp => by
    rw [List.mem_singleton.mp hp]
    exact reacts_idle (by rw [hxn]; decide +kernel)) hst (by rw [happ]; exact drop_last) (.inl rfl)

theorem times_loop {N : Nat} (hrd : RdBelow N) {self : Child} {d dc : Str} {k : Nat} : ∀ (ns : List Node) (n : Node) (kc : Nat) (ss ssc : List Slot) (b bg : Bool) (acc : List Node),
    (∀ m ∈ n :: ns, Good N m ∧ m.kind = .comp .TimeSignatureGroup) → ss[0]? = some (.mk b [.comp .TimeChoice dc kc ssc]) → ssc[0]? = some (.mk bg acc) →
    ∃ ns' : List Node, ns'.length = ns.length + 1 ∧ (∀ m ∈ ns', m.kind = .comp .TimeSignatureGroup ∧ Fine m) ∧ ns'.flatMap (fun m => (whole m).kids) = (n :: ns).flatMap (fun m => (whole m).kids) ∧
      L self timeBody false (.comp .Time d k ss) ((n :: ns).flatMap (fun m => (whole m).kids.map (Xml.child prog))) =
        (.comp .Time d k (ss.set 0 (.mk true [.comp .TimeChoice dc 0 (ssc.set 0 (.mk true (kept bg acc ++ ns')))])), true)
  | ns, n, kc, ss, ssc, b, bg, acc, h, h0, hc0 => by
    obtain ⟨n', e1, e2, e3, e4⟩ := times_one hrd (self := self) (d := d) (k := k) (h n (by simp)).1 (h n (by simp)).2 h0 hc0
      (head_names (fun n => time_head) ns (fun m hm => h m (by simp [hm])))
    match ns, h, e4 with
    | [], h, e4 =>
      refine ⟨[n'], rfl, by simpa using ⟨e1, e2⟩, by simpa using e3, ?_⟩
      rw [List.flatMap_cons, e4]
      rfl
    | m :: ms, h, e4 =>
      obtain ⟨ns', g1, g2, g3, g4⟩ := times_loop hrd (self := self) (d := d) (k := k) (dc := dc) ms m 0 _ _ true true _ (fun x hx => h x (by simp [List.mem_cons.mp hx])) (set_get h0) (set_get hc0)
      refine ⟨n' :: ns', by simp [g1], forall_cons ⟨e1, e2⟩ g2, by rw [List.flatMap_cons, g3, e3]; rfl, ?_⟩
      rw [List.flatMap_cons, e4, g4, List.set_set, List.set_set]
      simp [kept]

theorem time_reads : ClassReads .Time := by
  refine class_loop (body := timeBody) (strict := false) (need := []) rfl (stmts_free rfl) (fun _ _ _ _ _ => .inl rfl) (fun N self hrd => ⟨?_, trivial⟩)
  intro d k ss m s s0 rest hm hok hgood h0 hb hr
  have hrest : rest = [] := by
    cases rest with
    | nil => rfl
    | cons x xs => exact absurd (hr x (by simp)) (by simp [namesOf])
  subst hrest
  have hm0 : (Cls.Time).info.members[0]? = some ⟨.comp .TimeChoice, .one⟩ := rfl
  rw [show (Cls.Time).info.members[(⟨[], 0, .body⟩ : Stmt).slot]? = _ from hm0] at hm; cases hm
  obtain ⟨n, hn, hnk⟩ := ok_one (.inl rfl) hok
  obtain ⟨t, rfl, htk, htb⟩ := blank_one (.inl rfl) hb
  have hgn := hgood rfl n (by rw [hn]; simp)
  obtain ⟨dn, kn, ssn, rfl⟩ := kind_comp hnk
  obtain ⟨dt, kt, sst, rfl⟩ := kind_comp htk
  have hseg : segOf ⟨[], 0, .body⟩ ⟨.comp .TimeChoice, .one⟩ s = (whole (.comp .TimeChoice dn kn ssn)).kids.map (Xml.child prog) := by
    rw [segOf_on rfl, hn, List.flatMap_singleton, seg, partOf_body (by simp)]
  rw [show segOf _ _ s = _ from hseg, List.append_nil]
  rcases two_choices hgn.here rfl with rfl | rfl
  · have hmc : (Cls.TimeChoice).info.members[0]? = some ⟨.comp .TimeSignatureGroup, .set ⟨1, none, 0, 1⟩⟩ := rfl
    have hf : (Cls.TimeChoice).info.stmts.filter (inChoice 0) = [⟨[.choice 0], 0, .body⟩] := rfl
    obtain ⟨hl, hk0, hbl⟩ := htb.slot
    obtain ⟨sc0, hc0⟩ := getElem?_same_length hl hmc
    obtain ⟨s1, hs1, hok1, hgood1, hw1, hsame1⟩ := body_set hgn.here (w := ⟨[.choice 0], 0, .body⟩) (by simp [Cls.info, c_TimeChoice]) rfl (by simp) hmc
    have hr1 := here_readable hgn.here
    simp only [ReadableHere, kidsAt] at hr1
    rw [show ssn[0]? = some s1 from hs1] at hr1
    have hr1 := hr1 trivial
    obtain ⟨q, qs, hq⟩ := List.exists_cons_of_ne_nil (l := s1.kids) (by simpa using hr1)
    rw [hq] at hgood1 hw1 hsame1
    cases sc0 with
    | mk bg acc =>
    have hbc := hbl 0 _ _ hmc hc0
    have hkept : kept bg acc = [] := by
      have e1 := hbc.1
      have e2 := hbc.2.1
      rw [on_mk] at e1
      rw [kids_mk] at e2
      rw [kept, if_pos ⟨e2, e1⟩]
    obtain ⟨ns', g1, g2, g3, g4⟩ := times_loop hrd (self := self) (d := d) (k := k) qs q kt ss sst false bg acc hgood1 h0 hc0
    rw [hkept, List.nil_append] at g4
    have hF : Filled .TimeChoice ssn [⟨[.choice 0], 0, .body⟩] sst (sst.set 0 (.mk true ns')) := .cons (w := ⟨[.choice 0], 0, .body⟩) hmc hs1 hc0 (hsame1 _ _ (by simpa using g1) g2 g3) (by simp) .nil
    obtain ⟨f1, f2⟩ := choice_fine (d' := dt) hgn.2.1 htb hf (by simp) hF
    refine ⟨_, got_slot (w := ⟨[], 0, .body⟩) (by simp) hn rfl f1 f2, ?_⟩
    rw [whole_kids_choice, hf, List.flatMap_singleton, hw1, g4]
    rfl
  · obtain ⟨x, hx, f, hf, hread⟩ := choice_reads hrd hgn (by simp) (fs := [(nm! "senza-misura", 1, some 1)]) (by decide +kernel)
    obtain ⟨n', e1, e2, e3, e4⟩ := hread _ htb rfl
    refine ⟨.mk true [n'], got_slot (w := ⟨[], 0, .body⟩) (by simp) hn e2 e4 e3, ?_⟩
    rw [hx]
    have hst : (RStmt.sub 0 [(nm! "senza-misura", 1, some 1)] true).at self (.comp .Time d k ss) x [] = ⟨.comp .Time d k (ss.set 0 (.mk true [n'])), true, 0, true⟩ := by
      rw [RStmt.at, hf]
      simp only
      rw [inner_mk _ h0, e1]
    exact L_seg (pre := []) (post := [.times]) (strict := false) (by simp) hst (List.drop_zero ..) (.inl rfl)

/-! ## `harmony` -/

def chordParts : List Part := [.one (nm! "inversion") 3, .one (nm! "bass") 4, .run (nm! "degree") 5]
def chordRest : List Stmt := [⟨[.flag 3], 3, .element⟩, ⟨[.flag 4], 4, .element⟩, ⟨[], 5, .element⟩]
def afterChord : List Nat := [nm! "root", nm! "function", nm! "frame", nm! "offset", nm! "footnote", nm! "level", nm! "staff"]

theorem chord_read {N : Nat} (hrd : RdBelow N) {k : Nat} {kd : Kind} (hm : (Cls.HarmonyChordGroup).info.members[k]? = some ⟨kd, .one⟩) (hk2 : k < 2)
    (hf : (Cls.HarmonyChordGroup).info.stmts.filter (inChoice k) = ⟨[.choice k], k, .element⟩ :: ⟨[], 2, .element⟩ :: chordRest) (hin : inChoice k ⟨[.choice k], k, .element⟩ = true)
    (hname : Nat.beq (kindName kd) (nm! "root") = true ∧ k = 0 ∨ Nat.beq (kindName kd) (nm! "root") = false ∧ k = 1)
    {d d0 : Str} {k0 : Nat} {ss ss0 : List Slot} (hg : Good N (.comp .HarmonyChordGroup d k ss)) (hb : Blank (.comp .HarmonyChordGroup d0 k0 ss0)) {rest : List Child} (hr : RestOk afterChord rest) :
    ∃ n' x xs, (whole (.comp .HarmonyChordGroup d k ss)).kids.map (Xml.child prog) = x :: xs ∧ x.name = kindName kd ∧
      harmonyChord (.comp .HarmonyChordGroup d0 k0 ss0) (x :: (xs ++ rest)) = ⟨n', true, xs.length + 1⟩ ∧
      n'.kind = .comp .HarmonyChordGroup ∧ Fine n' ∧ (whole n').kids = (whole (.comp .HarmonyChordGroup d k ss)).kids := by
  obtain ⟨hl, hk0, hbl⟩ := hb.slot
  have hmem : ∀ w ∈ (⟨[.choice k], k, .element⟩ :: ⟨[], 2, .element⟩ :: chordRest : List Stmt), w ∈ (Cls.HarmonyChordGroup).info.stmts ∧ inChoice k w = true := by
    intro w hw
    rw [← hf] at hw
    exact List.mem_filter.mp hw
  have hm2 : (Cls.HarmonyChordGroup).info.members[2]? = some ⟨.leaf (nm! "kind") true, .one⟩ := rfl
  obtain ⟨s00, h00⟩ := getElem?_same_length hl hm
  obtain ⟨s02, h02⟩ := getElem?_same_length hl hm2
  obtain ⟨s1, n1, n1', t1, hs1, rfl, hw1, hnm1, hr1, hsame1⟩ := elem_one hrd hg.here (w := ⟨[.choice k], k, .element⟩) (hmem _ (by simp)).1 hin rfl hm (hbl k _ _ hm h00)
  obtain ⟨s2, n2, n2', t2, hs2, rfl, hw2, hnm2, hr2, hsame2⟩ := elem_one hrd hg.here (w := ⟨[], 2, .element⟩) (hmem _ (by simp)).1 rfl rfl hm2 (hbl 2 _ _ hm2 h02)
  have h02' : (ss0.set k (.mk true [n1']))[2]? = some (.mk false [t2]) := by rw [set_get_ne (by omega)]; exact h02
  obtain ⟨ss1, g1, g2⟩ := readParts_all (d' := d0) (k' := k) (last := afterChord) hrd hg hr chordParts chordRest ((ss0.set k (.mk true [n1'])).set 2 (.mk true [n2'])) (by decide +kernel)
    (fun w hw => hmem w (by simp [hw])) (by decide) (by
      intro w hw
      obtain ⟨m, s, hmw, hs, _, _⟩ := good_slot hg.here (hmem w (by simp [hw])).1 (hmem w (by simp [hw])).2
      obtain ⟨s0, h0⟩ := getElem?_same_length hl hmw
      have h3 : 3 ≤ w.slot := by
        have : ∀ w ∈ chordRest, 3 ≤ w.slot := by decide
        exact this w hw
      exact ⟨m, s0, hmw, by rw [set_get_ne (by omega), set_get_ne (by omega)]; exact h0, hbl _ m s0 hmw h0⟩)
  have hnd : ∀ w ∈ chordRest, w.slot ≠ 2 ∧ w.slot ≠ k := by
    have : ∀ w ∈ chordRest, 3 ≤ w.slot := by decide
    intro w hw
    have := this w hw
    omega
  have hF : Filled .HarmonyChordGroup ss (⟨[.choice k], k, .element⟩ :: ⟨[], 2, .element⟩ :: chordRest) ss0 ss1 :=
    .cons (w := ⟨[.choice k], k, .element⟩) hm hs1 h00 hsame1 (List.forall_mem_cons.mpr ⟨by simp only; omega, fun w hw => (hnd w hw).2⟩)
      (.cons (w := ⟨[], 2, .element⟩) hm2 hs2 h02' hsame2 (fun w hw => (hnd w hw).1) g2)
  obtain ⟨f1, f2⟩ := choice_fine (d' := d0) hg.2.1 hb hf (by simp) hF
  refine ⟨_, kidOf n1, kidOf n2 :: (chordRest.flatMap (wholeStmt .HarmonyChordGroup k (wholeSlots ss))).map (Xml.child prog), ?_, hnm1, ?_, rfl, f1, f2⟩
  · rw [whole_kids_choice, hf, List.flatMap_cons, List.flatMap_cons, List.map_append, List.map_append, hw1, hw2]; rfl
  · rw [List.cons_append, harmonyChord]
    have ha : (if Nat.beq (kidOf n1).name (nm! "root") = true then (Node.comp Cls.HarmonyChordGroup d0 k0 ss0).readField (0, some 0) (kidOf n1)
        else (Node.comp Cls.HarmonyChordGroup d0 k0 ss0).readField (1, some 1) (kidOf n1)) = (.comp .HarmonyChordGroup d0 k (ss0.set k (.mk true [n1'])), true) := by
      rw [hnm1]
      rcases hname with ⟨e, rfl⟩ | ⟨e, rfl⟩
      · rw [if_pos e, Node.readField, inner_mk _ h00, hr1]; rfl
      · rw [if_neg (by rw [e]; simp), Node.readField, inner_mk _ h00, hr1]; rfl
    simp only [chordParts] at g1
    simp only [ha]
    rw [hnm2, show kindName (.leaf (nm! "kind") true) = nm! "kind" from rfl, beq_self, if_pos rfl, inner_mk _ h02', hr2]
    simp only
    rw [g1]
    simp

theorem chord_head {N : Nat} (hrd : RdBelow N) {n : Node} (hg : Good N n) (hk : n.kind = .comp .HarmonyChordGroup) {t : Node} (hb : Blank t) (htk : t.kind = .comp .HarmonyChordGroup) {rest : List Child} (hr : RestOk afterChord rest) :
    ∃ n' x xs, (whole n).kids.map (Xml.child prog) = x :: xs ∧ x.name ∈ [nm! "root", nm! "function"] ∧
      harmonyChord t (x :: (xs ++ rest)) = ⟨n', true, xs.length + 1⟩ ∧ n'.kind = .comp .HarmonyChordGroup ∧ Fine n' ∧ (whole n').kids = (whole n).kids := by
  obtain ⟨d, k, ss, rfl⟩ := kind_comp hk
  obtain ⟨d0, k0, ss0, rfl⟩ := kind_comp htk
  rcases two_choices hg.here rfl with rfl | rfl
  · obtain ⟨n', x, xs, e1, e2, e3⟩ := chord_read (kd := .comp .Root) hrd rfl (by decide) rfl rfl (.inl ⟨by decide +kernel, rfl⟩) hg hb hr
    exact ⟨n', x, xs, e1, by rw [e2]; decide, e3⟩
  · obtain ⟨n', x, xs, e1, e2, e3⟩ := chord_read (kd := .leaf (nm! "function") true) hrd rfl (by decide) rfl rfl (.inr ⟨by decide +kernel, rfl⟩) hg hb hr
    exact ⟨n', x, xs, e1, by rw [e2]; decide, e3⟩

def harmonyPost : List RStmt := (match prog .Harmony with | .loop _ (_ :: b) _ _ => b | _ => [])

theorem harmony_prog : prog .Harmony = .loop none (.chords :: harmonyPost) false [nm! "root", nm! "function"] := rfl

theorem chords_loop {N : Nat} (hrd : RdBelow N) {self : Child} {d : Str} {k : Nat} {rest : List Child} (hr : RestOk afterChord rest) : ∀ (ns : List Node) (ss : List Slot) (b : Bool) (acc : List Node),
    (∀ m ∈ ns, Good N m ∧ m.kind = .comp .HarmonyChordGroup) → ss[0]? = some (.mk b acc) →
    ∃ (ns' : List Node) (b' : Bool) (acc' : List Node), ns'.length = ns.length ∧ (∀ m ∈ ns', m.kind = .comp .HarmonyChordGroup ∧ Fine m) ∧ ns'.flatMap (fun m => (whole m).kids) = ns.flatMap (fun m => (whole m).kids) ∧
      (ns = [] ∧ acc' = acc ∧ b' = b ∨ ns ≠ [] ∧ b' = true ∧ acc' = kept b acc ++ ns') ∧
      L self (.chords :: harmonyPost) false (.comp .Harmony d k ss) (ns.flatMap (fun m => (whole m).kids.map (Xml.child prog)) ++ rest) =
        L self (.chords :: harmonyPost) false (.comp .Harmony d k (ss.set 0 (.mk b' acc'))) rest
  | [], ss, b, acc, _, h0 => ⟨[], b, acc, rfl, by simp, rfl, .inl ⟨rfl, rfl, rfl⟩, by rw [set_same h0]; rfl⟩
  | n :: ns, ss, b, acc, h, h0 => by
    have hrest : RestOk afterChord (ns.flatMap (fun m => (whole m).kids.map (Xml.child prog)) ++ rest) := by
      cases ns with
      | nil => exact hr
      | cons m ms =>
        obtain ⟨_, y, ys, hy, hyn, _⟩ := chord_head hrd (h m (by simp)).1 (h m (by simp)).2 (make_blank .HarmonyChordGroup) (make_kind _) (rest := []) (by intro x hx; cases hx)
        intro z hz
        rw [List.flatMap_cons, hy] at hz
        simp at hz
        rw [← hz]
        simp only [List.mem_cons, List.not_mem_nil, or_false] at hyn
        rcases hyn with e | e <;> rw [e] <;> decide
    obtain ⟨n', x, xs, e1, e2, e3, e4, e5, e6⟩ := chord_head hrd (h n (by simp)).1 (h n (by simp)).2 (make_blank .HarmonyChordGroup) (make_kind _) hrest
    obtain ⟨ns', b', acc', g1, g2, g3, g4, g5⟩ := chords_loop hrd (self := self) (d := d) (k := k) hr ns (ss.set 0 (.mk true (kept b acc ++ [n']))) true (kept b acc ++ [n']) (fun m hm => h m (by simp [hm])) (set_get h0)
    refine ⟨n' :: ns', true, kept b acc ++ n' :: ns', by simp [g1], forall_cons ⟨e4, e5⟩ g2, by rw [List.flatMap_cons, List.flatMap_cons, g3, e6], .inr ⟨by simp, rfl, rfl⟩, ?_⟩
    have hlast : ∃ l z, x :: xs = l ++ [z] := ⟨_, _, (List.dropLast_concat_getLast (by simp)).symm⟩
    obtain ⟨l, z, hlz⟩ := hlast
    have hlen : xs.length = l.length := by
      have := congrArg List.length hlz
      simpa using this
    rw [List.flatMap_cons, e1, List.append_assoc, List.cons_append]
    have happ : x :: (xs ++ (ns.flatMap (fun m => (whole m).kids.map (Xml.child prog)) ++ rest)) = l ++ z :: (ns.flatMap (fun m => (whole m).kids.map (Xml.child prog)) ++ rest) := by
      rw [← List.cons_append, hlz]; simp
    have hst : RStmt.chords.at self (.comp .Harmony d k ss) x (xs ++ (ns.flatMap (fun m => (whole m).kids.map (Xml.child prog)) ++ rest)) =
        ⟨.comp .Harmony d k (ss.set 0 (.mk true (kept b acc ++ [n']))), true, l.length, true⟩ := by
      rw [RStmt.at, if_pos (show headIn [nm! "root", nm! "function"] (x :: (xs ++ (ns.flatMap (fun m => (whole m).kids.map (Xml.child prog)) ++ rest))) = true from mem_any e2)]
      simp only
      rw [newItem_eq (c := .Harmony) (i := 0) rfl, show make (Member.kind ⟨.comp .HarmonyChordGroup, .set ⟨1, none, 1, 1⟩⟩) = make (.comp .HarmonyChordGroup) from rfl, e3, addItem_some h0, ← hlen]
      rfl
    have hdrop : (x :: (xs ++ (ns.flatMap (fun m => (whole m).kids.map (Xml.child prog)) ++ rest))).drop l.length = z :: (ns.flatMap (fun m => (whole m).kids.map (Xml.child prog)) ++ rest) := by
      rw [happ]; exact drop_last
    have hL := L_seg (pre := []) (post := harmonyPost) (strict := false) (by simp) hst hdrop (.inl rfl)
    rw [List.nil_append] at hL
    rw [hL, g5, List.set_set]
    rcases g4 with ⟨rfl, rfl, rfl⟩ | ⟨_, rfl, rfl⟩
    · have : ns' = [] := by simpa using g1
      rw [this]
    · simp [kept]

theorem first_choice {N : Nat} {c : Cls} {d : Str} {k : Nat} {ss : List Slot} {w : Stmt} {ws : List Stmt} (hg : Here N (.comp c d k ss)) (hst : c.info.stmts.filter (inChoice k) = w :: ws)
    (hh : w.how = .element) {kd : Kind} (hm : c.info.members[w.slot]? = some ⟨kd, .one⟩) : ∃ x ∈ (whole (.comp c d k ss)).kids, x.name = kindName kd := by
  have hw : w ∈ c.info.stmts ∧ inChoice k w = true := List.mem_filter.mp (by rw [hst]; simp)
  obtain ⟨m, s, hm', hs, hok, _⟩ := good_slot hg (w := w) hw.1 hw.2
  rw [hm] at hm'; cases hm'
  obtain ⟨n, hn, hk⟩ := ok_one (.inl rfl) hok
  refine ⟨(whole n).element, ?_, by rw [whole_name, hk]⟩
  rw [whole_kids_choice, hst, List.flatMap_cons, wholeStmt_part hs, hm, hw.2, Bool.true_and, if_pos (show inUse (some ⟨kd, .one⟩) s.on = true from rfl), hn, hh]
  simp [partOf]

theorem chord_name {N : Nat} {n : Node} (hg : Good N n) (hk : n.kind = .comp .HarmonyChordGroup) : ∃ x ∈ (whole n).kids, x.name ∈ [nm! "root", nm! "function"] := by
  obtain ⟨d, k, ss, rfl⟩ := kind_comp hk
  rcases two_choices hg.here rfl with rfl | rfl
  · obtain ⟨x, hx, e⟩ := first_choice (w := ⟨[.choice 0], 0, .element⟩) hg.here rfl rfl (show (Cls.HarmonyChordGroup).info.members[0]? = some ⟨.comp .Root, .one⟩ from rfl)
    exact ⟨x, hx, by rw [e]; decide⟩
  · obtain ⟨x, hx, e⟩ := first_choice (w := ⟨[.choice 1], 1, .element⟩) hg.here rfl rfl (show (Cls.HarmonyChordGroup).info.members[1]? = some ⟨.leaf (nm! "function") true, .one⟩ from rfl)
    exact ⟨x, hx, by rw [e]; decide⟩

theorem harmony_reads : ClassReads .Harmony := by
  have hm0 : (Cls.Harmony).info.members[0]? = some ⟨.comp .HarmonyChordGroup, .set ⟨1, none, 1, 1⟩⟩ := rfl
  have h2 : wide.lo .Harmony 0 = 1 := by decide +kernel
  refine class_loop harmony_prog (stmts_free rfl) ?_ ?_
  · intro N d k ss hg
    refine .inr ?_
    obtain ⟨s, hs, hok, hgood, _, _⟩ := body_set hg (w := ⟨[], 0, .body⟩) (by simp [Cls.info, c_Harmony]) rfl (by simp) hm0
    have h1 : wide.lo .Harmony 0 ≤ s.kids.length := hok.2.1
    obtain ⟨n, ns, hn⟩ := List.exists_cons_of_length_pos (l := s.kids) (by omega)
    obtain ⟨x, hx, hxn⟩ := chord_name (hgood n (by rw [hn]; simp)).1 (hgood n (by rw [hn]; simp)).2
    refine List.any_eq_true.mpr ⟨x, ?_, mem_any hxn⟩
    rw [whole_kids]
    refine List.mem_flatMap.mpr ⟨⟨[], 0, .body⟩, by simp [Cls.info, c_Harmony], ?_⟩
    rw [wholeStmt_part hs, show (Cls.Harmony).info.members[(⟨[], 0, .body⟩ : Stmt).slot]? = _ from hm0,
      if_pos (show (inChoice k ⟨[], 0, .body⟩ && inUse (some ⟨.comp .HarmonyChordGroup, .set ⟨1, none, 1, 1⟩⟩) s.on) = true from rfl)]
    exact List.mem_flatMap.mpr ⟨n, by rw [hn]; simp, by rw [partOf_body (by simp)]; exact hx⟩
  · intro N self hrd
    refine serveAll_but hrd (a := []) (b := [⟨[.flag 1], 1, .element⟩, ⟨[.flag 2], 2, .element⟩, ⟨[], 3, .bodyIf⟩, ⟨[.flag 4], 4, .element⟩]) (v := ⟨[], 0, .body⟩) rfl ?_ (by decide +kernel)
    intro d k ss m s s0 rest hm hok hgood h0 hb hr
    rw [show (Cls.Harmony).info.members[(⟨[], 0, .body⟩ : Stmt).slot]? = _ from hm0] at hm; cases hm
    have h1 : wide.lo .Harmony 0 ≤ s.kids.length := hok.2.1
    have hr' : RestOk afterChord rest := by
      have : ∀ x ∈ namesOf .Harmony [⟨[.flag 1], 1, .element⟩, ⟨[.flag 2], 2, .element⟩, ⟨[], 3, .bodyIf⟩, ⟨[.flag 4], 4, .element⟩] ++ [], x ∈ afterChord := by decide +kernel
      exact fun x hx => this _ (hr x hx)
    cases s0 with
    | mk b acc =>
    obtain ⟨ns', b', acc', g1, g2, g3, g4, g5⟩ := chords_loop hrd (self := self) (d := d) (k := k) hr' s.kids ss b acc (fun n hn => ⟨hgood rfl n hn, hok.1 n hn⟩) h0
    have hne : s.kids ≠ [] := by
      intro e
      rw [e] at h1
      simp at h1
      omega
    have hkept : kept b acc = [] := by
      have e1 := hb.1
      have e2 := hb.2.1
      rw [on_mk] at e1
      rw [kids_mk] at e2
      rw [kept, if_pos ⟨e2, e1⟩]
    rcases g4 with ⟨h, _⟩ | ⟨_, rfl, rfl⟩
    · exact absurd h hne
    rw [hkept, List.nil_append] at g5
    have e : (fun n => partOf How.body (whole n)) = fun n => (whole n).kids := by
      funext n; rw [partOf_body (by simp)]
    refine ⟨.mk true ns', slotSame_set rfl hok g1 g2 (by rw [show (⟨[], 0, .body⟩ : Stmt).how = .body from rfl, e]; exact g3), ?_⟩
    have hseg : segOf ⟨[], 0, .body⟩ ⟨.comp .HarmonyChordGroup, .set ⟨1, none, 1, 1⟩⟩ s = s.kids.flatMap (fun m => (whole m).kids.map (Xml.child prog)) := by
      rw [segOf_on rfl]
      have : seg How.body = fun n => (whole n).kids.map (Xml.child prog) := by
        funext n; rw [seg, partOf_body (by simp)]
      rw [this]
    rw [hseg]
    exact g5

end Mx.Content
