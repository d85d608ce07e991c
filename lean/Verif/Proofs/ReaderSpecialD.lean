import Verif.Proofs.ReaderSpecialC

/-
Parts, time modifications and metronome tuplets.
-/
open Mx.Spec
namespace Mx.Content

/-! ## `metronome-tuplet` without the third member -/

theorem metronomeTuplet_reads : ClassReads .MetronomeTuplet := by
  intro N hrd d k ss hg d0 k0 ss0 hb nm
  obtain ⟨hl, hk0, hbl⟩ := hb.slot
  have hm0 : (Cls.MetronomeTuplet).info.members[0]? = some ⟨.leaf (nm! "actual-notes") true, .one⟩ := rfl
  have hm1 : (Cls.MetronomeTuplet).info.members[1]? = some ⟨.leaf (nm! "normal-notes") true, .one⟩ := rfl
  have hm2 : (Cls.MetronomeTuplet).info.members[2]? = some ⟨.comp .TimeModificationNormalTypeNormalDot, .opt⟩ := rfl
  have hst : (Cls.MetronomeTuplet).info.stmts = [⟨[], 0, .element⟩, ⟨[], 1, .element⟩, ⟨[.flag 2], 2, .body⟩] := rfl
  obtain ⟨s00, h00⟩ := getElem?_same_length hl hm0
  obtain ⟨s01, h01⟩ := getElem?_same_length hl hm1
  obtain ⟨s02, h02⟩ := getElem?_same_length hl hm2
  obtain ⟨s0, n0, n0', t0, hs0, rfl, hw0, hnm0, hr0, hsame0⟩ := elem_one hrd hg (w := ⟨[], 0, .element⟩) (by rw [hst]; simp) rfl rfl hm0 (hbl 0 _ _ hm0 h00)
  obtain ⟨s1, n1, n1', t1, hs1, rfl, hw1, hnm1, hr1, hsame1⟩ := elem_one hrd hg (w := ⟨[], 1, .element⟩) (by rw [hst]; simp) rfl rfl hm1 (hbl 1 _ _ hm1 h01)
  obtain ⟨s2, hs2, h2⟩ := body_opt hg (w := ⟨[.flag 2], 2, .body⟩) (by rw [hst]; simp) rfl (by simp) hm2 (hbl 2 _ _ hm2 h02)
  have hr := here_readable hg
  simp only [ReadableHere, onAt] at hr
  rw [show ss[2]? = some s2 from hs2] at hr
  rcases h2 with ⟨_, _, _, _, _, _, hon, _⟩ | ⟨_, hw2, hsame2⟩
  · rw [show s2.on = false from hr] at hon; cases hon
  · generalize hself : (⟨nm, readInto prog nm d ((whole (.comp .MetronomeTuplet d k ss)).kids.map (Xml.child prog)) 3⟩ : Child) = self
    have h01' : (ss0.set 0 (.mk true [n0']))[1]? = some (.mk false [t1]) := by rw [set_get_ne (by simp)]; exact h01
    have h02' : ((ss0.set 0 (.mk true [n0'])).set 1 (.mk true [n1']))[2]? = some s02 := by rw [set_get_ne (by simp), set_get_ne (by simp)]; exact h02
    have hF : Filled .MetronomeTuplet ss (Cls.MetronomeTuplet).info.stmts ss0 (((ss0.set 0 (.mk true [n0'])).set 1 (.mk true [n1'])).set 2 s02) := by
      rw [hst]
      exact .cons (w := ⟨[], 0, .element⟩) hm0 hs0 h00 hsame0 (by simp) (.cons (w := ⟨[], 1, .element⟩) hm1 hs1 h01' hsame1 (by simp)
        (.cons (w := ⟨[.flag 2], 2, .body⟩) hm2 hs2 h02' hsame2 (by simp) .nil))
    rw [set_same h02'] at hF
    obtain ⟨f1, f2⟩ := filled_fine (d' := d) (stmts_free rfl) hg.2.1 hb rfl hF
    refine ⟨k0, _, ?_, f1, f2⟩
    have hkids : (whole (.comp .MetronomeTuplet d k ss)).kids.map (Xml.child prog) = [kidOf n0, kidOf n1] := by
      rw [whole_kids, hst, List.flatMap_cons, List.flatMap_cons, List.flatMap_singleton, List.map_append, List.map_append, hw0, hw1, hw2]
      rfl
    rw [hkids]
    have hst0 : (RStmt.elem (nm! "actual-notes") 0 true).at self (.comp .MetronomeTuplet d k0 ss0) (kidOf n0) [kidOf n1] = ⟨.comp .MetronomeTuplet d k0 (ss0.set 0 (.mk true [n0'])), true, 0, true⟩ := by
      rw [RStmt.at, hnm0, if_pos (by decide), inner_mk _ h00, hr0]
    have hst1 : (RStmt.elem (nm! "normal-notes") 1 true).at self (.comp .MetronomeTuplet d k0 (ss0.set 0 (.mk true [n0']))) (kidOf n1) [] =
        ⟨.comp .MetronomeTuplet d k0 ((ss0.set 0 (.mk true [n0'])).set 1 (.mk true [n1'])), true, 0, true⟩ := by
      rw [RStmt.at, hnm1, if_pos (by decide), inner_mk _ h01', hr1]
    have hL0 := L_seg (pre := []) (post := [.elem (nm! "normal-notes") 1 true, .elem (nm! "") 2 true]) (strict := false) (by simp) hst0 (List.drop_zero ..) (.inl rfl)
    have hL1 := L_seg (pre := [.elem (nm! "actual-notes") 0 true]) (post := [.elem (nm! "") 2 true]) (strict := false) (by
      intro p hp
      rw [List.mem_singleton.mp hp]
      exact reacts_idle (by rw [hnm1]; decide)) hst1 (List.drop_zero ..) (.inl rfl)
    rw [show prog .MetronomeTuplet = .loop none [.elem (nm! "actual-notes") 0 true, .elem (nm! "normal-notes") 1 true, .elem (nm! "") 2 true] false [] from rfl, RProg.run]
    simp only [Option.map_none, Option.getD_none, Bool.true_and, List.isEmpty_nil, Bool.true_or, Bool.and_true]
    exact hL0.trans hL1

/-! ## `time-modification` -/

def modBody : List RStmt := match prog .TimeModification with | .loop _ b _ _ => b | _ => []

theorem mod_prog : prog .TimeModification = .loop none modBody false [] := rfl

/-- The dots of the normal type. -/
theorem dots_loop {self : Child} {d dg : Str} {k kg : Nat} {rest : List Child} :
    ∀ (ns ns' : List Node) (ss ssg : List Slot) (b b2 : Bool) (acc : List Node), (∀ n ∈ ns, n.kind = .leaf (nm! "normal-dot") false) →
      (ns.map kidOf).map (fun y => y.read (make (.leaf (nm! "normal-dot") false))) = ns'.map (fun n => (n, true)) →
      ss[2]? = some (.mk b [.comp .NormalTypeNormalDotGroup dg kg ssg]) → ssg[1]? = some (.mk b2 acc) →
      ∃ b', (ns ≠ [] ∨ b = true → b' = true) ∧ L self modBody false (.comp .TimeModification d k ss) (ns.map kidOf ++ rest) =
        L self modBody false (.comp .TimeModification d k (ss.set 2 (.mk b' [.comp .NormalTypeNormalDotGroup dg kg (ssg.set 1 (.mk b2 (acc ++ ns')))]))) rest
  | [], ns', ss, ssg, b, b2, acc, _, h, h0, h1 => by
    have : ns' = [] := by simpa using h.symm
    subst this
    refine ⟨b, by simp, ?_⟩
    rw [List.append_nil, set_same h1, set_same h0]; rfl
  | n :: ns, [], ss, ssg, b, b2, acc, _, h, _, _ => by simp at h
  | n :: ns, n' :: ns', ss, ssg, b, b2, acc, hk, h, h0, h1 => by
    simp only [List.map_cons, List.cons.injEq] at h
    have hx : (kidOf n).name = nm! "normal-dot" := by rw [kidOf_name, hk n (by simp)]; rfl
    have hst : (RStmt.subAdd (nm! "normal-dot") 2 1).at self (.comp .TimeModification d k ss) (kidOf n) (ns.map kidOf ++ rest) =
        ⟨.comp .TimeModification d k (ss.set 2 (.mk true [.comp .NormalTypeNormalDotGroup dg kg (ssg.set 1 (.mk b2 (acc ++ [n'])))])), true, 0, false⟩ := by
      rw [RStmt.at, hx, beq_self, if_pos rfl]
      simp only
      rw [inner_mk _ h0, newItem_eq (c := .NormalTypeNormalDotGroup) (i := 1) rfl, h.1, Node.push, changeSlot_some h1]
      rfl
    obtain ⟨b', hb', hL'⟩ := dots_loop (self := self) (rest := rest) ns ns' (ss.set 2 (.mk true [.comp .NormalTypeNormalDotGroup dg kg (ssg.set 1 (.mk b2 (acc ++ [n'])))])) (ssg.set 1 (.mk b2 (acc ++ [n']))) true b2 (acc ++ [n'])
      (fun x hx => hk x (by simp [hx])) h.2 (set_get h0) (set_get h1)
    refine ⟨b', fun _ => hb' (.inr rfl), ?_⟩
    rw [List.map_cons, List.cons_append]
    have hL := L_seg (pre := modBody.take 3) (post := []) (strict := false) (fun p hp => reacts_idle (by
      rw [hx]
      have : (modBody.take 3).all (fun p => !p.reacts (nm! "normal-dot")) = true := by decide +kernel
      simpa using List.all_eq_true.mp this p hp)) hst (List.drop_zero ..) (.inr ⟨rfl, by simp⟩)
    rw [show modBody.take 3 ++ RStmt.subAdd (nm! "normal-dot") 2 1 :: [] = modBody from rfl] at hL
    rw [hL, hL', List.set_set, List.set_set, List.append_assoc]
    rfl

theorem serve_mod {N : Nat} {self : Child} (hrd : RdBelow N) {later : List Nat} : Serve N self modBody false .TimeModification ⟨[.flag 2], 2, .body⟩ later := by
  intro d k ss m s s0 rest hm hok hgood h0 hb hr
  have hm2 : (Cls.TimeModification).info.members[2]? = some ⟨.comp .NormalTypeNormalDotGroup, .opt⟩ := rfl
  rw [show (Cls.TimeModification).info.members[(⟨[.flag 2], 2, .body⟩ : Stmt).slot]? = _ from hm2] at hm; cases hm
  rcases one_cases (c := .TimeModification) (s := s) hm2 (.inr rfl) hb with ⟨hu, hon⟩ | ⟨hu, hsame⟩
  · obtain ⟨n, hn, hnk⟩ := ok_one (.inr rfl) hok
    obtain ⟨t, rfl, htk, htb⟩ := blank_one (.inr rfl) hb
    have hgn := hgood hu n (by rw [hn]; simp)
    obtain ⟨dn, kn, ssn, rfl⟩ := kind_comp hnk
    obtain ⟨dt, kt, sst, rfl⟩ := kind_comp htk
    obtain ⟨hl, hk0, hbl⟩ := htb.slot
    have hg0 : (Cls.NormalTypeNormalDotGroup).info.members[0]? = some ⟨.leaf (nm! "normal-type") true, .one⟩ := rfl
    have hg1 : (Cls.NormalTypeNormalDotGroup).info.members[1]? = some ⟨.leaf (nm! "normal-dot") false, .set ⟨0, none, 0, 0⟩⟩ := rfl
    have hst : (Cls.NormalTypeNormalDotGroup).info.stmts = [⟨[], 0, .element⟩, ⟨[], 1, .element⟩] := rfl
    obtain ⟨t00, h00⟩ := getElem?_same_length hl hg0
    obtain ⟨t01, h01⟩ := getElem?_same_length hl hg1
    obtain ⟨x0, n0, n0', t0, hs0, rfl, hw0, hnm0, hr0, hsame0⟩ := elem_one hrd hgn.here (w := ⟨[], 0, .element⟩) (by rw [hst]; simp) rfl rfl hg0 (hbl 0 _ _ hg0 h00)
    obtain ⟨x1, ns1, hs1, hw1, hnm1, hok1, hr1, hlen1, hsame1⟩ := elem_set hrd hgn.here (w := ⟨[], 1, .element⟩) (by rw [hst]; simp) rfl rfl hg1
    have hb1 := hbl 1 _ _ hg1 h01
    have hkk : t01.kids = [] := List.length_eq_zero_iff.mp hb1.2.1
    have h01' : (sst.set 0 (.mk true [n0']))[1]? = some (.mk t01.on []) := by
      rw [set_get_ne (by simp)]
      cases t01
      rw [kids_mk] at hkk
      subst hkk
      exact h01
    have hseg : segOf ⟨[.flag 2], 2, .body⟩ ⟨.comp .NormalTypeNormalDotGroup, .opt⟩ s = kidOf n0 :: x1.kids.map kidOf := by
      rw [segOf_on hu, hn, List.flatMap_singleton, seg, partOf_body (by simp), whole_kids, hst, List.flatMap_cons, List.flatMap_singleton, List.map_append, hw0, hw1]
      rfl
    have hst0 : (RStmt.sub 2 [(nm! "normal-type", 0, none)] false).at self (.comp .TimeModification d k ss) (kidOf n0) (x1.kids.map kidOf ++ rest) =
        ⟨.comp .TimeModification d k (ss.set 2 (.mk true [.comp .NormalTypeNormalDotGroup dt kt (sst.set 0 (.mk true [n0']))])), true, 0, false⟩ := by
      rw [RStmt.at, hnm0, show field [(nm! "normal-type", 0, none)] (kindName (.leaf (nm! "normal-type") true)) = some (0, none) from rfl]
      simp only
      rw [inner_mk _ h0, Node.readField, inner_mk _ h00, hr0]
      rfl
    have hL := L_seg (pre := modBody.take 2) (post := modBody.drop 3) (strict := false) (fun p hp => reacts_idle (by
      rw [hnm0]
      have : (modBody.take 2).all (fun p => !p.reacts (nm! "normal-type")) = true := by decide +kernel
      simpa [kindName] using List.all_eq_true.mp this p hp)) hst0 (List.drop_zero ..) (.inr ⟨rfl, fun p hp => reacts_idle (by
      rw [hnm0]
      have : (modBody.drop 3).all (fun p => !p.reacts (nm! "normal-type")) = true := by decide +kernel
      simpa [kindName] using List.all_eq_true.mp this p hp)⟩)
    rw [show modBody.take 2 ++ RStmt.sub 2 [(nm! "normal-type", 0, none)] false :: modBody.drop 3 = modBody from rfl] at hL
    obtain ⟨b', hb', hL'⟩ := dots_loop (self := self) (d := d) (k := k) (rest := rest) x1.kids ns1 (ss.set 2 (.mk true [.comp .NormalTypeNormalDotGroup dt kt (sst.set 0 (.mk true [n0']))])) (sst.set 0 (.mk true [n0'])) true t01.on [] hok1.1 hr1 (set_get h0) h01'
    have hF : Filled .NormalTypeNormalDotGroup ssn (Cls.NormalTypeNormalDotGroup).info.stmts sst ((sst.set 0 (.mk true [n0'])).set 1 (.mk t01.on ns1)) := by
      rw [hst]
      exact .cons (w := ⟨[], 0, .element⟩) hg0 hs0 h00 hsame0 (by simp) (.cons (w := ⟨[], 1, .element⟩) hg1 hs1 h01' (hsame1 _) (by simp) .nil)
    obtain ⟨f1, f2⟩ := filled_fine (d' := dt) (stmts_free rfl) hgn.2.1 htb rfl hF
    refine ⟨.mk true [.comp .NormalTypeNormalDotGroup dt kt ((sst.set 0 (.mk true [n0'])).set 1 (.mk t01.on ns1))], slotSame_one (.inr rfl) hn hon rfl f1 (by rw [partOf_body (by simp), partOf_body (by simp), f2]), ?_⟩
    rw [hseg, List.cons_append, hL, hL', hb' (.inr rfl), List.set_set]
    rfl
  · refine ⟨s0, hsame _, ?_⟩
    rw [segOf_off hu, List.nil_append, set_same h0]

theorem timeModification_reads : ClassReads .TimeModification :=
  class_loop mod_prog (stmts_free rfl) (fun _ _ _ _ _ => .inl rfl)
    (fun _ _ hrd => serveAll_but hrd (a := [⟨[], 0, .element⟩, ⟨[], 1, .element⟩]) (b := []) rfl (serve_mod hrd) (by decide +kernel))

/-! ## `score-part`: the devices and instruments -/

/-- An object without a choice whose members are as they should be. -/
theorem fine_of_slots {c : Cls} {d : Str} {k : Nat} {ss : List Slot} (hc : c.info.choices = 0) (hns : c ≠ .Sound) (hl : ss.length = c.info.members.length)
    (h : ∀ i m s, c.info.members[i]? = some m → ss[i]? = some s → SlotOk wide c i m s ∧ ∀ n ∈ s.kids, Fine n) : Fine (.comp c d k ss) := by
  have hk : ∀ s ∈ ss, ∀ n ∈ s.kids, Fine n := by
    intro s hs n hn
    obtain ⟨i, hi⟩ := List.getElem?_of_mem hs
    obtain ⟨m, hm⟩ := getElem?_same_length hl.symm hi
    exact (h i m s hm hi).2 n hn
  exact ⟨.comp c d k ss ⟨hl, fun i m s hm hs => (h i m s hm hs).1, .inl hc⟩ (fun s hs n hn => (hk s hs n hn).1), .comp c d k ss (fun e => absurd e hns) (fun s hs n hn => (hk s hs n hn).2)⟩

/-- Devices and instruments. -/
def MidiKid (m : Node) : Prop := (m.kind = .leaf (nm! "midi-device") true ∨ m.kind = .comp .MidiInstrument) ∧ Reads (kidOf m) m

def MidiGroup (n : Node) : Prop := n.kind = .comp .MidiDeviceInstrumentGroup ∧ Fine n

theorem midi_new : ∃ d k, ∃ a b : Node, make (.comp .MidiDeviceInstrumentGroup) = .comp .MidiDeviceInstrumentGroup d k [.mk false [a], .mk false [b]] ∧ Blank a ∧
    a.kind = .leaf (nm! "midi-device") true ∧ Blank b ∧ b.kind = .comp .MidiInstrument := by
  have hb := make_blank .MidiDeviceInstrumentGroup
  obtain ⟨d, k, ss, e⟩ := kind_comp (make_kind (.comp .MidiDeviceInstrumentGroup))
  rw [e] at hb ⊢
  obtain ⟨hl, _, hbl⟩ := hb.slot
  have hm0 : (Cls.MidiDeviceInstrumentGroup).info.members[0]? = some ⟨.leaf (nm! "midi-device") true, .opt⟩ := rfl
  have hm1 : (Cls.MidiDeviceInstrumentGroup).info.members[1]? = some ⟨.comp .MidiInstrument, .opt⟩ := rfl
  have hxy : ∃ x y, ss = [x, y] := by
    match ss, (show ss.length = 2 from hl) with
    | [x, y], _ => exact ⟨x, y, rfl⟩
  obtain ⟨x, y, rfl⟩ := hxy
  obtain ⟨a, rfl, ha1, ha2⟩ := blank_one (.inr rfl) (hbl 0 _ _ hm0 rfl)
  obtain ⟨b, rfl, hb1, hb2⟩ := blank_one (.inr rfl) (hbl 1 _ _ hm1 rfl)
  exact ⟨d, k, a, b, rfl, ha2, ha1, hb2, hb1⟩

/-- What a group of the two kinds writes. -/
theorem midi_group {d : Str} {k : Nat} {p q : Bool} {a b : Node} (hak : a.kind = .leaf (nm! "midi-device") true) (hbk : b.kind = .comp .MidiInstrument) (ha : Fine a) (hb : Fine b) :
    MidiGroup (.comp .MidiDeviceInstrumentGroup d k [.mk p [a], .mk q [b]]) ∧
    (whole (.comp .MidiDeviceInstrumentGroup d k [.mk p [a], .mk q [b]])).kids = (if p then [(whole a).element] else []) ++ (if q then [(whole b).element] else []) := by
  have hst : (Cls.MidiDeviceInstrumentGroup).info.stmts = [⟨[.self, .flag 0], 0, .element⟩, ⟨[.self, .flag 1], 1, .element⟩] := rfl
  have hm0 : (Cls.MidiDeviceInstrumentGroup).info.members[0]? = some ⟨.leaf (nm! "midi-device") true, .opt⟩ := rfl
  have hm1 : (Cls.MidiDeviceInstrumentGroup).info.members[1]? = some ⟨.comp .MidiInstrument, .opt⟩ := rfl
  refine ⟨⟨rfl, fine_of_slots rfl (by simp) rfl ?_⟩, ?_⟩
  · intro i m s hm hs
    rcases i with _ | _ | i
    · rw [hm0] at hm; cases hm
      simp at hs; subst hs
      exact ⟨⟨by simp [kids_mk, hak], by simp [kids_mk]⟩, by simpa [kids_mk] using ha⟩
    · rw [hm1] at hm; cases hm
      simp at hs; subst hs
      exact ⟨⟨by simp [kids_mk, hbk], by simp [kids_mk]⟩, by simpa [kids_mk] using hb⟩
    · simp at hs
  · rw [whole_kids, hst, List.flatMap_cons, List.flatMap_singleton, wholeStmt_part (s := .mk p [a]) rfl, wholeStmt_part (s := .mk q [b]) rfl]
    simp only [hm0, hm1, inUse_opt, on_mk]
    cases p <;> cases q <;> simp [inChoice, kids_mk, partOf]

section
variable {d : Str} {k : Nat} {a b : Node}

theorem midi_device (ha : Blank a) (hak : a.kind = .leaf (nm! "midi-device") true) {m : Node} (hm : m.kind = .leaf (nm! "midi-device") true) (hR : Reads (kidOf m) m) (s : Slot) :
    ∃ a', (Node.comp .MidiDeviceInstrumentGroup d k [.mk false [a], s]).inner 0 (kidOf m).read = (.comp .MidiDeviceInstrumentGroup d k [.mk true [a'], s], true) ∧
      a'.kind = .leaf (nm! "midi-device") true ∧ Fine a' ∧ (whole a').element = (whole m).element := by
  obtain ⟨a', e1, e2, e3, e4⟩ := hR.read a ha (by rw [hak, hm])
  refine ⟨a', ?_, by rw [e2, hm], e4, e3⟩
  rw [inner_mk (b := false) (t := a) (ts := []) _ rfl, e1]
  rfl

theorem midi_instrument (hb : Blank b) (hbk : b.kind = .comp .MidiInstrument) {m : Node} (hm : m.kind = .comp .MidiInstrument) (hR : Reads (kidOf m) m) (s : Slot) :
    ∃ b', (Node.comp .MidiDeviceInstrumentGroup d k [s, .mk false [b]]).inner 1 (kidOf m).read = (.comp .MidiDeviceInstrumentGroup d k [s, .mk true [b']], true) ∧
      b'.kind = .comp .MidiInstrument ∧ Fine b' ∧ (whole b').element = (whole m).element := by
  obtain ⟨b', e1, e2, e3, e4⟩ := hR.read b hb (by rw [hbk, hm])
  refine ⟨b', ?_, by rw [e2, hm], e4, e3⟩
  rw [inner_mk (b := false) (t := b) (ts := []) _ rfl, e1]
  rfl

end

theorem device_name {m : Node} (h : m.kind = .leaf (nm! "midi-device") true) : Nat.beq (kidOf m).name (nm! "midi-device") = true := by
  rw [kidOf_name, h]; decide

theorem instrument_name {m : Node} (h : m.kind = .comp .MidiInstrument) : Nat.beq (kidOf m).name (nm! "midi-device") = false ∧ Nat.beq (kidOf m).name (nm! "midi-instrument") = true := by
  rw [kidOf_name, h]; decide +kernel

theorem device_name' {m : Node} (h : m.kind = .leaf (nm! "midi-device") true) : Nat.beq (kidOf m).name (nm! "midi-instrument") = false := by
  rw [kidOf_name, h]; decide

theorem forall_cons {P : Node → Prop} {n : Node} {ns : List Node} (h : P n) (hs : ∀ x ∈ ns, P x) : ∀ x ∈ n :: ns, P x := by
  intro x hx
  rcases List.mem_cons.mp hx with rfl | hx
  · exact h
  · exact hs x hx

theorem midi_all : ∀ (ms : List Node), (∀ m ∈ ms, MidiKid m) →
    ∃ ns' : List Node, midiGroups (make (.comp .MidiDeviceInstrumentGroup)) (ms.map kidOf) = (ns', true, ms.length) ∧ (∀ n ∈ ns', MidiGroup n) ∧
      ns'.flatMap (fun n => (whole n).kids) = ms.map (fun m => (whole m).element)
  | [], _ => ⟨[], rfl, by simp, rfl⟩
  | [m], h => by
    obtain ⟨d, k, a, b, hmk, ha, hak, hb, hbk⟩ := midi_new
    rw [hmk]
    obtain ⟨hkind, hR⟩ := h m (by simp)
    rcases hkind with hkind | hkind
    · obtain ⟨a', e1, e2, e3, e4⟩ := midi_device (d := d) (k := k) ha hak hkind hR (.mk false [b])
      obtain ⟨g1, g2⟩ := midi_group (d := d) (k := k) (p := true) (q := false) e2 hbk e3 (blank_fine hb)
      refine ⟨[_], ?_, forall_cons g1 (by simp), by rw [List.flatMap_singleton, g2]; simp [e4]⟩
      simp only [List.map_cons, List.map_nil, midiGroups, device_name hkind, if_true, e1, List.length_singleton]
    · obtain ⟨b', e1, e2, e3, e4⟩ := midi_instrument (d := d) (k := k) hb hbk hkind hR (.mk false [a])
      obtain ⟨g1, g2⟩ := midi_group (d := d) (k := k) (p := false) (q := true) hak e2 (blank_fine ha) e3
      refine ⟨[_], ?_, forall_cons g1 (by simp), by rw [List.flatMap_singleton, g2]; simp [e4]⟩
      simp only [List.map_cons, List.map_nil, midiGroups, instrument_name hkind, if_true, e1, List.length_singleton, Bool.false_eq_true, if_false]
  | m :: m' :: ms, h => by
    obtain ⟨d, k, a, b, hmk, ha, hak, hb, hbk⟩ := midi_new
    obtain ⟨hkind, hR⟩ := h m (by simp)
    obtain ⟨hkind', hR'⟩ := h m' (by simp)
    rcases hkind with hkind | hkind
    · obtain ⟨a', e1, e2, e3, e4⟩ := midi_device (d := d) (k := k) ha hak hkind hR (.mk false [b])
      rcases hkind' with hkind' | hkind'
      · obtain ⟨ns', h1, h2, h3⟩ := midi_all (m' :: ms) (fun x hx => h x (by simp only [List.mem_cons] at hx ⊢; exact .inr hx))
        obtain ⟨g1, g2⟩ := midi_group (d := d) (k := k) (p := true) (q := false) e2 hbk e3 (blank_fine hb)
        rw [hmk, List.map_cons] at h1
        rw [hmk]
        refine ⟨_ :: ns', ?_, forall_cons g1 h2, by rw [List.flatMap_cons, g2, h3]; simp [e4]⟩
        simp only [List.map_cons, midiGroups, device_name hkind, device_name' hkind', if_true, Bool.false_eq_true, if_false, e1, h1, List.length_cons, Bool.true_and]
      · obtain ⟨ns', h1, h2, h3⟩ := midi_all ms (fun x hx => h x (by simp only [List.mem_cons] at hx ⊢; exact .inr (.inr hx)))
        obtain ⟨b', q1, q2, q3, q4⟩ := midi_instrument (d := d) (k := k) hb hbk hkind' hR' (.mk true [a'])
        obtain ⟨g1, g2⟩ := midi_group (d := d) (k := k) (p := true) (q := true) e2 q2 e3 q3
        rw [hmk] at h1 ⊢
        refine ⟨_ :: ns', ?_, forall_cons g1 h2, by rw [List.flatMap_cons, g2, h3]; simp [e4, q4]⟩
        simp only [List.map_cons, midiGroups, device_name hkind, instrument_name hkind', if_true, e1, q1, h1, List.length_cons, Bool.true_and]
    · obtain ⟨ns', h1, h2, h3⟩ := midi_all (m' :: ms) (fun x hx => h x (by simp only [List.mem_cons] at hx ⊢; exact .inr hx))
      obtain ⟨b', e1, e2, e3, e4⟩ := midi_instrument (d := d) (k := k) hb hbk hkind hR (.mk false [a])
      obtain ⟨g1, g2⟩ := midi_group (d := d) (k := k) (p := false) (q := true) hak e2 (blank_fine ha) e3
      rw [hmk, List.map_cons] at h1
      rw [hmk]
      refine ⟨_ :: ns', ?_, forall_cons g1 h2, by rw [List.flatMap_cons, g2, h3]; simp [e4]⟩
      simp only [List.map_cons, midiGroups, instrument_name hkind, if_true, Bool.false_eq_true, if_false, e1, h1, List.length_cons, Bool.true_and]

/-- The devices and instruments in a group that is there. -/
theorem midi_kids {N : Nat} (hrd : RdBelow N) {n : Node} (hg : Good N n) (hk : n.kind = .comp .MidiDeviceInstrumentGroup) :
    ∃ ms : List Node, (∀ m ∈ ms, MidiKid m) ∧ (whole n).kids = ms.map (fun m => (whole m).element) := by
  obtain ⟨d, k, ss, rfl⟩ := kind_comp hk
  have hst : (Cls.MidiDeviceInstrumentGroup).info.stmts = [⟨[.self, .flag 0], 0, .element⟩, ⟨[.self, .flag 1], 1, .element⟩] := rfl
  have key : ∀ w ∈ (Cls.MidiDeviceInstrumentGroup).info.stmts, ∃ ms : List Node, (∀ m ∈ ms, MidiKid m) ∧ wholeStmt .MidiDeviceInstrumentGroup k (wholeSlots ss) w = ms.map (fun m => (whole m).element) := by
    intro w hw
    obtain ⟨m, s, hm, hs, hok, hgood⟩ := good_slot hg.here hw (free_inChoice (stmts_free rfl w hw) k)
    have hh : w.how = .element ∧ (m.kind = .leaf (nm! "midi-device") true ∨ m.kind = .comp .MidiInstrument) := by
      rw [hst] at hw
      simp only [List.mem_cons, List.not_mem_nil, or_false] at hw
      rcases hw with rfl | rfl
      · rw [show (Cls.MidiDeviceInstrumentGroup).info.members[(⟨[.self, .flag 0], 0, .element⟩ : Stmt).slot]? = some ⟨.leaf (nm! "midi-device") true, .opt⟩ from rfl] at hm
        cases hm; exact ⟨rfl, .inl rfl⟩
      · rw [show (Cls.MidiDeviceInstrumentGroup).info.members[(⟨[.self, .flag 1], 1, .element⟩ : Stmt).slot]? = some ⟨.comp .MidiInstrument, .opt⟩ from rfl] at hm
        cases hm; exact ⟨rfl, .inr rfl⟩
    rw [wholeStmt_part hs, hm, free_inChoice (stmts_free rfl w hw) k, Bool.true_and, hh.1]
    by_cases hu : inUse (some m) s.on = true
    · refine ⟨s.kids, ?_, ?_⟩
      · intro x hx
        have hxk := hok.1 x hx
        refine ⟨by rw [hxk]; exact hh.2, hrd x (hgood hu x hx) ?_⟩
        rw [hxk]
        exact stmt_named hw hm hh.1
      · rw [if_pos hu]
        simp only [partOf]
        induction s.kids with
        | nil => rfl
        | cons y ys ih => simp [List.flatMap_cons, ih]
    · exact ⟨[], by simp, by rw [if_neg hu]; rfl⟩
  rw [whole_kids, hst, List.flatMap_cons, List.flatMap_singleton]
  obtain ⟨m1, h1, e1⟩ := key _ (by rw [hst]; exact List.mem_cons_self ..)
  obtain ⟨m2, h2, e2⟩ := key ⟨[.self, .flag 1], 1, .element⟩ (by rw [hst]; simp)
  refine ⟨m1 ++ m2, ?_, by rw [e1, e2, List.map_append]⟩
  intro x hx
  rcases List.mem_append.mp hx with hx | hx
  · exact h1 x hx
  · exact h2 x hx

theorem midi_kids_all {N : Nat} (hrd : RdBelow N) : ∀ (ns : List Node), (∀ n ∈ ns, Good N n ∧ n.kind = .comp .MidiDeviceInstrumentGroup) →
    ∃ ms : List Node, (∀ m ∈ ms, MidiKid m) ∧ ns.flatMap (fun n => (whole n).kids) = ms.map (fun m => (whole m).element)
  | [], _ => ⟨[], by simp, rfl⟩
  | n :: ns, h => by
    obtain ⟨m1, h1, e1⟩ := midi_kids hrd (h n (by simp)).1 (h n (by simp)).2
    obtain ⟨m2, h2, e2⟩ := midi_kids_all hrd ns (fun x hx => h x (by simp [hx]))
    refine ⟨m1 ++ m2, ?_, by rw [List.flatMap_cons, e1, e2, List.map_append]⟩
    intro x hx
    rcases List.mem_append.mp hx with hx | hx
    · exact h1 x hx
    · exact h2 x hx

def scorePartBody : List RStmt := match prog .ScorePart with | .loop _ b _ _ => b | _ => []

theorem scorePart_prog : prog .ScorePart = .loop none scorePartBody false [] := rfl

theorem serve_midi {N : Nat} {self : Child} (hrd : RdBelow N) : Serve N self scorePartBody false .ScorePart ⟨[], 7, .bodyIf⟩ [] := by
  intro d k ss m s s0 rest hm hok hgood h0 hb hr
  have hrest : rest = [] := by
    cases rest with
    | nil => rfl
    | cons x xs => have := hr x (by simp); cases this
  subst hrest
  have hm7 : (Cls.ScorePart).info.members[7]? = some ⟨.comp .MidiDeviceInstrumentGroup, .set ⟨0, none, 0, 0⟩⟩ := rfl
  rw [show (Cls.ScorePart).info.members[(⟨[], 7, .bodyIf⟩ : Stmt).slot]? = _ from hm7] at hm; cases hm
  have hkk : s0.kids = [] := List.length_eq_zero_iff.mp hb.2.1
  obtain ⟨ms, hms, hes⟩ := midi_kids_all hrd s.kids (fun n hn => ⟨hgood rfl n hn, hok.1 n hn⟩)
  obtain ⟨ns', g1, g2, g3⟩ := midi_all ms hms
  have hseg : segOf ⟨[], 7, .bodyIf⟩ ⟨.comp .MidiDeviceInstrumentGroup, .set ⟨0, none, 0, 0⟩⟩ s = ms.map kidOf := by
    rw [segOf_on rfl]
    have : (seg (⟨[], 7, .bodyIf⟩ : Stmt).how) = fun n => (whole n).kids.map (Xml.child prog) := by
      funext n; rfl
    rw [this, ← List.map_flatMap, hes, List.map_map]
    rfl
  have hS : SlotSame .ScorePart 7 ⟨.comp .MidiDeviceInstrumentGroup, .set ⟨0, none, 0, 0⟩⟩ .bodyIf s (.mk s0.on ns') := {
    ok := ⟨fun n hn => (g2 n hn).1, by
      have h1 : wide.lo .ScorePart 7 = 0 := by decide +kernel
      have h2 : wide.hi .ScorePart 7 = none := by decide +kernel
      simp only [h1, h2]
      simp⟩
    fine := fun n hn => (g2 n hn).2
    on := fun h => by cases h
    seen := fun h => by cases h
    text := fun _ => by
      simp only [kids_mk, partOf]
      rw [g3, hes] }
  refine ⟨.mk s0.on ns', hS, ?_⟩
  rw [hseg, List.append_nil]
  cases ms with
  | nil =>
    have : ns' = [] := by
      have := congrArg (·.1) g1
      simpa [midiGroups] using this.symm
    subst this
    have : s0 = .mk s0.on [] := by
      cases s0; rw [kids_mk] at hkk; rw [hkk]; rfl
    rw [← this, set_same h0]
    rfl
  | cons x xs =>
    have hx := hms x (by simp)
    have hnm : (kidOf x).name = nm! "midi-device" ∨ (kidOf x).name = nm! "midi-instrument" := by
      rcases hx.1 with h | h
      · exact .inl (Nat.eq_of_beq_eq_true (device_name h))
      · exact .inr (Nat.eq_of_beq_eq_true (instrument_name h).2)
    have hst : (RStmt.midi 7).at self (.comp .ScorePart d k ss) (kidOf x) (xs.map kidOf) = ⟨.comp .ScorePart d k (ss.set 7 (.mk s0.on ns')), true, xs.length, false⟩ := by
      rw [List.map_cons] at g1
      rw [RStmt.at, newItem_eq (c := .ScorePart) (i := 7) rfl, g1]
      simp only [List.length_cons, Nat.add_eq_zero_iff, Nat.one_ne_zero, and_false, if_false, Node.changeItems, changeSlot_some h0, hkk, List.nil_append, Nat.add_sub_cancel]
    have hlast : ∃ l z, (x :: xs).map kidOf = l ++ [z] := ⟨_, _, (List.dropLast_concat_getLast (by simp)).symm⟩
    obtain ⟨l, z, hlz⟩ := hlast
    have hlen : xs.length = l.length := by
      have := congrArg List.length hlz
      simpa using this
    have hL := L_seg (pre := scorePartBody.take 7) (post := []) (y := z) (rest := []) (strict := false) (fun p hp => reacts_idle (by
      have h1 : (scorePartBody.take 7).all (fun p => !p.reacts (nm! "midi-device")) = true := by decide +kernel
      have h2 : (scorePartBody.take 7).all (fun p => !p.reacts (nm! "midi-instrument")) = true := by decide +kernel
      rcases hnm with h | h
      · rw [h]; simpa using List.all_eq_true.mp h1 p hp
      · rw [h]; simpa using List.all_eq_true.mp h2 p hp)) hst (by rw [← List.map_cons, hlz, hlen]; exact List.drop_left) (.inr ⟨rfl, by simp⟩)
    exact hL

theorem scorePart_reads : ClassReads .ScorePart :=
  class_loop scorePart_prog (stmts_free rfl) (fun _ _ _ _ _ => .inl rfl)
    (fun _ _ hrd => serveAll_but hrd (a := (Cls.ScorePart).info.stmts.take 7) (b := []) (v := ⟨[], 7, .bodyIf⟩) rfl (serve_midi hrd) (by decide +kernel))

end Mx.Content
