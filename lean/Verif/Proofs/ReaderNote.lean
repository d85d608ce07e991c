import Verif.Proofs.ReaderParts

/-
Notes.
-/
open Mx.Spec
namespace Mx.Content

/-! ## Chord, pitch, unpitched, rest -/

def fullFields : List Field := [(nm! "pitch", 0, some 0), (nm! "unpitched", 1, some 1), (nm! "rest", 2, some 2)]

theorem fullNote_plain {g : Node} {y : Child} {ys : List Child} (h : Nat.beq y.name (nm! "chord") = false) {f : Nat × Option Nat} (hf : field fullFields y.name = some f) :
    fullNote g (y :: ys) = ⟨(g.inner 1 (fun c => c.readField f y)).1, (g.inner 1 (fun c => c.readField f y)).2, 1⟩ := by
  simp only [fullNote, h, Bool.false_eq_true, if_false]
  rw [show field [(nm! "pitch", 0, some 0), (nm! "unpitched", 1, some 1), (nm! "rest", 2, some 2)] y.name = some f from hf]

theorem fullNote_chord {g : Node} {x y : Child} {ys : List Child} (h : Nat.beq x.name (nm! "chord") = true) {f : Nat × Option Nat} (hf : field fullFields y.name = some f) :
    fullNote g (x :: y :: ys) = ⟨((g.changeItems 0 (fun s => .mk true s.kids)).inner 1 (fun c => c.readField f y)).1,
      ((g.changeItems 0 (fun s => .mk true s.kids)).inner 1 (fun c => c.readField f y)).2, 2⟩ := by
  simp only [fullNote, h, if_true]
  rw [show field [(nm! "pitch", 0, some 0), (nm! "unpitched", 1, some 1), (nm! "rest", 2, some 2)] y.name = some f from hf]

theorem field_ne {fs : List Field} {name other : Nat} {f : Nat × Option Nat} (h : field fs name = some f) (hn : field fs other = none) : Nat.beq name other = false :=
  beq_ne (fun e => by rw [e, hn] at h; cases h)

theorem fullNote_reads (last : List Nat) : GroupReads .FullNoteGroup last fullNote := by
  intro N hrd d k ss hg d0 k0 ss0 hb rest _
  obtain ⟨hl, hk0, hbl⟩ := hb.slot
  have hm0 : (Cls.FullNoteGroup).info.members[0]? = some ⟨.leaf (nm! "chord") false, .opt⟩ := rfl
  have hm1 : (Cls.FullNoteGroup).info.members[1]? = some ⟨.comp .FullNoteTypeChoice, .one⟩ := rfl
  obtain ⟨s00, h00⟩ := getElem?_same_length hl hm0
  obtain ⟨s01, h01⟩ := getElem?_same_length hl hm1
  obtain ⟨s0, hs0, hcase⟩ := elem_opt (w := ⟨[.flag 0], 0, .element⟩) hrd hg.here (by simp [Cls.info, c_FullNoteGroup]) rfl rfl hm0 (hbl _ _ _ hm0 h00)
  obtain ⟨s1, dn, kn, ssn, dt, kt, sst, hs1, rfl, hbt, hgn, hkids1, hw1, hsame1⟩ := body_one (w := ⟨[], 1, .body⟩) hg.here (by simp [Cls.info, c_FullNoteGroup]) rfl (by simp) hm1 (hbl _ _ _ hm1 h01)
  obtain ⟨x, hx, f, hf, hread⟩ := choice_reads (fs := fullFields) hrd hgn (by simp) (by
    obtain ⟨d', k', ss', e, h⟩ := choices_of (choices_ok (fs := fullFields) (by decide +kernel)) hgn rfl
    cases e; exact h)
  obtain ⟨n1, e1, e2, e3, e4⟩ := hread _ hbt rfl
  have hbeq := field_ne hf (other := nm! "chord") rfl
  have hS1 := hsame1 true n1 e2 e4 e3
  have hstmts : (Cls.FullNoteGroup).info.stmts = [⟨[.flag 0], 0, .element⟩, ⟨[], 1, .body⟩] := rfl
  have hK : (whole (.comp .FullNoteGroup d k ss)).kids.map (Xml.child prog) = (wholeStmt .FullNoteGroup k (wholeSlots ss) ⟨[.flag 0], 0, .element⟩).map (Xml.child prog) ++ [x] := by
    rw [whole_kids, hstmts]
    simp only [List.flatMap_cons, List.flatMap_nil, List.append_nil, List.map_append]
    rw [hw1, hx]
  rw [← List.length_map (f := Xml.child prog), hK]
  rcases hcase with ⟨n, _, t, hon, hkn, rfl, hw0, hname, _, _⟩ | ⟨_, hw0, hS0⟩
  · -- with `chord`
    have hread := here_readable hg.here
    simp only [ReadableHere, onAt, kidsAt, hs0, Option.map_some, Option.getD_some, hon, hkn] at hread
    obtain ⟨tn, hn, rfl⟩ := hread trivial n (by simp)
    have hbt' := hbl _ _ _ hm0 h00
    obtain ⟨t', ht', htk, htb⟩ := blank_one (.inr rfl) hbt'
    cases ht'
    have hok := (good_slot hg.here (w := ⟨[.flag 0], 0, .element⟩) (by simp [Cls.info, c_FullNoteGroup]) rfl)
    obtain ⟨m', s', hm', hs', hok, _⟩ := hok
    rw [show (Cls.FullNoteGroup).info.members[(⟨[.flag 0], 0, .element⟩ : Stmt).slot]? = _ from hm0] at hm'; cases hm'
    rw [show ss[(⟨[.flag 0], 0, .element⟩ : Stmt).slot]? = _ from hs0] at hs'; cases hs'
    have hkk : (Node.leaf tn hn []).kind = .leaf (nm! "chord") false := hok.1 _ (by rw [hkn]; simp)
    have ht : t = .leaf tn hn [] := by
      cases htb with
      | leaf a b _ =>
        simp only [Node.kind] at htk hkk
        rw [← hkk] at htk
        cases htk; rfl
      | comp => simp [Node.kind] at htk
    subst ht
    have hS0 : SlotSame .FullNoteGroup 0 ⟨.leaf (nm! "chord") false, .opt⟩ .element s0 (.mk true [.leaf tn hn []]) :=
      slotSame_one (.inr rfl) hkn (fun _ => hon) hkk (blank_fine htb) rfl
    have hF : Filled .FullNoteGroup ss (Cls.FullNoteGroup).info.stmts ss0 ((ss0.set 0 (.mk true [.leaf tn hn []])).set 1 (.mk true [n1])) := by
      rw [hstmts]
      exact .cons (w := ⟨[.flag 0], 0, .element⟩) hm0 hs0 h00 hS0 (by simp)
        (.cons (w := ⟨[], 1, .body⟩) hm1 hs1 (by rw [set_get_ne (by simp)]; exact h01) hS1 (by simp) .nil)
    obtain ⟨f1, f2⟩ := filled_fine (d' := d0) (stmts_free rfl) hg.2.1 hb rfl hF
    refine ⟨_, ?_, rfl, f1, f2⟩
    rw [hw0]
    simp only [List.cons_append, List.nil_append]
    rw [fullNote_chord (by rw [hname]; exact beq_self _) hf]
    simp only [Node.changeItems, changeSlot_some h00, kids_mk]
    rw [inner_mk _ (by rw [set_get_ne (by simp)]; exact h01), e1]
    rfl
  · have hF : Filled .FullNoteGroup ss (Cls.FullNoteGroup).info.stmts ss0 ((ss0.set 0 s00).set 1 (.mk true [n1])) := by
      rw [hstmts]
      exact .cons (w := ⟨[.flag 0], 0, .element⟩) hm0 hs0 h00 hS0 (by simp)
        (.cons (w := ⟨[], 1, .body⟩) hm1 hs1 (by rw [set_get_ne (by simp)]; exact h01) hS1 (by simp) .nil)
    rw [set_same h00] at hF
    obtain ⟨f1, f2⟩ := filled_fine (d' := d0) (stmts_free rfl) hg.2.1 hb rfl hF
    refine ⟨_, ?_, rfl, f1, f2⟩
    rw [hw0]
    simp only [List.nil_append, List.cons_append]
    rw [fullNote_plain hbeq hf, inner_mk _ h01, e1]
    rfl

theorem full_head {N : Nat} {d : Str} {k : Nat} {ss : List Slot} (hg : Good N (.comp .FullNoteGroup d k ss)) :
    ∃ x xs, (whole (.comp .FullNoteGroup d k ss)).kids.map (Xml.child prog) = x :: xs ∧ [nm! "chord", nm! "pitch", nm! "unpitched", nm! "rest"].any (Nat.beq x.name) = true := by
  have hm1 : (Cls.FullNoteGroup).info.members[1]? = some ⟨.comp .FullNoteTypeChoice, .one⟩ := rfl
  obtain ⟨s1, dn, kn, ssn, dt, kt, sst, hs1, _, hbt, hgn, hkids1, hw1, hsame1⟩ := body_one (w := ⟨[], 1, .body⟩) hg.here (by simp [Cls.info, c_FullNoteGroup]) rfl (by simp) hm1
    (s0 := .mk false [make (.comp .FullNoteTypeChoice)]) ⟨rfl, rfl, by intro x hx; rw [kids_mk, List.mem_singleton] at hx; subst hx; exact ⟨make_kind _, make_blank _⟩⟩
  obtain ⟨w, m, hf, hh, hm, hmult, hfield⟩ := choiceOk_cases (show choiceOk .FullNoteTypeChoice fullFields kn = true by
    obtain ⟨d', k', ss', e, h⟩ := choices_of (choices_ok (fs := fullFields) (by decide +kernel)) hgn rfl
    cases e; exact h)
  have hne : (whole (.comp .FullNoteGroup d k ss)).kids.map (Xml.child prog) ≠ [] := by
    rw [whole_kids, show (Cls.FullNoteGroup).info.stmts = [⟨[.flag 0], 0, .element⟩, ⟨[], 1, .body⟩] from rfl]
    simp only [List.flatMap_cons, List.flatMap_nil, List.append_nil, List.map_append]
    rw [hw1, whole_kids_choice, hf]
    have hw : w ∈ (Cls.FullNoteTypeChoice).info.stmts ∧ inChoice kn w = true := List.mem_filter.mp (by rw [hf]; simp)
    obtain ⟨m', s, hm', hs, hok, _⟩ := good_slot hgn.here hw.1 hw.2
    rw [hm] at hm'; cases hm'
    obtain ⟨n, hn, _⟩ := ok_one (.inl hmult) hok
    rw [List.flatMap_singleton, segOf_eq hm hs hw.2, segOf_on (inUse_one (by rw [hmult]; simp) _), hn]
    simp [hh, seg_element]
  obtain ⟨x, xs, hx⟩ := List.exists_cons_of_ne_nil hne
  refine ⟨x, xs, hx, ?_⟩
  have hmem : x ∈ (whole (.comp .FullNoteGroup d k ss)).kids.map (Xml.child prog) := by rw [hx]; simp
  obtain ⟨y, hy, rfl⟩ := List.mem_map.mp hmem
  have := bodyNames_of 7 _ (deep_all _) d k ss hg.2.1.1 y hy
  rw [child_name]
  have hb : bodyNames 7 .FullNoteGroup = [nm! "chord", nm! "pitch", nm! "unpitched", nm! "rest"] := by decide +kernel
  rw [hb] at this
  exact List.any_eq_true.mpr ⟨_, this, beq_self _⟩

/-! ## Ties -/

theorem addTies_all {c : Cls} {i : Nat} {m : Member} {sc : SetCode} (hm : c.info.members[i]? = some m) (hmult : m.mult = .set sc) {d : Str} {k : Nat} :
    ∀ (xs : List Child) (ns : List Node) (ss : List Slot) (b : Bool) (acc : List Node), xs.map (fun y => y.read (make m.kind)) = ns.map (fun n => (n, true)) →
      (∀ h, sc.most = some h → acc.length + ns.length ≤ h) → ss[i]? = some (.mk b acc) →
      addTies (.comp c d k ss) i xs = (.comp c d k (ss.set i (.mk b (acc ++ ns))), true)
  | [], ns, ss, b, acc, h, _, h0 => by
    have : ns = [] := by simpa using h.symm
    subst this
    rw [addTies, List.append_nil, set_same h0]
  | x :: xs, [], ss, b, acc, h, _, _ => by simp at h
  | x :: xs, n :: ns, ss, b, acc, h, hmost, h0 => by
    simp only [List.map_cons, List.cons.injEq] at h
    have hadd : (memberSet c i).add n acc = acc ++ [n] := by
      rw [memberSet_eq hm hmult, SetCode.add]
      cases hs : sc.most with
      | none => rfl
      | some h =>
        have := hmost h hs
        simp only [List.length_cons] at this
        simp only
        rw [if_pos (by omega)]
    have ih := addTies_all hm hmult (d := d) (k := k) xs ns (ss.set i (.mk b (acc ++ [n]))) b (acc ++ [n]) h.2 (by
      intro h hs
      have := hmost h hs
      simp only [List.length_cons, List.length_append, List.length_nil] at this ⊢
      omega) (set_get h0)
    rw [addTies, newItem_eq hm, h.1]
    simp only [Node.push, changeSlot_some h0, kids_mk, on_mk, hadd]
    rw [ih, List.set_set]
    simp

/-! ## The three kinds of notes -/

theorem restOk_names (l : List Child) : RestOk (l.map (·.name)) l := fun _ hx => List.mem_map_of_mem (List.mem_of_mem_head? hx)

def noteLast : List Nat := namesOf .Note ((Cls.Note).info.stmts.drop 1)

theorem last_tie : noteLast.any (Nat.beq (nm! "tie")) = false := by decide +kernel

theorem graceNote_reads : GroupReads .GraceNoteGroup noteLast (fun g l => match l with | [] => ⟨g, false, 0⟩ | x :: xs => graceNote x xs g) := by
  intro N hrd d k ss hg d0 k0 ss0 hb rest hr
  obtain ⟨hl, hk0, hbl⟩ := hb.slot
  have hm0 : (Cls.GraceNoteGroup).info.members[0]? = some ⟨.leaf (nm! "grace") false, .one⟩ := rfl
  have hm1 : (Cls.GraceNoteGroup).info.members[1]? = some ⟨.comp .FullNoteGroup, .one⟩ := rfl
  have hm2 : (Cls.GraceNoteGroup).info.members[2]? = some ⟨.leaf (nm! "tie") false, .set ⟨0, some 2, 0, 0⟩⟩ := rfl
  obtain ⟨s00, h00⟩ := getElem?_same_length hl hm0
  obtain ⟨s01, h01⟩ := getElem?_same_length hl hm1
  obtain ⟨s02, h02⟩ := getElem?_same_length hl hm2
  obtain ⟨s0, n, n', t, hs0, rfl, hw0, hname, hread0, hS0⟩ := elem_one (w := ⟨[], 0, .element⟩) hrd hg.here (by simp [Cls.info, c_GraceNoteGroup]) rfl rfl hm0 (hbl _ _ _ hm0 h00)
  obtain ⟨s1, dn, kn, ssn, dt, kt, sst, hs1, rfl, hbt, hgn, hkids1, hw1, hsame1⟩ := body_one (w := ⟨[], 1, .body⟩) hg.here (by simp [Cls.info, c_GraceNoteGroup]) rfl (by simp) hm1 (hbl _ _ _ hm1 h01)
  obtain ⟨s2, ns', hs2, hw2, hnames2, hok2, hread2, hlen2, hS2⟩ := elem_set (w := ⟨[], 2, .element⟩) hrd hg.here (by simp [Cls.info, c_GraceNoteGroup]) rfl rfl hm2
  have hbl2 := hbl _ _ _ hm2 h02
  have hkids2 : s02.kids = [] := List.length_eq_zero_iff.mp hbl2.2.1
  cases s02 with
  | mk b2 ks2 =>
  rw [kids_mk] at hkids2; subst hkids2
  obtain ⟨n1, e1, e2, e4, e3⟩ := fullNote_reads _ N hrd dn kn ssn hgn dt kt sst hbt (s2.kids.map kidOf ++ rest) (restOk_names _)
  have hS1 := hsame1 true n1 e2 e4 e3
  have hstmts : (Cls.GraceNoteGroup).info.stmts = [⟨[], 0, .element⟩, ⟨[], 1, .body⟩, ⟨[], 2, .element⟩] := rfl
  have hF : Filled .GraceNoteGroup ss (Cls.GraceNoteGroup).info.stmts ss0 (((ss0.set 0 (.mk true [n'])).set 1 (.mk true [n1])).set 2 (.mk b2 ns')) := by
    rw [hstmts]
    exact .cons (w := ⟨[], 0, .element⟩) hm0 hs0 h00 hS0 (by simp)
      (.cons (w := ⟨[], 1, .body⟩) hm1 hs1 (by rw [set_get_ne (by simp)]; exact h01) hS1 (by simp)
      (.cons (w := ⟨[], 2, .element⟩) hm2 hs2 (by rw [set_get_ne (by simp), set_get_ne (by simp)]; exact h02) (hS2 b2) (by simp) .nil))
  obtain ⟨f1, f2⟩ := filled_fine (d' := d0) (stmts_free rfl) hg.2.1 hb rfl hF
  refine ⟨_, ?_, rfl, f1, f2⟩
  have hK : (whole (.comp .GraceNoteGroup d k ss)).kids.map (Xml.child prog) = kidOf n :: ((whole (.comp .FullNoteGroup dn kn ssn)).kids.map (Xml.child prog) ++ s2.kids.map kidOf) := by
    rw [whole_kids, hstmts]
    simp only [List.flatMap_cons, List.flatMap_nil, List.append_nil, List.map_append]
    rw [hw0, hw1, hw2]
    rfl
  rw [← List.length_map (f := Xml.child prog), hK]
  simp only [List.cons_append, List.append_assoc, graceNote]
  rw [inner_mk _ h00, hread0]
  simp only [Node.kid?, set_get_ne (show 0 ≠ 1 by simp), h01, Option.bind_some, kids_mk, List.head?_cons, e1]
  have hdrop : ((whole (.comp .FullNoteGroup dn kn ssn)).kids.map (Xml.child prog) ++ (s2.kids.map kidOf ++ rest)).drop (whole (.comp .FullNoteGroup dn kn ssn)).kids.length = s2.kids.map kidOf ++ rest := by
    rw [← List.length_map (f := Xml.child prog), List.drop_left]
  have h01' : (ss0.set 0 (.mk true [n']))[1]? = some (.mk false [.comp .FullNoteGroup dt kt sst]) := by rw [set_get_ne (by simp)]; exact h01
  rw [hdrop, runItems_seg (name := nm! "tie") hnames2 (restOk_head hr last_tie)]
  simp only [Node.setKid, changeSlot_some h01', kids_mk, List.tail_cons]
  rw [addTies_all hm2 rfl _ ns' _ b2 [] hread2 (by
    intro h hh
    cases hh
    have := hok2.2.2 2 rfl
    simp only [List.length_nil, Nat.zero_add, hlen2]
    exact this) (by rw [set_get_ne (by simp), set_get_ne (by simp)]; exact h02)]
  simp only [List.length_cons, List.length_append, List.length_map, Bool.true_and, List.nil_append, Got.mk.injEq, true_and]
  omega

theorem cueNote_reads (last : List Nat) : GroupReads .CueNoteGroup last (fun g l => match l with | [] => ⟨g, false, 0⟩ | x :: xs => cueNote x xs g) := by
  intro N hrd d k ss hg d0 k0 ss0 hb rest hr
  obtain ⟨hl, hk0, hbl⟩ := hb.slot
  have hm0 : (Cls.CueNoteGroup).info.members[0]? = some ⟨.leaf (nm! "cue") false, .one⟩ := rfl
  have hm1 : (Cls.CueNoteGroup).info.members[1]? = some ⟨.comp .FullNoteGroup, .one⟩ := rfl
  have hm2 : (Cls.CueNoteGroup).info.members[2]? = some ⟨.leaf (nm! "duration") true, .one⟩ := rfl
  obtain ⟨s00, h00⟩ := getElem?_same_length hl hm0
  obtain ⟨s01, h01⟩ := getElem?_same_length hl hm1
  obtain ⟨s02, h02⟩ := getElem?_same_length hl hm2
  obtain ⟨s0, n, n', t, hs0, rfl, hw0, hname, hread0, hS0⟩ := elem_one (w := ⟨[], 0, .element⟩) hrd hg.here (by simp [Cls.info, c_CueNoteGroup]) rfl rfl hm0 (hbl _ _ _ hm0 h00)
  obtain ⟨s1, dn, kn, ssn, dt, kt, sst, hs1, rfl, hbt, hgn, hkids1, hw1, hsame1⟩ := body_one (w := ⟨[], 1, .body⟩) hg.here (by simp [Cls.info, c_CueNoteGroup]) rfl (by simp) hm1 (hbl _ _ _ hm1 h01)
  obtain ⟨s2, n2, n2', t2, hs2, rfl, hw2, hname2, hread2, hS2⟩ := elem_one (w := ⟨[], 2, .element⟩) hrd hg.here (by simp [Cls.info, c_CueNoteGroup]) rfl rfl hm2 (hbl _ _ _ hm2 h02)
  obtain ⟨n1, e1, e2, e4, e3⟩ := fullNote_reads _ N hrd dn kn ssn hgn dt kt sst hbt (kidOf n2 :: rest) (restOk_names _)
  have hS1 := hsame1 true n1 e2 e4 e3
  have hstmts : (Cls.CueNoteGroup).info.stmts = [⟨[], 0, .element⟩, ⟨[], 1, .body⟩, ⟨[], 2, .element⟩] := rfl
  have hF : Filled .CueNoteGroup ss (Cls.CueNoteGroup).info.stmts ss0 (((ss0.set 0 (.mk true [n'])).set 1 (.mk true [n1])).set 2 (.mk true [n2'])) := by
    rw [hstmts]
    exact .cons (w := ⟨[], 0, .element⟩) hm0 hs0 h00 hS0 (by simp)
      (.cons (w := ⟨[], 1, .body⟩) hm1 hs1 (by rw [set_get_ne (by simp)]; exact h01) hS1 (by simp)
      (.cons (w := ⟨[], 2, .element⟩) hm2 hs2 (by rw [set_get_ne (by simp), set_get_ne (by simp)]; exact h02) hS2 (by simp) .nil))
  obtain ⟨f1, f2⟩ := filled_fine (d' := d0) (stmts_free rfl) hg.2.1 hb rfl hF
  refine ⟨_, ?_, rfl, f1, f2⟩
  have hK : (whole (.comp .CueNoteGroup d k ss)).kids.map (Xml.child prog) = kidOf n :: ((whole (.comp .FullNoteGroup dn kn ssn)).kids.map (Xml.child prog) ++ [kidOf n2]) := by
    rw [whole_kids, hstmts]
    simp only [List.flatMap_cons, List.flatMap_nil, List.append_nil, List.map_append]
    rw [hw0, hw1, hw2]
    rfl
  rw [← List.length_map (f := Xml.child prog), hK]
  simp only [List.cons_append, List.append_assoc, cueNote, List.nil_append]
  rw [inner_mk _ h00, hread0]
  simp only [Node.kid?, set_get_ne (show 0 ≠ 1 by simp), h01, Option.bind_some, kids_mk, List.head?_cons, e1]
  have hdrop : ((whole (.comp .FullNoteGroup dn kn ssn)).kids.map (Xml.child prog) ++ kidOf n2 :: rest).drop (whole (.comp .FullNoteGroup dn kn ssn)).kids.length = kidOf n2 :: rest := by
    rw [← List.length_map (f := Xml.child prog), List.drop_left]
  have h01' : (ss0.set 0 (.mk true [n']))[1]? = some (.mk false [.comp .FullNoteGroup dt kt sst]) := by rw [set_get_ne (by simp)]; exact h01
  have h02' : ((ss0.set 0 (.mk true [n'])).set 1 (.mk true [n1]))[2]? = some (.mk false [t2]) := by rw [set_get_ne (by simp), set_get_ne (by simp)]; exact h02
  rw [hdrop]
  simp only [Node.setKid, changeSlot_some h01', kids_mk, List.tail_cons, noteDuration]
  rw [hname2, show Nat.beq (kindName (.leaf (nm! "duration") true)) (nm! "duration") = true from beq_self _, if_pos rfl, inner_mk _ h02', hread2]
  simp only [List.length_cons, List.length_append, List.length_map, Bool.true_and, List.length_nil, Got.mk.injEq, true_and]
  omega

theorem normalNote_reads : GroupReads .NormalNoteGroup noteLast (fun g l => normalNote l g) := by
  intro N hrd d k ss hg d0 k0 ss0 hb rest hr
  obtain ⟨hl, hk0, hbl⟩ := hb.slot
  have hm0 : (Cls.NormalNoteGroup).info.members[0]? = some ⟨.comp .FullNoteGroup, .one⟩ := rfl
  have hm1 : (Cls.NormalNoteGroup).info.members[1]? = some ⟨.leaf (nm! "duration") true, .one⟩ := rfl
  have hm2 : (Cls.NormalNoteGroup).info.members[2]? = some ⟨.leaf (nm! "tie") false, .set ⟨0, some 2, 0, 0⟩⟩ := rfl
  obtain ⟨s00, h00⟩ := getElem?_same_length hl hm0
  obtain ⟨s01, h01⟩ := getElem?_same_length hl hm1
  obtain ⟨s02, h02⟩ := getElem?_same_length hl hm2
  obtain ⟨s0, dn, kn, ssn, dt, kt, sst, hs0, rfl, hbt, hgn, hkids0, hw0, hsame0⟩ := body_one (w := ⟨[], 0, .body⟩) hg.here (by simp [Cls.info, c_NormalNoteGroup]) rfl (by simp) hm0 (hbl _ _ _ hm0 h00)
  obtain ⟨s1, n1, n1', t1, hs1, rfl, hw1, hname1, hread1, hS1⟩ := elem_one (w := ⟨[], 1, .element⟩) hrd hg.here (by simp [Cls.info, c_NormalNoteGroup]) rfl rfl hm1 (hbl _ _ _ hm1 h01)
  obtain ⟨s2, ns', hs2, hw2, hnames2, hok2, hread2, hlen2, hS2⟩ := elem_set (w := ⟨[], 2, .element⟩) hrd hg.here (by simp [Cls.info, c_NormalNoteGroup]) rfl rfl hm2
  have hbl2 := hbl _ _ _ hm2 h02
  have hkids2 : s02.kids = [] := List.length_eq_zero_iff.mp hbl2.2.1
  cases s02 with
  | mk b2 ks2 =>
  rw [kids_mk] at hkids2; subst hkids2
  obtain ⟨n0, e1, e2, e4, e3⟩ := fullNote_reads _ N hrd dn kn ssn hgn dt kt sst hbt (kidOf n1 :: (s2.kids.map kidOf ++ rest)) (restOk_names _)
  have hS0 := hsame0 true n0 e2 e4 e3
  have hstmts : (Cls.NormalNoteGroup).info.stmts = [⟨[], 0, .body⟩, ⟨[], 1, .element⟩, ⟨[], 2, .element⟩] := rfl
  have hF : Filled .NormalNoteGroup ss (Cls.NormalNoteGroup).info.stmts ss0 (((ss0.set 0 (.mk true [n0])).set 1 (.mk true [n1'])).set 2 (.mk b2 ns')) := by
    rw [hstmts]
    exact .cons (w := ⟨[], 0, .body⟩) hm0 hs0 h00 hS0 (by simp)
      (.cons (w := ⟨[], 1, .element⟩) hm1 hs1 (by rw [set_get_ne (by simp)]; exact h01) hS1 (by simp)
      (.cons (w := ⟨[], 2, .element⟩) hm2 hs2 (by rw [set_get_ne (by simp), set_get_ne (by simp)]; exact h02) (hS2 b2) (by simp) .nil))
  obtain ⟨f1, f2⟩ := filled_fine (d' := d0) (stmts_free rfl) hg.2.1 hb rfl hF
  refine ⟨_, ?_, rfl, f1, f2⟩
  have hK : (whole (.comp .NormalNoteGroup d k ss)).kids.map (Xml.child prog) = (whole (.comp .FullNoteGroup dn kn ssn)).kids.map (Xml.child prog) ++ kidOf n1 :: s2.kids.map kidOf := by
    rw [whole_kids, hstmts]
    simp only [List.flatMap_cons, List.flatMap_nil, List.append_nil, List.map_append]
    rw [hw0, hw1, hw2]
    rfl
  rw [← List.length_map (f := Xml.child prog), hK]
  simp only [List.cons_append, List.append_assoc, normalNote]
  simp only [Node.kid?, h00, Option.bind_some, kids_mk, List.head?_cons, e1]
  have hdrop : ((whole (.comp .FullNoteGroup dn kn ssn)).kids.map (Xml.child prog) ++ kidOf n1 :: (s2.kids.map kidOf ++ rest)).drop (whole (.comp .FullNoteGroup dn kn ssn)).kids.length =
      kidOf n1 :: (s2.kids.map kidOf ++ rest) := by
    rw [← List.length_map (f := Xml.child prog), List.drop_left]
  have h01' : (ss0.set 0 (.mk true [n0]))[1]? = some (.mk false [t1]) := by rw [set_get_ne (by simp)]; exact h01
  rw [← List.drop_drop, hdrop]
  simp only [Node.setKid, changeSlot_some h00, kids_mk, List.tail_cons, noteDuration]
  rw [hname1, show Nat.beq (kindName (.leaf (nm! "duration") true)) (nm! "duration") = true from beq_self _, if_pos rfl, inner_mk _ h01', hread1]
  simp only [List.drop_succ_cons, List.drop_zero]
  rw [runItems_seg (name := nm! "tie") hnames2 (restOk_head hr last_tie), addTies_all hm2 rfl _ ns' _ b2 [] hread2 (by
    intro h hh
    cases hh
    have := hok2.2.2 2 rfl
    simp only [List.length_nil, Nat.zero_add, hlen2]
    exact this) (by rw [set_get_ne (by simp), set_get_ne (by simp)]; exact h02)]
  simp only [List.length_cons, List.length_append, List.length_map, Bool.true_and, List.nil_append, Got.mk.injEq, true_and]
  omega

/-! ## The choice of a note -/

theorem blankSlot_make (G : Cls) : BlankSlot ⟨.comp G, .one⟩ (.mk false [make (.comp G)]) :=
  ⟨rfl, rfl, by intro x hx; rw [kids_mk, List.mem_singleton] at hx; subst hx; exact ⟨make_kind _, make_blank _⟩⟩

theorem normal_head {N : Nat} {d : Str} {k : Nat} {ss : List Slot} (hg : Good N (.comp .NormalNoteGroup d k ss)) :
    ∃ x xs, (whole (.comp .NormalNoteGroup d k ss)).kids.map (Xml.child prog) = x :: xs ∧ [nm! "chord", nm! "pitch", nm! "unpitched", nm! "rest"].any (Nat.beq x.name) = true := by
  obtain ⟨s0, dn, kn, ssn, dt, kt, sst, hs0, _, _, hgn, _, hw0, _⟩ := body_one (w := ⟨[], 0, .body⟩) (G := .FullNoteGroup) hg.here (by simp [Cls.info, c_NormalNoteGroup]) rfl (by simp) rfl (blankSlot_make _)
  obtain ⟨x, xs, hx, hh⟩ := full_head hgn
  refine ⟨x, xs ++ (([⟨[], 1, .element⟩, ⟨[], 2, .element⟩] : List Stmt).flatMap (wholeStmt .NormalNoteGroup k (wholeSlots ss))).map (Xml.child prog), ?_, hh⟩
  rw [whole_kids, show (Cls.NormalNoteGroup).info.stmts = [⟨[], 0, .body⟩, ⟨[], 1, .element⟩, ⟨[], 2, .element⟩] from rfl, List.flatMap_cons, List.map_append, hw0, hx]
  rfl

theorem noteChoice_reads : GroupReads .NoteChoice noteLast (fun g l => noteChoice l g) := by
  intro N hrd d k ss hg d0 k0 ss0 hb rest hr
  obtain ⟨hl, hk0, hbl⟩ := hb.slot
  have hm0 : (Cls.NoteChoice).info.members[0]? = some ⟨.comp .GraceNoteGroup, .one⟩ := rfl
  have hm1 : (Cls.NoteChoice).info.members[1]? = some ⟨.comp .CueNoteGroup, .one⟩ := rfl
  have hm2 : (Cls.NoteChoice).info.members[2]? = some ⟨.comp .NormalNoteGroup, .one⟩ := rfl
  have hk : k = 0 ∨ k = 1 ∨ k = 2 := by
    have := choice_lt hg.here
    simp only [Cls.info, c_NoteChoice] at this
    omega
  rcases hk with rfl | rfl | rfl
  · obtain ⟨s00, h00⟩ := getElem?_same_length hl hm0
    obtain ⟨s0, dn, kn, ssn, dt, kt, sst, hs0, rfl, hbt, hgn, _, hw0, hsame0⟩ := body_one (w := ⟨[.choice 0], 0, .body⟩) hg.here (by simp [Cls.info, c_NoteChoice]) rfl (by simp) hm0 (hbl _ _ _ hm0 h00)
    obtain ⟨n0, e1, e2, e4, e3⟩ := graceNote_reads N hrd dn kn ssn hgn dt kt sst hbt rest hr
    have hf : (Cls.NoteChoice).info.stmts.filter (inChoice 0) = [⟨[.choice 0], 0, .body⟩] := rfl
    have hF : Filled .NoteChoice ss [⟨[.choice 0], 0, .body⟩] ss0 (ss0.set 0 (.mk true [n0])) := .cons (w := ⟨[.choice 0], 0, .body⟩) hm0 hs0 h00 (hsame0 true n0 e2 e4 e3) (by simp) .nil
    obtain ⟨f1, f2⟩ := choice_fine (d' := d0) hg.2.1 hb hf (by simp) hF
    refine ⟨_, ?_, rfl, f1, f2⟩
    have hK : (whole (.comp .NoteChoice d 0 ss)).kids = (whole (.comp .GraceNoteGroup dn kn ssn)).kids := by
      rw [whole_kids_choice, hf, List.flatMap_singleton, hw0]
    rw [hK]
    obtain ⟨n, hxs, hname⟩ := first_elem (w := ⟨[], 0, .element⟩) (ws := [⟨[], 1, .body⟩, ⟨[], 2, .element⟩]) hgn.here rfl rfl rfl (show (Cls.GraceNoteGroup).info.members[0]? = some ⟨.leaf (nm! "grace") false, .one⟩ from rfl)
    rw [hxs] at e1 ⊢
    simp only [List.cons_append] at e1 ⊢
    simp only [noteChoice]
    rw [hname, show Nat.beq (kindName (.leaf (nm! "grace") false)) (nm! "grace") = true from beq_self _, if_pos rfl, Node.choose, innerGot_mk _ h00, e1]
    rfl
  · obtain ⟨s00, h00⟩ := getElem?_same_length hl hm1
    obtain ⟨s0, dn, kn, ssn, dt, kt, sst, hs0, rfl, hbt, hgn, _, hw0, hsame0⟩ := body_one (w := ⟨[.choice 1], 1, .body⟩) hg.here (by simp [Cls.info, c_NoteChoice]) rfl (by simp) hm1 (hbl _ _ _ hm1 h00)
    obtain ⟨n0, e1, e2, e4, e3⟩ := cueNote_reads _ N hrd dn kn ssn hgn dt kt sst hbt rest hr
    have hf : (Cls.NoteChoice).info.stmts.filter (inChoice 1) = [⟨[.choice 1], 1, .body⟩] := rfl
    have hF : Filled .NoteChoice ss [⟨[.choice 1], 1, .body⟩] ss0 (ss0.set 1 (.mk true [n0])) := .cons (w := ⟨[.choice 1], 1, .body⟩) hm1 hs0 h00 (hsame0 true n0 e2 e4 e3) (by simp) .nil
    obtain ⟨f1, f2⟩ := choice_fine (d' := d0) hg.2.1 hb hf (by simp) hF
    refine ⟨_, ?_, rfl, f1, f2⟩
    have hK : (whole (.comp .NoteChoice d 1 ss)).kids = (whole (.comp .CueNoteGroup dn kn ssn)).kids := by
      rw [whole_kids_choice, hf, List.flatMap_singleton, hw0]
    rw [hK]
    obtain ⟨n, hxs, hname⟩ := first_elem (w := ⟨[], 0, .element⟩) (ws := [⟨[], 1, .body⟩, ⟨[], 2, .element⟩]) hgn.here rfl rfl rfl (show (Cls.CueNoteGroup).info.members[0]? = some ⟨.leaf (nm! "cue") false, .one⟩ from rfl)
    rw [hxs] at e1 ⊢
    simp only [List.cons_append] at e1 ⊢
    simp only [noteChoice]
    rw [hname, show Nat.beq (kindName (.leaf (nm! "cue") false)) (nm! "grace") = false from by decide +kernel,
      show Nat.beq (kindName (.leaf (nm! "cue") false)) (nm! "cue") = true from beq_self _, if_neg (by simp), if_pos rfl, Node.choose, innerGot_mk _ h00, e1]
    rfl
  · obtain ⟨s00, h00⟩ := getElem?_same_length hl hm2
    obtain ⟨s0, dn, kn, ssn, dt, kt, sst, hs0, rfl, hbt, hgn, _, hw0, hsame0⟩ := body_one (w := ⟨[.choice 2], 2, .body⟩) hg.here (by simp [Cls.info, c_NoteChoice]) rfl (by simp) hm2 (hbl _ _ _ hm2 h00)
    obtain ⟨n0, e1, e2, e4, e3⟩ := normalNote_reads N hrd dn kn ssn hgn dt kt sst hbt rest hr
    have hf : (Cls.NoteChoice).info.stmts.filter (inChoice 2) = [⟨[.choice 2], 2, .body⟩] := rfl
    have hF : Filled .NoteChoice ss [⟨[.choice 2], 2, .body⟩] ss0 (ss0.set 2 (.mk true [n0])) := .cons (w := ⟨[.choice 2], 2, .body⟩) hm2 hs0 h00 (hsame0 true n0 e2 e4 e3) (by simp) .nil
    obtain ⟨f1, f2⟩ := choice_fine (d' := d0) hg.2.1 hb hf (by simp) hF
    refine ⟨_, ?_, rfl, f1, f2⟩
    have hK : (whole (.comp .NoteChoice d 2 ss)).kids = (whole (.comp .NormalNoteGroup dn kn ssn)).kids := by
      rw [whole_kids_choice, hf, List.flatMap_singleton, hw0]
    rw [hK]
    obtain ⟨x, xs, hxs, hhead⟩ := normal_head hgn
    rw [hxs] at e1 ⊢
    simp only [List.cons_append] at e1 ⊢
    simp only [noteChoice]
    have hg1 : Nat.beq x.name (nm! "grace") = false := beq_ne (fun e => by rw [e] at hhead; revert hhead; decide +kernel)
    have hg2 : Nat.beq x.name (nm! "cue") = false := beq_ne (fun e => by rw [e] at hhead; revert hhead; decide +kernel)
    rw [hg1, hg2, if_neg (by simp), if_neg (by simp), Node.choose, innerGot_mk _ h00, e1]
    rfl

theorem note_head {N : Nat} {d : Str} {k : Nat} {ss : List Slot} (hg : Good N (.comp .NoteChoice d k ss)) :
    ∃ x xs, (whole (.comp .NoteChoice d k ss)).kids.map (Xml.child prog) = x :: xs ∧
      [nm! "pitch", nm! "unpitched", nm! "rest", nm! "chord", nm! "grace", nm! "cue"].any (Nat.beq x.name) = true := by
  have hk : k = 0 ∨ k = 1 ∨ k = 2 := by
    have := choice_lt hg.here
    simp only [Cls.info, c_NoteChoice] at this
    omega
  rcases hk with rfl | rfl | rfl
  · obtain ⟨s0, dn, kn, ssn, dt, kt, sst, hs0, _, _, hgn, _, hw0, hsame0⟩ := body_one (w := ⟨[.choice 0], 0, .body⟩) (G := .GraceNoteGroup) hg.here (by simp [Cls.info, c_NoteChoice]) rfl (by simp) rfl (blankSlot_make _)
    have hK : (whole (.comp .NoteChoice d 0 ss)).kids = (whole (.comp .GraceNoteGroup dn kn ssn)).kids := by
      rw [whole_kids_choice, show (Cls.NoteChoice).info.stmts.filter (inChoice 0) = [⟨[.choice 0], 0, .body⟩] from rfl, List.flatMap_singleton, hw0]
    obtain ⟨n, hxs, hname⟩ := first_elem (w := ⟨[], 0, .element⟩) (ws := [⟨[], 1, .body⟩, ⟨[], 2, .element⟩]) hgn.here rfl rfl rfl (show (Cls.GraceNoteGroup).info.members[0]? = some ⟨.leaf (nm! "grace") false, .one⟩ from rfl)
    exact ⟨kidOf n, _, by rw [hK]; exact hxs, by rw [hname]; decide +kernel⟩
  · obtain ⟨s0, dn, kn, ssn, dt, kt, sst, hs0, _, _, hgn, _, hw0, hsame0⟩ := body_one (w := ⟨[.choice 1], 1, .body⟩) (G := .CueNoteGroup) hg.here (by simp [Cls.info, c_NoteChoice]) rfl (by simp) rfl (blankSlot_make _)
    have hK : (whole (.comp .NoteChoice d 1 ss)).kids = (whole (.comp .CueNoteGroup dn kn ssn)).kids := by
      rw [whole_kids_choice, show (Cls.NoteChoice).info.stmts.filter (inChoice 1) = [⟨[.choice 1], 1, .body⟩] from rfl, List.flatMap_singleton, hw0]
    obtain ⟨n, hxs, hname⟩ := first_elem (w := ⟨[], 0, .element⟩) (ws := [⟨[], 1, .body⟩, ⟨[], 2, .element⟩]) hgn.here rfl rfl rfl (show (Cls.CueNoteGroup).info.members[0]? = some ⟨.leaf (nm! "cue") false, .one⟩ from rfl)
    exact ⟨kidOf n, _, by rw [hK]; exact hxs, by rw [hname]; decide +kernel⟩
  · obtain ⟨s0, dn, kn, ssn, dt, kt, sst, hs0, _, _, hgn, _, hw0, hsame0⟩ := body_one (w := ⟨[.choice 2], 2, .body⟩) (G := .NormalNoteGroup) hg.here (by simp [Cls.info, c_NoteChoice]) rfl (by simp) rfl (blankSlot_make _)
    have hK : (whole (.comp .NoteChoice d 2 ss)).kids = (whole (.comp .NormalNoteGroup dn kn ssn)).kids := by
      rw [whole_kids_choice, show (Cls.NoteChoice).info.stmts.filter (inChoice 2) = [⟨[.choice 2], 2, .body⟩] from rfl, List.flatMap_singleton, hw0]
    obtain ⟨x, xs, hxs, hhead⟩ := normal_head hgn
    refine ⟨x, xs, by rw [hK, hxs], ?_⟩
    obtain ⟨y, hy, e⟩ := List.any_eq_true.mp hhead
    rw [List.any_eq_true]
    refine ⟨y, ?_, e⟩
    simp only [List.mem_cons, List.not_mem_nil, or_false] at hy ⊢
    rcases hy with h | h | h | h
    · exact .inr (.inr (.inr (.inl h)))
    · exact .inl h
    · exact .inr (.inl h)
    · exact .inr (.inr (.inl h))

/-! ## `note` -/

def noteBody : List RStmt := match prog .Note with | .loop _ b _ _ => b | _ => []

theorem note_prog : prog .Note = .loop none noteBody true [nm! "pitch", nm! "unpitched", nm! "rest", nm! "chord", nm! "grace", nm! "cue"] := rfl

theorem serve_note {N : Nat} {self : Child} (hrd : RdBelow N) : Serve N self noteBody true .Note ⟨[], 0, .body⟩ noteLast := by
  rw [show noteBody = [] ++ RStmt.noteChoice :: noteBody.drop 1 from rfl]
  refine serve_got (G := .NoteChoice) (next := true) hrd (by simp) rfl noteChoice_reads ?_ ?_ ⟨by simp, .inl rfl⟩
  · intro d k ss hg
    obtain ⟨x, xs, hx, _⟩ := note_head hg
    intro e
    rw [e] at hx; cases hx
  · intro d k ss hg x xs hx o rest
    obtain ⟨y, ys, hy, hh⟩ := note_head hg
    rw [hx] at hy
    cases hy
    rw [RStmt.at, if_pos (show headIn [nm! "pitch", nm! "unpitched", nm! "rest", nm! "chord", nm! "grace", nm! "cue"] (x :: (xs ++ rest)) = true from hh)]

theorem note_reads : ClassReads .Note := by
  refine class_loop note_prog (stmts_free rfl) ?_ ?_
  · intro N d k ss hg
    right
    obtain ⟨s0, dn, kn, ssn, _, _, _, _, _, _, hgn, _, hw0, _⟩ := body_one (w := ⟨[], 0, .body⟩) (G := .NoteChoice) hg (by simp [Cls.info, c_Note]) rfl (by simp) rfl (blankSlot_make _)
    obtain ⟨x, xs, hx, hh⟩ := note_head hgn
    have hmem : x ∈ (whole (.comp .NoteChoice dn kn ssn)).kids.map (Xml.child prog) := by rw [hx]; simp
    obtain ⟨y, hy, rfl⟩ := List.mem_map.mp hmem
    rw [child_name] at hh
    refine List.any_eq_true.mpr ⟨y, ?_, hh⟩
    rw [whole_kids]
    exact List.mem_flatMap.mpr ⟨⟨[], 0, .body⟩, by simp [Cls.info, c_Note], by rw [hw0]; exact hy⟩
  · intro N self hrd
    refine serveAll_but hrd (a := []) (v := ⟨[], 0, .body⟩) (b := (Cls.Note).info.stmts.drop 1) rfl ?_ (by decide +kernel)
    rw [List.append_nil]
    exact serve_note hrd

end Mx.Content
