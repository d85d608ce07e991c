import Verif.Proofs.ReaderSpecialF

/-
Metronome marks.
-/
open Mx.Spec
namespace Mx.Content

theorem rest_nil {rest : List Child} (h : RestOk [] rest) : rest = [] := by
  cases rest with
  | nil => rfl
  | cons x xs => exact absurd (h x (by simp)) (by simp)

theorem GroupReads.none {G : Cls} {last : List Nat} {f : Node → List Child → Got} (h : GroupReads G last f) : GroupReads G [] f := by
  intro N hrd d k ss hg d0 k0 ss0 hb rest hr
  rw [rest_nil hr]
  exact h N hrd d k ss hg d0 k0 ss0 hb [] (by intro x hx; cases hx)

theorem choose_inner (g : Node) (i : Nat) (k : Option Nat) (f : Node → Node × Bool) : ((g.choose k).inner i f).1 = (g.inner i f).1.choose k := by
  cases g with
  | leaf => rfl
  | comp c d k' ss =>
    simp only [Node.inner, Node.choose, Node.kid?]
    split
    · rfl
    · rfl

theorem field_one {name i : Nat} {j : Option Nat} {n : Nat} {f : Nat × Option Nat} (h : field [(name, i, j)] n = some f) : n = name ∧ f = (i, j) := by
  simp only [field, List.find?_cons, List.find?_nil] at h
  cases hb : Nat.beq name n with
  | true =>
    rw [hb] at h
    simp only [Option.map_some, Option.some.injEq] at h
    exact ⟨(Nat.eq_of_beq_eq_true hb).symm, h.symm⟩
  | false =>
    rw [hb] at h
    simp at h

/-! ## `metronome` -/

theorem beatUnit_reads : GroupReads .BeatUnitGroup [nm! "beat-unit", nm! "per-minute"] (readParts beatUnitParts) := parts_reads rfl (by decide +kernel)

theorem beatUnit_head {N : Nat} {d : Str} {k : Nat} {ss : List Slot} (hg : Here N (.comp .BeatUnitGroup d k ss)) :
    ∃ x xs, (whole (.comp .BeatUnitGroup d k ss)).kids.map (Xml.child prog) = x :: xs ∧ x.name = nm! "beat-unit" := by
  obtain ⟨n, h1, h2⟩ := first_elem (w := ⟨[], 0, .element⟩) (ws := [⟨[], 1, .element⟩]) hg rfl rfl rfl (show (Cls.BeatUnitGroup).info.members[0]? = some ⟨.leaf (nm! "beat-unit") true, .one⟩ from rfl)
  exact ⟨_, _, h1, h2⟩

theorem perMinute_head {N : Nat} (hrd : RdBelow N) {d : Str} {k : Nat} {ss : List Slot} (hg : Good N (.comp .PerMinuteOrBeatUnitChoice d k ss)) :
    ∃ x xs, (whole (.comp .PerMinuteOrBeatUnitChoice d k ss)).kids.map (Xml.child prog) = x :: xs ∧ x.name ∈ [nm! "beat-unit", nm! "per-minute"] := by
  rcases two_choices hg.here rfl with rfl | rfl
  · obtain ⟨x, hx, f, hf, _⟩ := choice_reads hrd hg (by simp) (fs := [(nm! "per-minute", 0, some 0)]) (by decide +kernel)
    exact ⟨x, [], hx, by rw [(field_one hf).1]; decide⟩
  · obtain ⟨dn, kn, ssn, hgn, hK⟩ := pick_kids (w := ⟨[.choice 1], 1, .body⟩) (G := .BeatUnitGroup) rfl (by simp) rfl hg.here
    obtain ⟨x, xs, hx, hxn⟩ := beatUnit_head hgn.here
    exact ⟨x, xs, by rw [hK, hx], by rw [hxn]; decide⟩

theorem perMinute_reads : GroupReads .PerMinuteOrBeatUnitChoice [] (fun g l => perMinute l g) := by
  intro N hrd d k ss hg d0 k0 ss0 hb rest hr
  rw [rest_nil hr, List.append_nil]
  rcases two_choices hg.here rfl with rfl | rfl
  · obtain ⟨x, hx, f, hf, hread⟩ := choice_reads hrd hg (by simp) (fs := [(nm! "per-minute", 0, some 0)]) (by decide +kernel)
    obtain ⟨n', e1, e2, e3, e4⟩ := hread _ hb rfl
    obtain ⟨hn, rfl⟩ := field_one hf
    refine ⟨n', ?_, e2, e4, e3⟩
    have hlen : (whole (.comp .PerMinuteOrBeatUnitChoice d 0 ss)).kids.length = 1 := by rw [← List.length_map (f := Xml.child prog), hx]; rfl
    rw [hx, hlen]
    simp only [perMinute]
    rw [if_neg (by rw [headIn, hn]; decide +kernel), hn, beq_self, if_pos rfl, choose_inner]
    rw [Node.readField] at e1
    rw [show ((Node.comp .PerMinuteOrBeatUnitChoice d0 k0 ss0).inner 0 x.read).1.choose (some 0) = n' from congrArg Prod.fst e1]
  · obtain ⟨dn, kn, ssn, hgn, hK⟩ := pick_kids (w := ⟨[.choice 1], 1, .body⟩) (G := .BeatUnitGroup) rfl (by simp) rfl hg.here
    obtain ⟨x, xs, hx, hxn⟩ := beatUnit_head hgn.here
    obtain ⟨n', e1, e2⟩ := pick_group (w := ⟨[.choice 1], 1, .body⟩) (C := .PerMinuteOrBeatUnitChoice) (by simp) rfl (by simp) rfl beatUnit_reads N hrd d ss hg d0 k0 ss0 hb [] (by intro x hx; cases hx)
    refine ⟨n', ?_, e2⟩
    rw [← hK] at hx
    rw [List.append_nil] at e1
    rw [← e1, hx]
    simp only [perMinute]
    rw [if_pos (by rw [headIn, hxn]; decide +kernel)]

theorem beatUnitPer_reads : GroupReads .BeatUnitPer [] (fun g l => beatUnitPer l g) := by
  intro N hrd d k ss hg d0 k0 ss0 hb rest hr
  rw [rest_nil hr, List.append_nil]
  obtain ⟨hl, hk0, hbl⟩ := hb.slot
  have hm0 : (Cls.BeatUnitPer).info.members[0]? = some ⟨.comp .BeatUnitGroup, .one⟩ := rfl
  have hm1 : (Cls.BeatUnitPer).info.members[1]? = some ⟨.comp .PerMinuteOrBeatUnitChoice, .one⟩ := rfl
  have hst : (Cls.BeatUnitPer).info.stmts = [⟨[], 0, .body⟩, ⟨[], 1, .body⟩] := rfl
  obtain ⟨s00, h00⟩ := getElem?_same_length hl hm0
  obtain ⟨s01, h01⟩ := getElem?_same_length hl hm1
  obtain ⟨s0, da, ka, ssa, dta, kta, sta, hs0, rfl, hba, hga, _, hw0, hsame0⟩ := body_one (w := ⟨[], 0, .body⟩) hg.here (by rw [hst]; simp) rfl (by simp) hm0 (hbl 0 _ _ hm0 h00)
  obtain ⟨s1, dc, kc, ssc, dtc, ktc, stc, hs1, rfl, hbc, hgc, _, hw1, hsame1⟩ := body_one (w := ⟨[], 1, .body⟩) hg.here (by rw [hst]; simp) rfl (by simp) hm1 (hbl 1 _ _ hm1 h01)
  obtain ⟨y, ys, hy, hyn⟩ := perMinute_head hrd hgc
  obtain ⟨a', a1, a2, a3, a4⟩ := beatUnit_reads N hrd da ka ssa hga dta kta sta hba ((whole (.comp .PerMinuteOrBeatUnitChoice dc kc ssc)).kids.map (Xml.child prog)) (by
    intro z hz
    rw [hy] at hz
    simp at hz
    rw [← hz]; exact hyn)
  obtain ⟨c', c1, c2, c3, c4⟩ := perMinute_reads N hrd dc kc ssc hgc dtc ktc stc hbc [] (by intro x hx; cases hx)
  have h01' : (ss0.set 0 (.mk true [a']))[1]? = some (.mk false [.comp .PerMinuteOrBeatUnitChoice dtc ktc stc]) := by rw [set_get_ne (by simp)]; exact h01
  have hF : Filled .BeatUnitPer ss (Cls.BeatUnitPer).info.stmts ss0 ((ss0.set 0 (.mk true [a'])).set 1 (.mk true [c'])) := by
    rw [hst]
    exact .cons (w := ⟨[], 0, .body⟩) hm0 hs0 h00 (hsame0 _ _ a2 a3 a4) (by simp) (.cons (w := ⟨[], 1, .body⟩) hm1 hs1 h01' (hsame1 _ _ c2 c3 c4) (by simp) .nil)
  obtain ⟨f1, f2⟩ := filled_fine (d' := d0) (stmts_free rfl) hg.2.1 hb rfl hF
  refine ⟨_, ?_, rfl, f1, f2⟩
  have hK : (whole (.comp .BeatUnitPer d k ss)).kids = (whole (.comp .BeatUnitGroup da ka ssa)).kids ++ (whole (.comp .PerMinuteOrBeatUnitChoice dc kc ssc)).kids := by
    rw [whole_kids, hst, List.flatMap_cons, List.flatMap_singleton, hw0, hw1]
  rw [hK, List.map_append, List.length_append]
  simp only [beatUnitPer, Node.kid?, h00, Option.bind_some, kids_mk, List.head?_cons]
  rw [a1]
  simp only
  rw [Node.setKid, changeSlot_some h00]
  simp only [kids_mk, List.tail_cons]
  rw [innerGot_mk _ h01']
  rw [List.append_nil] at c1
  simp only at c1
  rw [← List.length_map (f := Xml.child prog) (as := (whole (.comp .BeatUnitGroup da ka ssa)).kids), List.drop_left, c1]
  simp only [Bool.and_self, List.length_map]

theorem relation_reads {N : Nat} (hrd : RdBelow N) {d : Str} {k : Nat} {ss : List Slot} (hg : Good N (.comp .MetronomeRelationGroup d k ss)) {d0 : Str} {k0 : Nat} {ss0 : List Slot} (hb : Blank (.comp .MetronomeRelationGroup d0 k0 ss0)) :
    ∃ (x y : Child) (n1 n2 : Node), (whole (.comp .MetronomeRelationGroup d k ss)).kids.map (Xml.child prog) = [x, y] ∧ x.name = nm! "metronome-relation" ∧ y.name = nm! "metronome-note" ∧
      (Node.comp .MetronomeRelationGroup d0 k0 ss0).inner 0 x.read = (n1, true) ∧ n1.inner 1 y.read = (n2, true) ∧ n2.kind = .comp .MetronomeRelationGroup ∧ Fine n2 ∧
      (whole n2).kids = (whole (.comp .MetronomeRelationGroup d k ss)).kids := by
  obtain ⟨hl, hk0, hbl⟩ := hb.slot
  have hm0 : (Cls.MetronomeRelationGroup).info.members[0]? = some ⟨.leaf (nm! "metronome-relation") true, .one⟩ := rfl
  have hm1 : (Cls.MetronomeRelationGroup).info.members[1]? = some ⟨.comp .MetronomeNote, .one⟩ := rfl
  have hst : (Cls.MetronomeRelationGroup).info.stmts = [⟨[], 0, .element⟩, ⟨[], 1, .element⟩] := rfl
  obtain ⟨s00, h00⟩ := getElem?_same_length hl hm0
  obtain ⟨s01, h01⟩ := getElem?_same_length hl hm1
  obtain ⟨s0, a, a', ta, hs0, rfl, hw0, hn0, hr0, hsame0⟩ := elem_one hrd hg.here (w := ⟨[], 0, .element⟩) (by rw [hst]; simp) rfl rfl hm0 (hbl 0 _ _ hm0 h00)
  obtain ⟨s1, c, c', tc, hs1, rfl, hw1, hn1, hr1, hsame1⟩ := elem_one hrd hg.here (w := ⟨[], 1, .element⟩) (by rw [hst]; simp) rfl rfl hm1 (hbl 1 _ _ hm1 h01)
  have h01' : (ss0.set 0 (.mk true [a']))[1]? = some (.mk false [tc]) := by rw [set_get_ne (by simp)]; exact h01
  have hF : Filled .MetronomeRelationGroup ss (Cls.MetronomeRelationGroup).info.stmts ss0 ((ss0.set 0 (.mk true [a'])).set 1 (.mk true [c'])) := by
    rw [hst]
    exact .cons (w := ⟨[], 0, .element⟩) hm0 hs0 h00 hsame0 (by simp) (.cons (w := ⟨[], 1, .element⟩) hm1 hs1 h01' hsame1 (by simp) .nil)
  obtain ⟨f1, f2⟩ := filled_fine (d' := d0) (stmts_free rfl) hg.2.1 hb rfl hF
  refine ⟨kidOf a, kidOf c, _, _, ?_, hn0, hn1, by rw [inner_mk _ h00, hr0], by rw [inner_mk _ h01', hr1], rfl, f1, f2⟩
  rw [whole_kids, hst, List.flatMap_cons, List.flatMap_singleton, List.map_append, hw0, hw1]; rfl

theorem noteRelation_reads : GroupReads .NoteRelationNote [] (fun g l => noteRelation l g) := by
  intro N hrd d k ss hg d0 k0 ss0 hb rest hr
  rw [rest_nil hr, List.append_nil]
  obtain ⟨hl, hk0, hbl⟩ := hb.slot
  have hm0 : (Cls.NoteRelationNote).info.members[0]? = some ⟨.comp .MetronomeNote, .set ⟨1, none, 1, 1⟩⟩ := rfl
  have hm1 : (Cls.NoteRelationNote).info.members[1]? = some ⟨.comp .MetronomeRelationGroup, .opt⟩ := rfl
  have hst : (Cls.NoteRelationNote).info.stmts = [⟨[], 0, .element⟩, ⟨[.flag 1], 1, .body⟩] := rfl
  obtain ⟨s00, h00⟩ := getElem?_same_length hl hm0
  obtain ⟨s01, h01⟩ := getElem?_same_length hl hm1
  obtain ⟨s0, ns', hs0, hw0, hn0, hok0, hr0, hlen0, hsame0⟩ := elem_set hrd hg.here (w := ⟨[], 0, .element⟩) (by rw [hst]; simp) rfl rfl hm0
  obtain ⟨s1, hs1, hcase⟩ := body_opt hg.here (w := ⟨[.flag 1], 1, .body⟩) (by rw [hst]; simp) rfl (by simp) hm1 (hbl 1 _ _ hm1 h01)
  have hs00 : s00.kids.length = 1 := (hbl 0 _ _ hm0 h00).2.1
  have hK : (whole (.comp .NoteRelationNote d k ss)).kids.map (Xml.child prog) = s0.kids.map kidOf ++ (wholeStmt .NoteRelationNote k (wholeSlots ss) ⟨[.flag 1], 1, .body⟩).map (Xml.child prog) := by
    rw [whole_kids, hst, List.flatMap_cons, List.flatMap_singleton, List.map_append, hw0]
  have hlen : (whole (.comp .NoteRelationNote d k ss)).kids.length = ((whole (.comp .NoteRelationNote d k ss)).kids.map (Xml.child prog)).length := (List.length_map ..).symm
  have hadd : (Node.comp .NoteRelationNote d0 k0 ss0).addRun 0 ns' = .comp .NoteRelationNote d0 k0 (ss0.set 0 (.mk s00.on ns')) := by
    rw [addRun_some h00, if_pos hs00, List.nil_append]
  have hnew : (Node.comp .NoteRelationNote d0 k0 ss0).newItem 0 = make (.comp .MetronomeNote) := newItem_eq hm0 _ _ _
  have h01' : (ss0.set 0 (.mk s00.on ns'))[1]? = some s01 := by rw [set_get_ne (by simp)]; exact h01
  rcases hcase with ⟨dn, kn, ssn, dt, kt, sst, hon, rfl, hbt, hgn, hn1, hw1, hsame1⟩ | ⟨hoff, hw1, hsame1⟩
  · obtain ⟨x, y, n1, n2, e1, e2, e3, e4, e5, e6, e7, e8⟩ := relation_reads hrd hgn hbt
    have hF : Filled .NoteRelationNote ss (Cls.NoteRelationNote).info.stmts ss0 ((ss0.set 0 (.mk s00.on ns')).set 1 (.mk true [n2])) := by
      rw [hst]
      exact .cons (w := ⟨[], 0, .element⟩) hm0 hs0 h00 (hsame0 _) (by simp) (.cons (w := ⟨[.flag 1], 1, .body⟩) hm1 hs1 h01' (hsame1 _ e6 e7 e8) (by simp) .nil)
    obtain ⟨f1, f2⟩ := filled_fine (d' := d0) (stmts_free rfl) hg.2.1 hb rfl hF
    refine ⟨_, ?_, rfl, f1, f2⟩
    rw [hlen, hK, hw1, e1]
    have hrun : runItems (nm! "metronome-note") (s0.kids.map kidOf ++ [x, y]) = s0.kids.map kidOf := runItems_seg hn0 (by
      intro z hz
      simp at hz
      rw [← hz, e2]; decide)
    simp only [noteRelation]
    rw [hrun, List.drop_left, hnew, hr0, map_fst_pair, all_snd_pair, hadd]
    simp only
    rw [e2, beq_self, if_pos rfl, inner_mk _ h01', e4, e3, beq_self, if_pos rfl, inner_mk _ (set_get h01'), e5, List.set_set]
    simp
  · have hF : Filled .NoteRelationNote ss (Cls.NoteRelationNote).info.stmts ss0 (ss0.set 0 (.mk s00.on ns')) := by
      rw [hst]
      exact .cons (w := ⟨[], 0, .element⟩) hm0 hs0 h00 (hsame0 _) (by simp) (.cons (w := ⟨[.flag 1], 1, .body⟩) hm1 hs1 h01' hsame1 (by simp) (by rw [set_same h01']; exact .nil))
    obtain ⟨f1, f2⟩ := filled_fine (d' := d0) (stmts_free rfl) hg.2.1 hb rfl hF
    refine ⟨_, ?_, rfl, f1, f2⟩
    rw [hlen, hK, hw1]
    have hrun : runItems (nm! "metronome-note") (s0.kids.map kidOf ++ []) = s0.kids.map kidOf := runItems_seg hn0 (by intro z hz; cases hz)
    simp only [noteRelation, List.map_nil]
    rw [hrun, List.drop_left, hnew, hr0, map_fst_pair, all_snd_pair, hadd]
    simp

theorem beatUnitPer_head {N : Nat} {d : Str} {k : Nat} {ss : List Slot} (hg : Here N (.comp .BeatUnitPer d k ss)) :
    ∃ x xs, (whole (.comp .BeatUnitPer d k ss)).kids.map (Xml.child prog) = x :: xs ∧ x.name = nm! "beat-unit" := by
  have hm0 : (Cls.BeatUnitPer).info.members[0]? = some ⟨.comp .BeatUnitGroup, .one⟩ := rfl
  have hst : (Cls.BeatUnitPer).info.stmts = [⟨[], 0, .body⟩, ⟨[], 1, .body⟩] := rfl
  obtain ⟨s0, da, ka, ssa, dta, kta, sta, hs0, _, hba, hga, _, hw0, hsame0⟩ := body_one (w := ⟨[], 0, .body⟩) hg (by rw [hst]; simp) rfl (by simp) hm0 (blankSlot_make _)
  obtain ⟨x, xs, hx, hxn⟩ := beatUnit_head hga.here
  exact ⟨x, _, by rw [whole_kids, hst, List.flatMap_cons, hw0, List.map_append, hx]; rfl, hxn⟩

theorem noteRelation_head {N : Nat} (hrd : RdBelow N) {d : Str} {k : Nat} {ss : List Slot} (hg : Here N (.comp .NoteRelationNote d k ss)) :
    ∃ x xs, (whole (.comp .NoteRelationNote d k ss)).kids.map (Xml.child prog) = x :: xs ∧ x.name = nm! "metronome-note" := by
  have hm0 : (Cls.NoteRelationNote).info.members[0]? = some ⟨.comp .MetronomeNote, .set ⟨1, none, 1, 1⟩⟩ := rfl
  have hst : (Cls.NoteRelationNote).info.stmts = [⟨[], 0, .element⟩, ⟨[.flag 1], 1, .body⟩] := rfl
  obtain ⟨s0, ns', hs0, hw0, hn0, hok0, hr0, hlen0, hsame0⟩ := elem_set hrd hg (w := ⟨[], 0, .element⟩) (by rw [hst]; simp) rfl rfl hm0
  have h1 : wide.lo .NoteRelationNote 0 ≤ s0.kids.length := hok0.2.1
  have h2 : wide.lo .NoteRelationNote 0 = 1 := by decide +kernel
  obtain ⟨n, ns, hn⟩ := List.exists_cons_of_length_pos (l := s0.kids) (by omega)
  exact ⟨kidOf n, _, by rw [whole_kids, hst, List.flatMap_cons, List.map_append, hw0, hn]; rfl, hn0 _ (by rw [hn]; simp)⟩

theorem metronome_head {N : Nat} (hrd : RdBelow N) {d : Str} {k : Nat} {ss : List Slot} (hg : Good N (.comp .BeatUnitPerOrNoteRelationNoteChoice d k ss)) :
    ∃ x xs, (whole (.comp .BeatUnitPerOrNoteRelationNoteChoice d k ss)).kids.map (Xml.child prog) = x :: xs ∧ (k = 0 ∧ x.name = nm! "beat-unit" ∨ k = 1 ∧ x.name = nm! "metronome-note") := by
  rcases two_choices hg.here rfl with rfl | rfl
  · obtain ⟨dn, kn, ssn, hgn, hK⟩ := pick_kids (w := ⟨[.choice 0], 0, .body⟩) (G := .BeatUnitPer) rfl (by simp) rfl hg.here
    obtain ⟨x, xs, hx, hxn⟩ := beatUnitPer_head hgn.here
    exact ⟨x, xs, by rw [hK, hx], .inl ⟨rfl, hxn⟩⟩
  · obtain ⟨dn, kn, ssn, hgn, hK⟩ := pick_kids (w := ⟨[.choice 1], 1, .body⟩) (G := .NoteRelationNote) rfl (by simp) rfl hg.here
    obtain ⟨x, xs, hx, hxn⟩ := noteRelation_head hrd hgn.here
    exact ⟨x, xs, by rw [hK, hx], .inr ⟨rfl, hxn⟩⟩

theorem metronomeGroup_reads : GroupReads .BeatUnitPerOrNoteRelationNoteChoice [] (fun g l => metronome l g) := by
  intro N hrd d k ss hg d0 k0 ss0 hb rest hr
  obtain ⟨x, xs, hx, hcase⟩ := metronome_head hrd hg
  rw [rest_nil hr, List.append_nil]
  rcases hcase with ⟨rfl, hxn⟩ | ⟨rfl, hxn⟩
  · obtain ⟨n', e1, e2⟩ := pick_group (w := ⟨[.choice 0], 0, .body⟩) (C := .BeatUnitPerOrNoteRelationNoteChoice) (by simp) rfl (by simp) rfl beatUnitPer_reads N hrd d ss hg d0 k0 ss0 hb [] (by intro x hx; cases hx)
    refine ⟨n', ?_, e2⟩
    rw [List.append_nil] at e1
    rw [← e1, hx]
    simp only [metronome]
    rw [if_pos (by rw [headIn, hxn]; decide +kernel)]
  · obtain ⟨n', e1, e2⟩ := pick_group (w := ⟨[.choice 1], 1, .body⟩) (C := .BeatUnitPerOrNoteRelationNoteChoice) (by simp) rfl (by simp) rfl noteRelation_reads N hrd d ss hg d0 k0 ss0 hb [] (by intro x hx; cases hx)
    refine ⟨n', ?_, e2⟩
    rw [List.append_nil] at e1
    rw [← e1, hx]
    simp only [metronome]
    rw [if_neg (by rw [headIn, hxn]; decide +kernel), if_pos (by rw [headIn, hxn]; decide +kernel)]

theorem metronome_reads : ClassReads .Metronome := by
  refine class_loop (body := [.metronome]) (strict := false) (need := []) rfl (stmts_free rfl) (fun _ _ _ _ _ => .inl rfl) (fun N self hrd => ⟨?_, trivial⟩)
  refine serve_got (w := ⟨[], 0, .body⟩) (pre := []) (st := .metronome) (next := true) (f := fun g l => metronome l g) (later := []) hrd (by simp) rfl metronomeGroup_reads ?_ (fun _ _ _ _ _ _ _ _ _ => rfl) ?_
  · intro d k ss hg e
    obtain ⟨x, xs, hx, _⟩ := metronome_head hrd hg
    rw [e] at hx; cases hx
  · exact { pre := by simp, post := .inl rfl }

end Mx.Content
