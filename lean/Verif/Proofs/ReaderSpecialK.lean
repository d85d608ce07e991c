import Verif.Proofs.ReaderSpecialJ

/-
`notehead-text`.
-/
open Mx.Spec
namespace Mx.Content

/-- A simple member with the attributes and the value of the element: the element itself can be read instead of the child. -/
theorem self_one {N : Nat} {c : Cls} {d : Str} {k : Nat} {ss : List Slot} {w : Stmt} (hrd : RdBelow N) (hg : Here N (.comp c d k ss)) (hw : w ∈ c.info.stmts) (hc : inChoice k w = true) (hh : w.how = .element)
    {t : Nat} {b : Bool} (hm : c.info.members[w.slot]? = some ⟨.leaf t b, .one⟩) {self : Child} {D : Str} (hself : Gives self D) (hD : ∀ x ∈ kidsAt ss w.slot, HasData D x)
    {s0 : Slot} (hb : BlankSlot ⟨.leaf t b, .one⟩ s0) :
    ∃ s n n' v, ss[w.slot]? = some s ∧ s0 = .mk false [v] ∧ (wholeStmt c k (wholeSlots ss) w).map (Xml.child prog) = [kidOf n] ∧ (kidOf n).name = t ∧
      self.read v = (n', true) ∧ SlotSame c w.slot ⟨.leaf t b, .one⟩ w.how s (.mk true [n']) := by
  obtain ⟨m, s, hm', hs, hok, hgood⟩ := good_slot hg hw hc
  rw [hm] at hm'; cases hm'
  have hu : inUse (some ⟨.leaf t b, .one⟩) s.on = true := rfl
  obtain ⟨n, hn, hk⟩ := ok_one (.inl rfl) hok
  obtain ⟨v, rfl, htk, htb⟩ := blank_one (.inl rfl) hb
  have hR := hrd n (hgood hu n (by rw [hn]; simp)) (by rw [hk]; exact stmt_named hw hm hh)
  obtain ⟨n', e1, e2, e3, e4⟩ := hR.read v htb (by rw [htk, hk])
  refine ⟨s, n, n', v, hs, rfl, ?_, by rw [kidOf_name, hk]; rfl, ?_, slotSame_one (.inl rfl) hn (fun h => by cases h) (by rw [e2, hk]) e4 (by rw [hh]; simp [partOf, e3])⟩
  · rw [segOf_eq hm hs hc, segOf_on hu, hn, List.flatMap_singleton, hh, seg_element]
  · obtain ⟨t1, h1, rfl⟩ := hD n (by simp [kidsAt, hs, hn])
    cases v with
    | comp c' d' k' ss' => cases htk
    | leaf t2 h2 d2 =>
      rw [hself, ← e1]
      rfl

def headTextBody : List RStmt := [.selfItem (nm! "accidental-text") 0 (1, some 1), .selfItem (nm! "display-text") 0 (0, some 0)]

/-- One item of a notehead text. -/
theorem headText_item {N : Nat} (hrd : RdBelow N) {n : Node} (hg : Good N n) (hk : n.kind = .comp .NoteheadTextChoice) {self : Child} {D : Str} (hself : Gives self D)
    (hD : ∀ x ∈ partsAt n (choiceOf n), HasData D x) :
    ∃ (x : Child) (n' : Node), (whole n).kids.map (Xml.child prog) = [x] ∧ n'.kind = .comp .NoteheadTextChoice ∧ Fine n' ∧ (whole n').kids = (whole n).kids ∧
      ∀ d k ss xs, runBody self headTextBody (.comp .NoteheadText d k ss) (x :: xs) = ⟨(Node.comp .NoteheadText d k ss).addItem 0 n', true, 0, true⟩ := by
  obtain ⟨d, k, ss, rfl⟩ := kind_comp hk
  obtain ⟨d0, k0, ss0, e0⟩ := kind_comp (make_kind (.comp .NoteheadTextChoice))
  have hb := make_blank .NoteheadTextChoice
  rw [e0] at hb
  obtain ⟨hl, hk0, hbl⟩ := hb.slot
  have hnew : ∀ d k ss, (Node.comp .NoteheadText d k ss).newItem 0 = .comp .NoteheadTextChoice d0 k0 ss0 := fun d k ss => by
    rw [newItem_eq (show (Cls.NoteheadText).info.members[0]? = some ⟨.comp .NoteheadTextChoice, .set ⟨1, none, 0, 1⟩⟩ from rfl)]; exact e0
  rcases two_choices hg.here rfl with rfl | rfl
  · have hm : (Cls.NoteheadTextChoice).info.members[0]? = some ⟨.leaf (nm! "display-text") true, .one⟩ := rfl
    have hf : (Cls.NoteheadTextChoice).info.stmts.filter (inChoice 0) = [⟨[.choice 0], 0, .element⟩] := rfl
    have hmem : (⟨[.choice 0], 0, .element⟩ : Stmt) ∈ (Cls.NoteheadTextChoice).info.stmts := (List.mem_filter.mp (by rw [hf]; simp)).1
    obtain ⟨s00, h00⟩ := getElem?_same_length hl hm
    obtain ⟨s, a, a', v, hs, rfl, hw, hn, hr, hsame⟩ := self_one (w := ⟨[.choice 0], 0, .element⟩) hrd hg.here hmem rfl rfl hm hself hD (hbl 0 _ _ hm h00)
    have hF : Filled .NoteheadTextChoice ss [⟨[.choice 0], 0, .element⟩] ss0 (ss0.set 0 (.mk true [a'])) := .cons (w := ⟨[.choice 0], 0, .element⟩) hm hs h00 hsame (by simp) .nil
    obtain ⟨f1, f2⟩ := choice_fine (d' := d0) hg.2.1 hb hf (by simp) hF
    refine ⟨kidOf a, _, ?_, rfl, f1, f2, ?_⟩
    · rw [whole_kids_choice, hf, List.flatMap_singleton, hw]
    · intro d k ss xs
      have hne : Nat.beq (kidOf a).name (nm! "accidental-text") = false := by rw [hn]; decide +kernel
      simp only [runBody, headTextBody, RStmt.at, hne, idle, Bool.false_eq_true, if_false, List.drop_zero, hnew]
      rw [hn, beq_self, if_pos rfl]
      simp only [Node.readField, Node.choose, Option.getD_some]
      rw [inner_mk _ h00, hr]
      rfl
  · have hm : (Cls.NoteheadTextChoice).info.members[1]? = some ⟨.leaf (nm! "accidental-text") true, .one⟩ := rfl
    have hf : (Cls.NoteheadTextChoice).info.stmts.filter (inChoice 1) = [⟨[.choice 1], 1, .element⟩] := rfl
    have hmem : (⟨[.choice 1], 1, .element⟩ : Stmt) ∈ (Cls.NoteheadTextChoice).info.stmts := (List.mem_filter.mp (by rw [hf]; simp)).1
    obtain ⟨s00, h00⟩ := getElem?_same_length hl hm
    obtain ⟨s, a, a', v, hs, rfl, hw, hn, hr, hsame⟩ := self_one (w := ⟨[.choice 1], 1, .element⟩) hrd hg.here hmem rfl rfl hm hself hD (hbl 1 _ _ hm h00)
    have hF : Filled .NoteheadTextChoice ss [⟨[.choice 1], 1, .element⟩] ss0 (ss0.set 1 (.mk true [a'])) := .cons (w := ⟨[.choice 1], 1, .element⟩) hm hs h00 hsame (by simp) .nil
    obtain ⟨f1, f2⟩ := choice_fine (d' := d0) hg.2.1 hb hf (by simp) hF
    refine ⟨kidOf a, _, ?_, rfl, f1, f2, ?_⟩
    · rw [whole_kids_choice, hf, List.flatMap_singleton, hw]
    · intro d k ss xs
      simp only [runBody, headTextBody, RStmt.at, hn, hnew]
      rw [beq_self, if_pos rfl]
      simp only [Node.readField, Node.choose, Option.getD_some]
      rw [inner_mk _ h00, hr]
      rfl

theorem headText_loop {N : Nat} (hrd : RdBelow N) {self : Child} {D : Str} (hself : Gives self D) {d : Str} {k : Nat} : ∀ (ns : List Node) (ss : List Slot) (acc : List Node),
    (∀ n ∈ ns, Good N n ∧ n.kind = .comp .NoteheadTextChoice) → (∀ n ∈ ns, ∀ x ∈ partsAt n (choiceOf n), HasData D x) → ss[0]? = some (.mk true acc) →
    ∃ ns' : List Node, ns'.length = ns.length ∧ (∀ n ∈ ns', n.kind = .comp .NoteheadTextChoice ∧ Fine n) ∧ ns'.flatMap (fun n => (whole n).kids) = ns.flatMap (fun n => (whole n).kids) ∧
      readLoop self headTextBody false (ns.flatMap (fun n => (whole n).kids.map (Xml.child prog))).length (.comp .NoteheadText d k ss) (ns.flatMap (fun n => (whole n).kids.map (Xml.child prog))) =
        (.comp .NoteheadText d k (ss.set 0 (.mk true (acc ++ ns'))), true)
  | [], ss, acc, _, _, h0 => ⟨[], rfl, by simp, rfl, by rw [List.append_nil, set_same h0]; rfl⟩
  | n :: ns, ss, acc, h, hD, h0 => by
    obtain ⟨x, n', hx, e2, e3, e4, e1⟩ := headText_item hrd (h n (by simp)).1 (h n (by simp)).2 hself (hD n (by simp))
    obtain ⟨ns', g1, g2, g3, g4⟩ := headText_loop hrd hself (d := d) (k := k) ns (ss.set 0 (.mk true (acc ++ [n']))) (acc ++ [n']) (fun m hm => h m (by simp [hm]))
      (fun m hm => hD m (by simp [hm])) (set_get h0)
    refine ⟨n' :: ns', by simp [g1], forall_cons ⟨e2, e3⟩ g2, by rw [List.flatMap_cons, List.flatMap_cons, g3, e4], ?_⟩
    rw [List.flatMap_cons, hx, List.singleton_append, List.length_cons, readLoop]
    simp only [e1, List.drop_zero]
    rw [addItem_some h0]
    simp only [on_mk, kids_mk, Bool.true_eq_false, and_false, if_false]
    rw [g4, List.set_set, List.append_assoc]
    rfl

theorem noteheadText_reads : ClassReads .NoteheadText := by
  intro N hrd d k ss hg d0 k0 ss0 hb nm
  obtain ⟨hl, hk0, hbl⟩ := hb.slot
  have hm : (Cls.NoteheadText).info.members[0]? = some ⟨.comp .NoteheadTextChoice, .set ⟨1, none, 0, 1⟩⟩ := rfl
  have hst : (Cls.NoteheadText).info.stmts = [⟨[], 0, .body⟩] := rfl
  obtain ⟨s00, h00⟩ := getElem?_same_length hl hm
  obtain ⟨s, hs, hok, hgood, hw, hsame⟩ := body_set hg (w := ⟨[], 0, .body⟩) (by rw [hst]; simp) rfl (by simp) hm
  generalize hself : (⟨nm, readInto prog nm d ((whole (.comp .NoteheadText d k ss)).kids.map (Xml.child prog)) 3⟩ : Child) = self
  have hself' : Gives self d := by
    rw [← hself]
    intro t h x
    rfl
  have hread := here_readable hg
  simp only [ReadableHere, kidsAt] at hread
  rw [show ss[0]? = some s from hs] at hread
  simp only [Option.map_some, Option.getD_some] at hread
  have hK : (whole (.comp .NoteheadText d k ss)).kids.map (Xml.child prog) = s.kids.flatMap (fun n => (whole n).kids.map (Xml.child prog)) := by
    rw [whole_kids, hst, List.flatMap_singleton, hw]
  cases he : s.kids with
  | nil => exact absurd he hread.1
  | cons n ns =>
    obtain ⟨x, n', hx, e2, e3, e4, e1⟩ := headText_item hrd (hgood n (by rw [he]; simp)).1 (hgood n (by rw [he]; simp)).2 hself' (hread.2 n (by rw [he]; simp))
    obtain ⟨ns', g1, g2, g3, g4⟩ := headText_loop hrd hself' (d := d) (k := k0) ns (ss0.set 0 (.mk true [n'])) [n'] (fun m hm => hgood m (by rw [he]; simp [hm]))
      (fun m hm => hread.2 m (by rw [he]; simp [hm])) (set_get h00)
    have hF : Filled .NoteheadText ss (Cls.NoteheadText).info.stmts ss0 (ss0.set 0 (.mk true (n' :: ns'))) := by
      rw [hst]
      exact .cons (w := ⟨[], 0, .body⟩) hm hs h00 (hsame _ _ (by rw [he]; simp [g1]) (forall_cons ⟨e2, e3⟩ g2) (by rw [he, List.flatMap_cons, List.flatMap_cons, g3, e4])) (by simp) .nil
    obtain ⟨f1, f2⟩ := filled_fine (d' := d) (stmts_free rfl) hg.2.1 hb rfl hF
    refine ⟨k0, _, ?_, f1, f2⟩
    rw [show prog .NoteheadText = .loop none headTextBody false [] from rfl, RProg.run]
    simp only [Option.map_none, Option.getD_none, Bool.true_and]
    rw [hK, he, List.flatMap_cons, hx, List.singleton_append, List.length_cons, readLoop]
    simp only [e1, List.drop_zero]
    have hz := blank_kids (m := ⟨.comp .NoteheadTextChoice, .set ⟨1, none, 0, 1⟩⟩) rfl (by simp) (hbl 0 _ _ hm h00)
    rw [addItem_some h00]
    simp only [(hbl 0 _ _ hm h00).1, and_true]
    rw [hz, List.nil_append, g4, List.set_set]
    rfl

end Mx.Content
