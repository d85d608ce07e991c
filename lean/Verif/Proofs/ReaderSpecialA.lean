import Verif.Proofs.ReaderPlain

/-
Classes with a reader of another form: the first ones.
-/
open Mx.Spec
namespace Mx.Content

/-! ## Elements that are always there -/

def solid (c : Cls) (name : Nat) : Bool :=
  c.info.stmts.any fun w => freeStmt w && isElement w.how && match c.info.members[w.slot]? with | some ⟨kd, .one⟩ => Nat.beq (kindName kd) name | _ => false

theorem solid_mem {c : Cls} {name : Nat} (h : solid c name = true) {N : Nat} {d : Str} {k : Nat} {ss : List Slot} (hg : Here N (.comp c d k ss)) :
    ∃ x ∈ (whole (.comp c d k ss)).kids, x.name = name := by
  obtain ⟨w, hw, hb⟩ := List.any_eq_true.mp h
  simp only [Bool.and_eq_true] at hb
  obtain ⟨⟨h1, h2⟩, h3⟩ := hb
  obtain ⟨m, s, hm, hs, hok, _⟩ := good_slot hg hw (free_inChoice h1 k)
  rw [hm] at h3
  split at h3
  · next kd e =>
    have e := Option.some.inj e
    subst e
    obtain ⟨n, hn, hk⟩ := ok_one (.inl rfl) hok
    refine ⟨(whole n).element, ?_, by rw [whole_name, hk]; exact Nat.eq_of_beq_eq_true h3⟩
    rw [whole_kids]
    refine List.mem_flatMap.mpr ⟨w, hw, ?_⟩
    rw [wholeStmt_part hs, hm, free_inChoice h1 k, Bool.true_and, if_pos (inUse_one (by simp) _), hn, element_of h2]
    simp [partOf]
  · cases h3

theorem solid_ne {c : Cls} {name : Nat} (h : solid c name = true) {N : Nat} {n : Node} (hg : Good N n) (hk : n.kind = .comp c) : (whole n).kids ≠ [] := by
  cases n with
  | leaf => simp [Node.kind] at hk
  | comp c' d k ss =>
    simp only [Node.kind, Kind.comp.injEq] at hk
    subst hk
    obtain ⟨x, hx, _⟩ := solid_mem h hg.here
    intro e; rw [e] at hx; cases hx

/-- A plain loop at whose end an element is demanded that is always there. -/
def needB (c : Cls) : Bool :=
  match prog c with
  | .loop none body strict [name] => c.info.stmts.all freeStmt && serveAllB c body strict [] [] c.info.stmts && solid c name
  | _ => false

theorem need_reads {c : Cls} (h : needB c = true) : ClassReads c := by
  unfold needB at h
  split at h
  · next body strict name hp =>
    simp only [Bool.and_eq_true] at h
    refine class_loop hp (List.all_eq_true.mp h.1.1) (fun N d k ss hg => .inr ?_)
      (fun N self hrd => serveAll_of hrd (fun _ _ _ _ h => by cases h) [] _ rfl h.1.2)
    obtain ⟨x, hx, hn⟩ := solid_mem h.2 hg
    exact List.any_eq_true.mpr ⟨x, hx, by simp [hn]⟩
  · cases h

theorem scoreInstrument_reads : ClassReads .ScoreInstrument := need_reads (by decide +kernel)

/-! ## `rest` and `unpitched` -/

theorem once_group_reads {c G : Cls} {parts : List Part} {w : Stmt} {name : Nat} (hp : prog c = .once [.group w.slot parts true] false) (hst : c.info.stmts = [w]) (hfree : freeStmt w = true)
    (hh : w.how ≠ .element) (hm : c.info.members[w.slot]? = some ⟨.comp G, .opt⟩) (hG : G.info.choices = 0) (hparts : partsOk G [] parts G.info.stmts = true)
    (hsolid : solid G name = true) : ClassReads c := by
  intro N hrd d k ss hg d0 k0 ss0 hb nm
  have hF : Free c := by intro v hv; rw [hst] at hv; rw [List.mem_singleton.mp hv]; exact hfree
  obtain ⟨m', s, hm', hs, hok, hgood⟩ := good_slot hg (w := w) (by rw [hst]; simp) (free_inChoice hfree k)
  rw [hm] at hm'; cases hm'
  obtain ⟨hl, hk0, hbl⟩ := hb.slot
  obtain ⟨s0, h0⟩ := getElem?_same_length hl hm
  have hbl := hbl _ _ s0 hm h0
  have hkids : (whole (.comp c d k ss)).kids.map (Xml.child prog) = segOf w ⟨.comp G, .opt⟩ s := by
    rw [whole_kids, hst, List.flatMap_singleton, segOf_eq hm hs (free_inChoice hfree k)]
  rcases one_cases (s := s) hm (.inr rfl) hbl with ⟨hu, hon⟩ | ⟨hu, hsame⟩
  · obtain ⟨n, hn, hnk⟩ := ok_one (.inr rfl) hok
    obtain ⟨t, rfl, htk, htb⟩ := blank_one (.inr rfl) hbl
    have hgn := hgood hu n (by rw [hn]; simp)
    obtain ⟨n', e1, e2, e3, e4⟩ := readParts_group (rest := []) hrd hG hparts hgn hnk htb htk (by intro x hx; cases hx)
    have hS : SlotSame c w.slot ⟨.comp G, .opt⟩ w.how s (.mk true [n']) := slotSame_one (.inr rfl) hn hon e2 e4 (by rw [partOf_body hh, partOf_body hh, e3])
    have hfill : Filled c ss c.info.stmts ss0 (ss0.set w.slot (.mk true [n'])) := by rw [hst]; exact .cons hm hs h0 hS (by simp) .nil
    obtain ⟨f1, f2⟩ := filled_fine (d' := d) hF hg.2.1 hb rfl hfill
    refine ⟨k0, _, ?_, f1, f2⟩
    rw [hkids, segOf_on hu, hn, List.flatMap_singleton, seg, partOf_body hh]
    have hne := solid_ne hsolid hgn hnk
    obtain ⟨y, ys, hy⟩ := List.exists_cons_of_ne_nil hne
    rw [List.append_nil] at e1
    rw [hy] at e1 ⊢
    rw [hp, List.map_cons] at *
    simp only [RProg.run, runBody, RStmt.at, Node.kid?, h0, Option.bind_some, kids_mk, List.head?_cons, e1, List.length_cons, Nat.add_eq_zero_iff, Nat.one_ne_zero, and_false, if_false,
      Node.setKid, changeSlot_some h0, List.tail_cons, Bool.false_eq_true, idle, Bool.and_true]
  · have hfill : Filled c ss c.info.stmts ss0 (ss0.set w.slot s0) := by rw [hst]; exact .cons hm hs h0 (hsame _) (by simp) .nil
    rw [set_same h0] at hfill
    obtain ⟨f1, f2⟩ := filled_fine (d' := d) hF hg.2.1 hb rfl hfill
    refine ⟨k0, ss0, ?_, f1, f2⟩
    rw [hkids, segOf_off hu, hp]
    rfl

theorem rest_reads : ClassReads .Rest :=
  once_group_reads (w := ⟨[.flag 0], 0, .body⟩) (G := .DisplayStepOctaveGroup) (name := nm! "display-step") rfl rfl rfl (by simp) rfl rfl (by decide +kernel) (by decide +kernel)

theorem unpitched_reads : ClassReads .Unpitched :=
  once_group_reads (w := ⟨[.flag 0], 0, .body⟩) (G := .DisplayStepOctaveGroup) (name := nm! "display-step") rfl rfl rfl (by simp) rfl rfl (by decide +kernel) (by decide +kernel)

/-! ## `measure` of a timewise score: there is at least one part -/

theorem timewiseMeasure_reads : ClassReads .TimewiseMeasure := by
  intro N hrd d k ss hg d0 k0 ss0 hb nm
  have hF : Free .TimewiseMeasure := stmts_free rfl
  have hw : (⟨[.self], 0, .element⟩ : Stmt) ∈ (Cls.TimewiseMeasure).info.stmts := by simp [Cls.info, c_TimewiseMeasure]
  obtain ⟨m, s, hm, hs, hok, hgood⟩ := good_slot hg hw (free_inChoice rfl k)
  have hm' : (Cls.TimewiseMeasure).info.members[0]? = some ⟨.comp .TimewisePart, .set ⟨1, none, 0, 0⟩⟩ := rfl
  rw [hm'] at hm; cases hm
  have hu : inUse (some ⟨.comp .TimewisePart, .set ⟨1, none, 0, 0⟩⟩) s.on = true := rfl
  have hne : s.kids ≠ [] := by
    have := hg.2.2
    cases this with
    | comp _ _ _ _ h _ =>
      simp only [ReadableHere, kidsAt] at h
      rw [show ss[0]? = some s from hs] at h
      simpa using h
  obtain ⟨hl, hk0, hbl⟩ := hb.slot
  obtain ⟨s0, h0⟩ := getElem?_same_length hl hm'
  have hbl := hbl _ _ s0 hm' h0
  obtain ⟨ns', h1, h2, h3, h4⟩ := items_read hrd hw rfl hm' hok (hgood hu)
  have hS : SlotSame .TimewiseMeasure 0 ⟨.comp .TimewisePart, .set ⟨1, none, 0, 0⟩⟩ .element s (.mk true ns') := slotSame_set rfl hok h2 h3 (flatMap_element h4)
  have hfill : Filled .TimewiseMeasure ss (Cls.TimewiseMeasure).info.stmts ss0 (ss0.set 0 (.mk true ns')) :=
    .cons (w := ⟨[.self], 0, .element⟩) hm' hs h0 hS (by simp) .nil
  obtain ⟨f1, f2⟩ := filled_fine (d' := d) hF hg.2.1 hb rfl hfill
  refine ⟨k0, _, ?_, f1, f2⟩
  have hkids : (whole (.comp .TimewiseMeasure d k ss)).kids.map (Xml.child prog) = s.kids.map kidOf := by
    rw [whole_kids, show (Cls.TimewiseMeasure).info.stmts = [⟨[.self], 0, .element⟩] from rfl, List.flatMap_singleton, segOf_eq hm' hs rfl, segOf_on hu]
    exact flatMap_seg_element _
  rw [hkids]
  obtain ⟨n, ks, hcons⟩ := List.exists_cons_of_ne_nil hne
  have ha : Around .TimewiseMeasure ⟨[.self], 0, .element⟩ [] [] true true := ⟨by simp, .inl rfl⟩
  have hname : ∀ n ∈ s.kids, (kidOf n).name = nm! "part" := by
    intro n hn
    rw [kidOf_name, hok.1 n hn]; rfl
  cases ns' with
  | nil => rw [hcons] at h2; simp at h2
  | cons n' ns' =>
    rw [hcons] at h1
    simp only [List.map_cons, List.cons.injEq] at h1
    generalize hself : (⟨nm, readInto prog nm d (s.kids.map kidOf) 3⟩ : Child) = self
    have hst : (RStmt.item (nm! "part") 0).at self (.comp .TimewiseMeasure d k0 ss0) (kidOf n) (ks.map kidOf ++ []) =
        ⟨.comp .TimewiseMeasure d k0 (ss0.set 0 (.mk true [n'])), true, 0, true⟩ := by
      rw [RStmt.at, hname n (by rw [hcons]; simp), beq_self, if_pos rfl, newItem_eq hm', h1.1, addItem_some h0]
      simp only [hbl.1, and_true]
      rw [blank_kids (m := ⟨.comp .TimewisePart, .set ⟨1, none, 0, 0⟩⟩) rfl (Nat.le_refl 1) hbl]
      rfl
    have hL : L self [.item (nm! "part") 0] true (.comp .TimewiseMeasure d k0 ss0) (s.kids.map kidOf) = (.comp .TimewiseMeasure d k0 (ss0.set 0 (.mk true (n' :: ns'))), true) := by
      rw [hcons, List.map_cons, ← List.append_nil (ks.map kidOf)]
      rw [show ([RStmt.item (nm! "part") 0] : List RStmt) = [] ++ RStmt.item (nm! "part") 0 :: [] from rfl]
      rw [L_one (c := .TimewiseMeasure) (w := ⟨[.self], 0, .element⟩) ha (by rw [names_element hm' rfl, hname n (by rw [hcons]; simp)]; simp [kindName, Cls.info, c_TimewisePart]) hst]
      rw [items_loop (name := nm! "part") (c := .TimewiseMeasure) (w := ⟨[.self], 0, .element⟩) hm' rfl rfl ha ks ns' _ [n'] (fun x hx => hok.1 x (by rw [hcons]; simp [hx])) h1.2 (set_get h0), List.set_set, L_nil]
      rfl
    rw [show prog .TimewiseMeasure = .loop none [.item (nm! "part") 0] true [nm! "part"] from rfl, RProg.run]
    simp only [Option.map_none, Option.getD_none, Bool.true_and]
    rw [show readLoop self _ true (s.kids.map kidOf).length (.comp .TimewiseMeasure d k0 ss0) (s.kids.map kidOf) = _ from hL]
    have : ((s.kids.map kidOf).any fun x => [nm! "part"].any (Nat.beq x.name)) = true := by
      rw [List.any_eq_true]
      exact ⟨kidOf n, by rw [hcons]; simp, by rw [hname n (by rw [hcons]; simp)]; rfl⟩
    rw [this, Bool.or_true]; rfl

end Mx.Content
