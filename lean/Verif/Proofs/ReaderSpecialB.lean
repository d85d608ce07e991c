import Verif.Proofs.ReaderSpecialA

/-
Classes with a reader of another form: choices of their own, measures, time modifications, parts.
-/
open Mx.Spec
namespace Mx.Content

/-! ## `dynamics` and `direction-type` -/

theorem choice_lt {N : Nat} {c : Cls} {d : Str} {k : Nat} {ss : List Slot} (hg : Here N (.comp c d k ss)) : c.info.choices = 0 ∨ k < c.info.choices := by
  obtain ⟨_, ⟨h2, _⟩, _⟩ := hg
  cases h2 with
  | comp _ _ _ _ hsh _ =>
    rcases hsh.choice with h | h
    · exact .inl h
    · exact .inr h.1

theorem here_readable {N : Nat} {c : Cls} {d : Str} {k : Nat} {ss : List Slot} (hg : Here N (.comp c d k ss)) : ReadableHere c d k ss := by
  obtain ⟨_, _, h4⟩ := hg
  cases h4 with
  | comp _ _ _ _ h _ => exact h

/-- As `choice_reads`, for the object itself. -/
theorem choice_reads_here {N : Nat} (hrd : RdBelow N) {G : Cls} {fs : List Field} {d : Str} {k : Nat} {ss : List Slot} (hg : Here N (.comp G d k ss)) (hsound : G ≠ .Sound)
    (hok : choiceOk G fs k = true) :
    ∃ x : Child, (whole (.comp G d k ss)).kids.map (Xml.child prog) = [x] ∧ ∃ f, field fs x.name = some f ∧
      ∀ d0 d' k0 ss0, Blank (.comp G d0 k0 ss0) → ∃ k' ss', (Node.comp G d' k0 ss0).readField f x = (.comp G d' k' ss', true) ∧
        (whole (.comp G d' k' ss')).kids = (whole (.comp G d k ss)).kids ∧ Fine (.comp G d' k' ss') := by
  obtain ⟨w, m, hf, hh, hm, hmult, hfield⟩ := choiceOk_cases hok
  have hw : w ∈ G.info.stmts ∧ inChoice k w = true := List.mem_filter.mp (by rw [hf]; simp)
  obtain ⟨m', s, hm', hs, hsok, hgood⟩ := good_slot hg hw.1 hw.2
  rw [hm] at hm'; cases hm'
  have hu : inUse (some m) s.on = true := inUse_one (by rw [hmult]; simp) _
  obtain ⟨n, hn, hk⟩ := ok_one (.inl hmult) hsok
  have hR := hrd n (hgood hu n (by rw [hn]; simp)) (by rw [hk]; exact stmt_named hw.1 hm hh)
  refine ⟨kidOf n, ?_, (w.slot, some k), by rw [kidOf_name, hk]; exact hfield, ?_⟩
  · rw [whole_kids_choice, hf, List.flatMap_singleton, segOf_eq hm hs hw.2, segOf_on hu, hn, List.flatMap_singleton, hh, seg_element]
  · intro d0 d' k0 ss0 ht
    obtain ⟨hl, hk', hbl⟩ := ht.slot
    obtain ⟨s0, h0⟩ := getElem?_same_length hl hm
    obtain ⟨t, rfl, htk, htb⟩ := blank_one (.inl hmult) (hbl _ m s0 hm h0)
    obtain ⟨n', e1, e2, e3, e4⟩ := hR.read t htb (by rw [htk, hk])
    have hS : SlotSame G w.slot m w.how s (.mk true [n']) :=
      slotSame_one (.inl hmult) hn (fun h => by rw [hmult] at h; cases h) (by rw [e2, hk]) e4 (by rw [hh]; simp [partOf, e3])
    have hF : Filled G ss [w] ss0 (ss0.set w.slot (.mk true [n'])) := .cons hm hs h0 hS (by simp) .nil
    obtain ⟨h1, h2⟩ := choice_fine (d' := d') hg.2.1 ht hf hsound hF
    refine ⟨k, ss0.set w.slot (.mk true [n']), ?_, h2, h1⟩
    rw [Node.readField, inner_mk _ h0, e1]
    rfl

/-- The choice `k` is a vector of elements, read by `ownSet`. -/
def ownSetOk (c : Cls) (body : List RStmt) (k : Nat) : Bool :=
  match c.info.stmts.filter (inChoice k) with
  | [w] => match w.how, c.info.members[w.slot]? with
    | .element, some ⟨kd, .set sc⟩ => Nat.beq sc.start 1 && Nat.ble 1 (wide.lo c w.slot) &&
        ((List.range body.length).any fun j => (match body[j]? with
          | some (.ownSet n i k') => Nat.beq n (kindName kd) && Nat.beq i w.slot && Nat.beq k' k
          | _ => false) && (body.take j).all fun p => !p.reacts (kindName kd))
    | _, _ => false
  | _ => false

theorem ownSet_reads {c : Cls} {body : List RStmt} (hp : prog c = .once body true) (hsound : c ≠ .Sound) {N : Nat} (hrd : RdBelow N) {d : Str} {k : Nat} {ss : List Slot}
    (hg : Here N (.comp c d k ss)) (hok : ownSetOk c body k = true) {d0 : Str} {k0 : Nat} {ss0 : List Slot} (hb : Blank (.comp c d0 k0 ss0)) (self : Child) :
    ∃ k' ss', (prog c).run self ((whole (.comp c d k ss)).kids.map (Xml.child prog)) (.comp c d k0 ss0) = (.comp c d k' ss', true) ∧
      Fine (.comp c d k' ss') ∧ (whole (.comp c d k' ss')).kids = (whole (.comp c d k ss)).kids := by
  unfold ownSetOk at hok
  split at hok
  · next w hf =>
    split at hok
    · next kd sc hh hm =>
      simp only [Bool.and_eq_true] at hok
      obtain ⟨⟨hstart, hlo⟩, hany⟩ := hok
      obtain ⟨j, _, hj⟩ := List.any_eq_true.mp hany
      simp only [Bool.and_eq_true, List.all_eq_true, Bool.not_eq_true'] at hj
      obtain ⟨hj1, hj2⟩ := hj
      split at hj1
      · next nm i k' hget =>
        simp only [Bool.and_eq_true] at hj1
        obtain ⟨⟨e1, e2⟩, e3⟩ := hj1
        have e1 := Nat.eq_of_beq_eq_true e1
        have e2 := Nat.eq_of_beq_eq_true e2
        have e3 := Nat.eq_of_beq_eq_true e3
        subst e1 e2 e3
        have hbody : body = body.take j ++ RStmt.ownSet (kindName kd) w.slot k' :: body.drop (j + 1) := by
          obtain ⟨hlt, hge⟩ := List.getElem?_eq_some_iff.mp hget
          rw [← hge, List.getElem_cons_drop, List.take_append_drop]
        have hw : w ∈ c.info.stmts ∧ inChoice k' w = true := List.mem_filter.mp (by rw [hf]; simp)
        obtain ⟨m', s, hm', hs, hsok, hgood⟩ := good_slot hg hw.1 hw.2
        rw [hm] at hm'; cases hm'
        have hu : inUse (some ⟨kd, .set sc⟩) s.on = true := rfl
        have hne : s.kids ≠ [] := by
          intro e
          have := hsok.2
          simp only [e, List.length_nil] at this
          have h2 := Nat.le_of_ble_eq_true hlo
          omega
        obtain ⟨hl, hk0, hbl⟩ := hb.slot
        obtain ⟨s0, h0⟩ := getElem?_same_length hl hm
        have hbl := hbl _ _ s0 hm h0
        obtain ⟨ns', h1, h2, h3, h4⟩ := items_read hrd hw.1 hh hm hsok (hgood hu)
        have hS : SlotSame c w.slot ⟨kd, .set sc⟩ w.how s (.mk s0.on ns') := slotSame_set rfl hsok h2 h3 (by rw [hh]; exact flatMap_element h4)
        have hF : Filled c ss [w] ss0 (ss0.set w.slot (.mk s0.on ns')) := .cons hm hs h0 hS (by simp) .nil
        obtain ⟨f1, f2⟩ := choice_fine (d' := d) hg.2.1 hb hf hsound hF
        refine ⟨k', _, ?_, f1, f2⟩
        have hkids : (whole (.comp c d k' ss)).kids.map (Xml.child prog) = s.kids.map kidOf := by
          rw [whole_kids_choice, hf, List.flatMap_singleton, segOf_eq hm hs hw.2, segOf_on hu, hh, flatMap_seg_element]
        rw [hkids, hp]
        obtain ⟨n, ks, hcons⟩ := List.exists_cons_of_ne_nil hne
        have hname : ∀ x ∈ s.kids.map kidOf, x.name = kindName kd := by
          intro x hx
          obtain ⟨n, hn, rfl⟩ := List.mem_map.mp hx
          rw [kidOf_name, hsok.1 n hn]
        have hrun : runItems (kindName kd) (s.kids.map kidOf) = s.kids.map kidOf := by
          have := runItems_seg (rest := []) hname (by simp)
          rwa [List.append_nil] at this
        have hx : (kidOf n).name = kindName kd := hname _ (by rw [hcons]; simp)
        have hst : (RStmt.ownSet (kindName kd) w.slot k').at self (.comp c d k0 ss0) (kidOf n) (ks.map kidOf) =
            ⟨.comp c d k' (ss0.set w.slot (.mk s0.on ns')), true, (ks.map kidOf).length, true⟩ := by
          rw [RStmt.at, hx, beq_self, if_pos rfl, ← List.map_cons, ← hcons, hrun, newItem_eq hm]
          dsimp only
          rw [h1, map_fst_pair, all_snd_pair, addRun_some h0, blank_kids (m := ⟨kd, .set sc⟩) rfl (by rw [Nat.eq_of_beq_eq_true hstart]; exact Nat.le_refl 1) hbl, hcons]
          simp [Node.choose]
        have hb' : runBody self body (.comp c d k0 ss0) (kidOf n :: ks.map kidOf) = ⟨.comp c d k' (ss0.set w.slot (.mk s0.on ns')), true, (ks.map kidOf).length, true⟩ := by
          rw [hbody, runBody_skip self _ _ _ _ _ (fun p hp => reacts_idle (by rw [hx]; exact hj2 p hp)), runBody, hst]
          rfl
        rw [hcons, List.map_cons, RProg.run]
        simp only [hb']
      · cases hj1
    · cases hok
  · cases hok

def ownB (c : Cls) : Bool :=
  match prog c with
  | .once (.own fs :: body) true => !Nat.beq c.info.choices 0 && (List.range c.info.choices).all fun k => choiceOk c fs k || ownSetOk c (.own fs :: body) k
  | _ => false

theorem own_reads {c : Cls} (hsound : c ≠ .Sound) (h : ownB c = true) : ClassReads c := by
  unfold ownB at h
  split at h
  · next fs body hp =>
    simp only [Bool.and_eq_true, Bool.not_eq_true', List.all_eq_true, Bool.or_eq_true] at h
    intro N hrd d k ss hg d0 k0 ss0 hb nm
    rcases choice_lt hg with hk | hk
    · rw [hk] at h; simp at h
    · rcases h.2 k (by simpa using hk) with h' | h'
      · obtain ⟨x, hx, f, hf, hread⟩ := choice_reads_here hrd hg hsound h'
        obtain ⟨k', ss', e1, e2, e3⟩ := hread d0 d k0 ss0 hb
        refine ⟨k', ss', ?_, e3, e2⟩
        rw [hx, hp, RProg.run]
        simp only [runBody, RStmt.at, hf, e1, if_true]
      · exact ownSet_reads hp hsound hrd hg h' hb _
  · cases h

theorem dynamics_reads : ClassReads .Dynamics := own_reads (by simp) (by decide +kernel)
theorem directionType_reads : ClassReads .DirectionType := own_reads (by simp) (by decide +kernel)

/-! ## Measures -/

theorem music_loop {N : Nat} (hrd : RdBelow N) {c : Cls} {fs : List Field} (hch : ChoicesOk .MusicDataChoice fs) {strict : Bool} {self : Child} {d dg : Str} {k kg : Nat} :
    ∀ (ns : List Node) (ss : List Slot) (b b2 : Bool) (acc : List Node), (∀ n ∈ ns, Good N n ∧ n.kind = .comp .MusicDataChoice) →
      ss[0]? = some (.mk b [.comp .MusicDataGroup dg kg [.mk b2 acc]]) → (acc = [] ∨ b2 = true) →
      ∃ (ns' : List Node) (b' b2' : Bool), ns'.length = ns.length ∧ (∀ n ∈ ns', n.kind = .comp .MusicDataChoice ∧ Fine n) ∧
        ns'.flatMap (fun n => partOf .body (whole n)) = ns.flatMap (fun n => partOf .body (whole n)) ∧
        L self [.music fs] strict (.comp c d k ss) (ns.flatMap (seg .body)) =
          (.comp c d k (ss.set 0 (.mk b' [.comp .MusicDataGroup dg kg [.mk b2' (acc ++ ns')]])), true)
  | [], ss, b, b2, acc, _, h0, _ => ⟨[], b, b2, rfl, by simp, rfl, by rw [List.append_nil, set_same h0]; rfl⟩
  | n :: ns, ss, b, b2, acc, h, h0, hacc => by
    obtain ⟨hgn, hnk⟩ := h n (by simp)
    obtain ⟨dn, kn, ssn, rfl, hco⟩ := choices_of hch hgn hnk
    obtain ⟨x, hx, f, hf, hread⟩ := choice_reads hrd hgn (by simp) hco
    obtain ⟨n', e1, e2, e3, e4⟩ := hread (make (.comp .MusicDataChoice)) (make_blank _) (make_kind _)
    obtain ⟨ns', b', b2', g1, g2, g3, g4⟩ := music_loop hrd hch (c := c) (self := self) (strict := strict) (d := d) (k := k) ns
      (ss.set 0 (.mk true [.comp .MusicDataGroup dg kg [.mk true (acc ++ [n'])]])) true true (acc ++ [n']) (fun x hx => h x (by simp [hx])) (set_get h0) (.inr rfl)
    refine ⟨n' :: ns', b', b2', by simp [g1], ?_, ?_, ?_⟩
    · intro y hy
      rcases List.mem_cons.mp hy with rfl | hy
      · exact ⟨e2, e4⟩
      · exact g2 y hy
    · rw [List.flatMap_cons, List.flatMap_cons, g3]
      simp only [partOf, e3]
    · rw [List.flatMap_cons, seg]
      simp only [partOf]
      rw [hx, List.singleton_append]
      have hm : (Cls.MusicDataGroup).info.members[0]? = some ⟨.comp .MusicDataChoice, .set ⟨0, none, 0, 0⟩⟩ := rfl
      have hst : (RStmt.music fs).at self (.comp c d k ss) x (ns.flatMap (seg .body)) =
          ⟨.comp c d k (ss.set 0 (.mk true [.comp .MusicDataGroup dg kg [.mk true (acc ++ [n'])]])), true, 0, true⟩ := by
        rw [RStmt.at, hf]
        simp only
        rw [inner_mk _ h0, newItem_eq hm, e1, addItem_some (s := .mk b2 acc) rfl]
        have hif : (if (Slot.mk b2 acc).kids.length = 1 ∧ (Slot.mk b2 acc).on = false then [] else (Slot.mk b2 acc).kids) = acc := by
          rw [kids_mk, on_mk]
          rcases hacc with rfl | rfl <;> simp
        rw [hif]
        rfl
      rw [show ([RStmt.music fs] : List RStmt) = [] ++ RStmt.music fs :: [] from rfl, L_seg (by simp) hst (List.drop_zero ..) (.inl rfl)]
      rw [show ([] ++ RStmt.music fs :: [] : List RStmt) = [RStmt.music fs] from rfl, g4, List.set_set, List.append_assoc, List.singleton_append]

theorem measure_reads {c : Cls} {fs : List Field} {strict : Bool} (hp : prog c = .loop none [.music fs] strict []) (hch : choicesB .MusicDataChoice fs = true)
    (hst : c.info.stmts = [⟨[.self], 0, .body⟩]) (hm : c.info.members[0]? = some ⟨.comp .MusicDataGroup, .one⟩) : ClassReads c := by
  intro N hrd d k ss hg d0 k0 ss0 hb nm
  have hF : Free c := by intro v hv; rw [hst] at hv; rw [List.mem_singleton.mp hv]; rfl
  obtain ⟨m', s, hm', hs, hok, hgood⟩ := good_slot hg (w := ⟨[.self], 0, .body⟩) (by rw [hst]; simp) (free_inChoice rfl k)
  rw [show c.info.members[(⟨[.self], 0, .body⟩ : Stmt).slot]? = some ⟨.comp .MusicDataGroup, .one⟩ from hm] at hm'; cases hm'
  have hu : inUse (some ⟨.comp .MusicDataGroup, .one⟩) s.on = true := rfl
  obtain ⟨n, hn, hnk⟩ := ok_one (.inl rfl) hok
  obtain ⟨hl, hk0, hbl⟩ := hb.slot
  obtain ⟨s0, h0⟩ := getElem?_same_length hl hm
  obtain ⟨t, rfl, htk, htb⟩ := blank_one (.inl rfl) (hbl _ _ s0 hm h0)
  have hgn := hgood hu n (by rw [hn]; simp)
  cases n with
  | leaf => simp [Node.kind] at hnk
  | comp c' dn kn ssn =>
  cases t with
  | leaf => simp [Node.kind] at htk
  | comp c'' dg kg ssg =>
  simp only [Node.kind, Kind.comp.injEq] at hnk htk
  subst hnk htk
  obtain ⟨hlg, hkg, hblg⟩ := htb.slot
  have hmg : (Cls.MusicDataGroup).info.members[0]? = some ⟨.comp .MusicDataChoice, .set ⟨0, none, 0, 0⟩⟩ := rfl
  obtain ⟨mg, sg, hmg', hsg, hokg, hgoodg⟩ := good_slot hgn.here (w := ⟨[], 0, .body⟩) (by simp [Cls.info, c_MusicDataGroup]) (free_inChoice rfl kn)
  rw [show (Cls.MusicDataGroup).info.members[(⟨[], 0, .body⟩ : Stmt).slot]? = some ⟨.comp .MusicDataChoice, .set ⟨0, none, 0, 0⟩⟩ from rfl] at hmg'; cases hmg'
  have hug : inUse (some ⟨.comp .MusicDataChoice, .set ⟨0, none, 0, 0⟩⟩) sg.on = true := rfl
  obtain ⟨sg0, hg0⟩ := getElem?_same_length hlg hmg
  have hblg := hblg _ _ sg0 hmg hg0
  have hlen : ssg.length = 1 := by rw [hlg]; rfl
  obtain ⟨x0, rfl⟩ := List.length_eq_one_iff.mp hlen
  simp only [List.getElem?_cons_zero, Option.some.injEq] at hg0
  subst hg0
  have hkids0 : x0.kids = [] := List.length_eq_zero_iff.mp hblg.2.1
  cases x0 with
  | mk b2 acc =>
  rw [kids_mk] at hkids0
  subst hkids0
  obtain ⟨ns', b', b2', g1, g2, g3, g4⟩ := music_loop hrd (choices_ok hch) (c := c) (self := ⟨nm, readInto prog nm d ((whole (.comp c d k ss)).kids.map (Xml.child prog)) 3⟩) (strict := strict)
    (d := d) (k := k0) sg.kids ss0 false b2 [] (fun n hn => ⟨hgoodg hug n hn, hokg.1 n hn⟩) h0 (.inl rfl)
  have hSg : SlotSame .MusicDataGroup 0 ⟨.comp .MusicDataChoice, .set ⟨0, none, 0, 0⟩⟩ .body sg (.mk b2' ns') := slotSame_set rfl hokg g1 g2 g3
  have hfillg : Filled .MusicDataGroup ssn (Cls.MusicDataGroup).info.stmts [.mk b2 []] ([Slot.mk b2 []].set 0 (.mk b2' ns')) :=
    .cons (w := ⟨[], 0, .body⟩) hmg hsg rfl hSg (by simp) .nil
  obtain ⟨q1, q2⟩ := filled_fine (d' := dg) (stmts_free rfl) hgn.2.1 htb rfl hfillg
  have hS : SlotSame c 0 ⟨.comp .MusicDataGroup, .one⟩ .body s (.mk b' [.comp .MusicDataGroup dg kg [.mk b2' ns']]) := {
    ok := ⟨by simp [kids_mk, Node.kind], by simp [kids_mk]⟩
    fine := by simpa [kids_mk] using q1
    on := fun h => by cases h
    seen := fun h => by cases h
    text := fun _ => by simpa [kids_mk, hn, partOf] using q2 }
  have hfill : Filled c ss c.info.stmts ss0 (ss0.set 0 (.mk b' [.comp .MusicDataGroup dg kg [.mk b2' ns']])) := by
    rw [hst]; exact .cons (w := ⟨[.self], 0, .body⟩) hm hs h0 hS (by simp) .nil
  obtain ⟨f1, f2⟩ := filled_fine (d' := d) hF hg.2.1 hb rfl hfill
  refine ⟨k0, _, ?_, f1, f2⟩
  have hkids : (whole (.comp c d k ss)).kids.map (Xml.child prog) = sg.kids.flatMap (seg .body) := by
    rw [whole_kids, hst, List.flatMap_singleton, segOf_eq (m := ⟨.comp .MusicDataGroup, .one⟩) hm hs (free_inChoice rfl k), segOf_on hu, hn, List.flatMap_singleton, seg]
    simp only [partOf]
    rw [whole_kids, show (Cls.MusicDataGroup).info.stmts = [⟨[], 0, .body⟩] from rfl, List.flatMap_singleton, segOf_eq hmg hsg rfl, segOf_on hug]
  rw [hp, RProg.run]
  simp only [Option.map_none, Option.getD_none, Bool.true_and, List.isEmpty_nil, Bool.true_or, Bool.and_true]
  rw [hkids] at g4 ⊢
  exact g4

theorem partwiseMeasure_reads : ClassReads .PartwiseMeasure := measure_reads rfl (by decide +kernel) rfl rfl
theorem timewisePart_reads : ClassReads .TimewisePart := measure_reads rfl (by decide +kernel) rfl rfl

end Mx.Content
