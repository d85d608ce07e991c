import Verif.Proofs.ReaderSpecialD

/-
Keys and time signatures.
-/
open Mx.Spec
namespace Mx.Content

/-- As `GroupReads`, for one value of the choice. -/
def ChoiceReads (C : Cls) (k : Nat) (last : List Nat) (f : Node → List Child → Got) : Prop :=
  ∀ N, RdBelow N → ∀ d ss, Good N (.comp C d k ss) → ∀ d0 k0 ss0, Blank (.comp C d0 k0 ss0) → ∀ rest, RestOk last rest → ∃ n',
    f (.comp C d0 k0 ss0) ((whole (.comp C d k ss)).kids.map (Xml.child prog) ++ rest) = ⟨n', true, (whole (.comp C d k ss)).kids.length⟩ ∧ n'.kind = .comp C ∧
      Fine n' ∧ (whole n').kids = (whole (.comp C d k ss)).kids

/-- The choice is a group. -/
theorem pick_group {C G : Cls} {k : Nat} {last : List Nat} {f : Node → List Child → Got} {w : Stmt} (hsound : C ≠ .Sound) (hf : C.info.stmts.filter (inChoice k) = [w]) (hh : w.how ≠ .element)
    (hm : C.info.members[w.slot]? = some ⟨.comp G, .one⟩) (hG : GroupReads G last f) : ChoiceReads C k last (fun g l => (g.choose (some k)).innerGot w.slot (fun t => f t l)) := by
  intro N hrd d ss hg d0 k0 ss0 hb rest hr
  obtain ⟨hl, hk0, hbl⟩ := hb.slot
  have hw : w ∈ C.info.stmts ∧ inChoice k w = true := List.mem_filter.mp (by rw [hf]; simp)
  obtain ⟨s00, h00⟩ := getElem?_same_length hl hm
  obtain ⟨s0, dn, kn, ssn, dt, kt, sst, hs0, rfl, hbt, hgn, _, hw0, hsame0⟩ := body_one (w := w) hg.here hw.1 hw.2 hh hm (hbl _ _ _ hm h00)
  obtain ⟨n0, e1, e2, e4, e3⟩ := hG N hrd dn kn ssn hgn dt kt sst hbt rest hr
  have hF : Filled C ss [w] ss0 (ss0.set w.slot (.mk true [n0])) := .cons hm hs0 h00 (hsame0 true n0 e2 e4 e3) (by simp) .nil
  obtain ⟨f1, f2⟩ := choice_fine (d' := d0) hg.2.1 hb hf hsound hF
  refine ⟨_, ?_, rfl, f1, f2⟩
  have hK : (whole (.comp C d k ss)).kids = (whole (.comp G dn kn ssn)).kids := by
    rw [whole_kids_choice, hf, List.flatMap_singleton, hw0]
  rw [hK]
  simp only [Node.choose]
  rw [innerGot_mk _ h00, e1]
  rfl

/-- The children of a choice that is a group are those of the group. -/
theorem pick_kids {N : Nat} {C G : Cls} {k : Nat} {d : Str} {ss : List Slot} {w : Stmt} (hf : C.info.stmts.filter (inChoice k) = [w]) (hh : w.how ≠ .element)
    (hm : C.info.members[w.slot]? = some ⟨.comp G, .one⟩) (hg : Here N (.comp C d k ss)) :
    ∃ dn kn ssn, Good N (.comp G dn kn ssn) ∧ (whole (.comp C d k ss)).kids = (whole (.comp G dn kn ssn)).kids := by
  have hw : w ∈ C.info.stmts ∧ inChoice k w = true := List.mem_filter.mp (by rw [hf]; simp)
  obtain ⟨s0, dn, kn, ssn, _, _, _, _, _, _, hgn, _, hw0, _⟩ := body_one (w := w) hg hw.1 hw.2 hh hm (blankSlot_make _)
  exact ⟨dn, kn, ssn, hgn, by rw [whole_kids_choice, hf, List.flatMap_singleton, hw0]⟩

theorem kids_cons {N : Nat} {G : Cls} {d : Str} {k : Nat} {ss : List Slot} (hg : Here N (.comp G d k ss)) (hne : (whole (.comp G d k ss)).kids ≠ []) :
    ∃ x xs, (whole (.comp G d k ss)).kids.map (Xml.child prog) = x :: xs ∧ x.name ∈ bodyNames 7 G := by
  obtain ⟨y, ys, hy⟩ := List.exists_cons_of_ne_nil hne
  refine ⟨_, _, by rw [hy]; rfl, ?_⟩
  rw [child_name]
  exact bodyNames_of 7 G (deep_all G) d k ss hg.2.1.1 y (by rw [hy]; simp)

theorem mem_any {l : List Nat} {n : Nat} (h : n ∈ l) : l.any (Nat.beq n) = true := List.any_eq_true.mpr ⟨n, h, beq_self n⟩

/-- One round of the loop in which a statement hands children to the reader of a group. -/
theorem got_step {self : Child} {pre post : List RStmt} {st : RStmt} {strict next : Bool} {c G : Cls} {d : Str} {k i : Nat} {ss : List Slot} {t n' : Node} {f : Node → List Child → Got} {kids rest : List Child}
    (h0 : ss[i]? = some (.mk false [t])) (hne : kids ≠ []) (hread : f t (kids ++ rest) = ⟨n', true, kids.length⟩)
    (hst : ∀ x xs, kids = x :: xs → st.at self (.comp c d k ss) x (xs ++ rest) = ((Node.comp c d k ss).innerGot i (fun t => f t (x :: (xs ++ rest)))).step next)
    (hpre : ∀ x ∈ kids, ∀ p ∈ pre, p.reacts x.name = false) (hpost : next = true ∨ strict = false ∧ ∀ x ∈ kids, ∀ p ∈ post, p.reacts x.name = false) :
    L self (pre ++ st :: post) strict (.comp c d k ss) (kids ++ rest) = L self (pre ++ st :: post) strict (.comp c d k (ss.set i (.mk true [n']))) rest := by
  obtain ⟨x, xs, rfl⟩ := List.exists_cons_of_ne_nil hne
  have hat := hst x xs rfl
  rw [innerGot_mk _ h0] at hat
  have hlast : ∃ l z, x :: xs = l ++ [z] := ⟨_, _, (List.dropLast_concat_getLast (by simp)).symm⟩
  obtain ⟨l, z, hlz⟩ := hlast
  have hlen : (x :: xs).length = l.length + 1 := by rw [hlz]; simp
  have happ : x :: (xs ++ rest) = l ++ z :: rest := by
    rw [← List.cons_append, hlz]; simp
  rw [List.cons_append] at hread
  rw [hread, hlen] at hat
  rw [List.cons_append]
  exact L_seg (fun p hp => reacts_idle (hpre x (by simp) p hp)) hat (by rw [happ]; exact drop_last) (by
    rcases hpost with h | ⟨h5, h6⟩
    · exact .inl h
    · exact .inr ⟨h5, fun p hp => reacts_idle (h6 z (by rw [hlz]; simp) p hp)⟩)

theorem got_slot {c G : Cls} {w : Stmt} (hh : w.how ≠ .element) {s : Slot} {n n' : Node} (hn : s.kids = [n]) (hk : n'.kind = .comp G) (hf : Fine n')
    (ht : (whole n').kids = (whole n).kids) : SlotSame c w.slot ⟨.comp G, .one⟩ w.how s (.mk true [n']) :=
  slotSame_one (.inl rfl) hn (fun h => by cases h) hk hf (by rw [partOf_body hh, partOf_body hh, ht])

theorem two_choices {N : Nat} {C : Cls} {d : Str} {k : Nat} {ss : List Slot} (hg : Here N (.comp C d k ss)) (hc : C.info.choices = 2) : k = 0 ∨ k = 1 := by
  have := choice_lt hg
  omega

/-! ## `key` -/

def newKeyNames : List Nat := [nm! "key-step", nm! "key-alter", nm! "key-accidental"]
def newKeyParts : List Part := [.one (nm! "key-step") 0, .one (nm! "key-alter") 1, .one (nm! "key-accidental") 2]
def oldKeyParts : List Part := [.one (nm! "cancel") 0, .one (nm! "fifths") 1, .one (nm! "mode") 2]

theorem newKey_parts : GroupReads .NonTraditionalKey [nm! "key-step", nm! "key-octave"] (readParts newKeyParts) := parts_reads rfl (by decide +kernel)

theorem newKey_head {N : Nat} {n : Node} (hg : Good N n) (hk : n.kind = .comp .NonTraditionalKey) : ∃ x xs, (whole n).kids.map (Xml.child prog) = x :: xs ∧ x.name = nm! "key-step" := by
  obtain ⟨d, k, ss, rfl⟩ := kind_comp hk
  obtain ⟨n, h1, h2⟩ := first_elem (w := ⟨[], 0, .element⟩) (ws := [⟨[], 1, .element⟩, ⟨[.flag 2], 2, .element⟩]) hg.here rfl rfl rfl (show (Cls.NonTraditionalKey).info.members[0]? = some ⟨.leaf (nm! "key-step") true, .one⟩ from rfl)
  exact ⟨_, _, h1, h2⟩

theorem newKeys_read {N : Nat} (hrd : RdBelow N) {rest : List Child} (hr : RestOk [nm! "key-octave"] rest) :
    ∀ (ns : List Node) (f : Nat), (∀ n ∈ ns, Good N n ∧ n.kind = .comp .NonTraditionalKey) → ns.length ≤ f →
      ∃ ns' : List Node, readGroups newKeyNames newKeyParts (make (.comp .NonTraditionalKey)) f (ns.flatMap (fun n => (whole n).kids.map (Xml.child prog)) ++ rest) =
          (ns', true, (ns.flatMap (fun n => (whole n).kids)).length) ∧ ns'.length = ns.length ∧ (∀ n ∈ ns', n.kind = .comp .NonTraditionalKey ∧ Fine n) ∧
          ns'.flatMap (fun n => (whole n).kids) = ns.flatMap (fun n => (whole n).kids)
  | [], f, _, _ => by
    refine ⟨[], ?_, rfl, by simp, rfl⟩
    cases f with
    | zero => rfl
    | succ f =>
      have : headIn newKeyNames rest = false := by
        cases rest with
        | nil => rfl
        | cons x xs =>
          have := hr x (by simp)
          rw [List.mem_singleton] at this
          rw [headIn, this]; decide +kernel
      rw [List.flatMap_nil, List.nil_append, readGroups, this]
      rfl
  | n :: ns, 0, _, h => by simp at h
  | n :: ns, f + 1, h, hle => by
    obtain ⟨hgn, hnk⟩ := h n (by simp)
    obtain ⟨ns', g1, g2, g3, g4⟩ := newKeys_read hrd hr ns f (fun x hx => h x (by simp [hx])) (by simpa using hle)
    obtain ⟨x, xs, hx, hxn⟩ := newKey_head hgn hnk
    obtain ⟨d, k, ss, rfl⟩ := kind_comp hnk
    obtain ⟨d0, k0, ss0, e0⟩ := kind_comp (make_kind (.comp .NonTraditionalKey))
    have hb := make_blank .NonTraditionalKey
    rw [e0] at hb g1 ⊢
    have hrest : RestOk [nm! "key-step", nm! "key-octave"] (ns.flatMap (fun n => (whole n).kids.map (Xml.child prog)) ++ rest) := by
      cases ns with
      | nil => intro y hy; have := hr y hy; simp only [List.mem_singleton] at this; rw [this]; simp
      | cons m ms =>
        obtain ⟨y, ys, hy, hyn⟩ := newKey_head (h m (by simp)).1 (h m (by simp)).2
        intro z hz
        rw [List.flatMap_cons, hy] at hz
        simp at hz
        rw [← hz, hyn]; simp
    obtain ⟨n', e1, e2, e3, e4⟩ := newKey_parts N hrd d k ss hgn d0 k0 ss0 hb _ hrest
    refine ⟨n' :: ns', ?_, by simp [g2], forall_cons ⟨e2, e3⟩ g3, by rw [List.flatMap_cons, List.flatMap_cons, e4, g4]⟩
    have hhead : headIn newKeyNames ((whole (.comp .NonTraditionalKey d k ss)).kids.map (Xml.child prog) ++ (ns.flatMap (fun n => (whole n).kids.map (Xml.child prog)) ++ rest)) = true := by
      rw [hx, List.cons_append, headIn, hxn]; decide +kernel
    rw [List.flatMap_cons, List.append_assoc, readGroups, if_pos hhead, e1]
    simp only
    rw [show (whole (.comp .NonTraditionalKey d k ss)).kids.length = ((whole (.comp .NonTraditionalKey d k ss)).kids.map (Xml.child prog)).length from (List.length_map ..).symm, List.drop_left, g1]
    simp only [Bool.true_and, List.length_map, List.flatMap_cons, List.length_append, Nat.add_comm]

/-- The reader of `newKey` on the choice. -/
def newKeyGot (g : Node) (l : List Child) : Got :=
  let r := readGroups newKeyNames newKeyParts (g.newItem 1) l.length l
  ⟨(g.addRun 1 r.1).choose (some 1), r.2.1, r.2.2⟩

theorem group_count {N : Nat} {G : Cls} : ∀ (ns : List Node), (∀ n ∈ ns, Good N n ∧ n.kind = .comp G) → (∀ n, Good N n → n.kind = .comp G → (whole n).kids ≠ []) →
    ns.length ≤ (ns.flatMap (fun n => (whole n).kids.map (Xml.child prog))).length
  | [], _, _ => by simp
  | n :: ns, h, hne => by
    have h1 := group_count ns (fun x hx => h x (by simp [hx])) hne
    have h2 := List.length_pos_iff.mpr (hne n (h n (by simp)).1 (h n (by simp)).2)
    rw [List.flatMap_cons, List.length_append, List.length_map, List.length_cons]
    omega

theorem newKey_choice : ChoiceReads .KeyChoice 1 [nm! "key-octave"] newKeyGot := by
  intro N hrd d ss hg d0 k0 ss0 hb rest hr
  obtain ⟨hl, hk0, hbl⟩ := hb.slot
  have hm : (Cls.KeyChoice).info.members[1]? = some ⟨.comp .NonTraditionalKey, .set ⟨0, none, 0, 0⟩⟩ := rfl
  have hf : (Cls.KeyChoice).info.stmts.filter (inChoice 1) = [⟨[.choice 1], 1, .body⟩] := rfl
  obtain ⟨s0, h0⟩ := getElem?_same_length hl hm
  obtain ⟨s, hs, hok, hgood, hw, hsame⟩ := body_set hg.here (w := ⟨[.choice 1], 1, .body⟩) (by simp [Cls.info, c_KeyChoice]) rfl (by simp) hm
  have hkk : s0.kids = [] := List.length_eq_zero_iff.mp (hbl 1 _ _ hm h0).2.1
  obtain ⟨ns', g1, g2, g3, g4⟩ := newKeys_read hrd hr s.kids (s.kids.flatMap (fun n => (whole n).kids.map (Xml.child prog)) ++ rest).length hgood (by
    rw [List.length_append]
    have := group_count s.kids hgood (fun n h1 h2 e => by obtain ⟨x, xs, hx, _⟩ := newKey_head h1 h2; rw [e] at hx; cases hx)
    omega)
  have hF : Filled .KeyChoice ss [⟨[.choice 1], 1, .body⟩] ss0 (ss0.set 1 (.mk s0.on ns')) := .cons (w := ⟨[.choice 1], 1, .body⟩) hm hs h0 (hsame _ _ g2 g3 g4) (by simp) .nil
  obtain ⟨f1, f2⟩ := choice_fine (d' := d0) hg.2.1 hb hf (by simp) hF
  refine ⟨_, ?_, rfl, f1, f2⟩
  have hK : (whole (.comp .KeyChoice d 1 ss)).kids.map (Xml.child prog) = s.kids.flatMap (fun n => (whole n).kids.map (Xml.child prog)) := by
    rw [whole_kids_choice, hf, List.flatMap_singleton, hw]
  have hlen : (whole (.comp .KeyChoice d 1 ss)).kids.length = (s.kids.flatMap (fun n => (whole n).kids)).length := by
    rw [← List.length_map (f := Xml.child prog), hK, ← List.map_flatMap, List.length_map]
  rw [hK, hlen]
  simp only [newKeyGot]
  rw [newItem_eq hm, g1, addRun_some h0, hkk]
  rfl

theorem oldKey_choice : ChoiceReads .KeyChoice 0 [nm! "key-octave"] (fun g l => (g.choose (some 0)).innerGot 0 (fun t => readParts oldKeyParts t l)) :=
  pick_group (w := ⟨[.choice 0], 0, .body⟩) (G := .TraditionalKey) (by simp) rfl (by simp) rfl (parts_reads rfl (by decide +kernel))

theorem serve_key {N : Nat} {self : Child} (hrd : RdBelow N) : Serve N self [.oldKey, .newKey, .set (nm! "key-octave") 1 true] false .Key ⟨[], 0, .bodyIf⟩ [nm! "key-octave"] := by
  intro d k ss m s s0 rest hm hok hgood h0 hb hr
  have hm0 : (Cls.Key).info.members[0]? = some ⟨.comp .KeyChoice, .one⟩ := rfl
  rw [show (Cls.Key).info.members[(⟨[], 0, .bodyIf⟩ : Stmt).slot]? = _ from hm0] at hm; cases hm
  obtain ⟨n, hn, hnk⟩ := ok_one (.inl rfl) hok
  obtain ⟨t, rfl, htk, htb⟩ := blank_one (.inl rfl) hb
  have hgn := hgood rfl n (by rw [hn]; simp)
  obtain ⟨dn, kn, ssn, rfl⟩ := kind_comp hnk
  obtain ⟨dt, kt, sst, rfl⟩ := kind_comp htk
  have hseg : segOf ⟨[], 0, .bodyIf⟩ ⟨.comp .KeyChoice, .one⟩ s = (whole (.comp .KeyChoice dn kn ssn)).kids.map (Xml.child prog) := by
    rw [segOf_on rfl, hn, List.flatMap_singleton, seg, partOf_body (by simp)]
  rw [hseg]
  rcases two_choices hgn.here rfl with rfl | rfl
  · obtain ⟨n', e1, e2, e3, e4⟩ := oldKey_choice N hrd dn ssn hgn dt kt sst htb rest hr
    refine ⟨.mk true [n'], got_slot (w := ⟨[], 0, .bodyIf⟩) (by simp) hn e2 e3 e4, ?_⟩
    obtain ⟨dn', kn', ssn', hgn', hK⟩ := pick_kids (w := ⟨[.choice 0], 0, .body⟩) (G := .TraditionalKey) rfl (by simp) rfl hgn.here
    rw [hK] at e1 ⊢
    have hne := solid_ne (name := nm! "fifths") (by decide +kernel) hgn' rfl
    obtain ⟨y, ys, hy, hyn⟩ := kids_cons hgn'.here hne
    refine got_step (G := .KeyChoice) (f := fun g l => (g.choose (some 0)).innerGot 0 (fun t => readParts oldKeyParts t l)) (pre := []) (st := .oldKey) (next := true) h0 (by simpa using hne) (by rw [List.length_map]; exact e1) ?_ (by simp) (.inl rfl)
    intro x xs hx
    rw [hy] at hx; cases hx
    rw [RStmt.at, if_pos (show headIn [nm! "cancel", nm! "fifths", nm! "mode"] (y :: (ys ++ rest)) = true from mem_any hyn)]
    rfl
  · obtain ⟨n', e1, e2, e3, e4⟩ := newKey_choice N hrd dn ssn hgn dt kt sst htb rest hr
    refine ⟨.mk true [n'], got_slot (w := ⟨[], 0, .bodyIf⟩) (by simp) hn e2 e3 e4, ?_⟩
    have hne : (whole (.comp .KeyChoice dn 1 ssn)).kids ≠ [] := by
      obtain ⟨s1, hs1, _, hgood1, hw1, _⟩ := body_set hgn.here (w := ⟨[.choice 1], 1, .body⟩) (by simp [Cls.info, c_KeyChoice]) rfl (by simp) (show (Cls.KeyChoice).info.members[1]? = some ⟨.comp .NonTraditionalKey, .set ⟨0, none, 0, 0⟩⟩ from rfl)
      have hr1 := here_readable hgn.here
      simp only [ReadableHere, kidsAt] at hr1
      rw [show ssn[1]? = some s1 from hs1] at hr1
      have hr1 := hr1 trivial
      obtain ⟨q, qs, hq⟩ := List.exists_cons_of_ne_nil (l := s1.kids) (by simpa using hr1)
      have hgq := hgood1 q (by rw [hq]; simp)
      obtain ⟨x, xs, hx, _⟩ := newKey_head hgq.1 hgq.2
      intro e
      rw [whole_kids_choice, show (Cls.KeyChoice).info.stmts.filter (inChoice 1) = [⟨[.choice 1], 1, .body⟩] from rfl, List.flatMap_singleton] at e
      rw [e, hq, List.flatMap_cons, hx] at hw1
      cases hw1
    have hnames : ∀ x ∈ (whole (.comp .KeyChoice dn 1 ssn)).kids.map (Xml.child prog), x.name ∈ newKeyNames := by
      intro x hx
      obtain ⟨y, hy, rfl⟩ := List.mem_map.mp hx
      rw [child_name]
      rw [whole_kids_choice, show (Cls.KeyChoice).info.stmts.filter (inChoice 1) = [⟨[.choice 1], 1, .body⟩] from rfl, List.flatMap_singleton] at hy
      exact names_of hgn.2.1.1 (by simp [Cls.info, c_KeyChoice]) y hy
    refine got_step (G := .KeyChoice) (f := newKeyGot) (pre := [.oldKey]) (st := .newKey) (next := true) h0 (by simpa using hne) (by rw [List.length_map]; exact e1) ?_ ?_ (.inl rfl)
    · intro x xs hx
      rw [RStmt.at, if_pos (show headIn [nm! "key-step", nm! "key-alter", nm! "key-accidental"] (x :: (xs ++ rest)) = true from mem_any (hnames x (by rw [hx]; simp)))]
      rfl
    · intro x hx p hp
      rw [List.mem_singleton.mp hp]
      have := hnames x hx
      simp only [newKeyNames, List.mem_cons, List.not_mem_nil, or_false] at this
      rcases this with e | e | e <;> rw [e] <;> decide +kernel

theorem key_reads : ClassReads .Key :=
  class_loop (body := [.oldKey, .newKey, .set (nm! "key-octave") 1 true]) (strict := false) (need := []) rfl (stmts_free rfl) (fun _ _ _ _ _ => .inl rfl)
    (fun _ _ hrd => serveAll_but hrd (a := []) (b := [⟨[], 1, .element⟩]) (v := ⟨[], 0, .bodyIf⟩) rfl (serve_key hrd) (by decide +kernel))

end Mx.Content
