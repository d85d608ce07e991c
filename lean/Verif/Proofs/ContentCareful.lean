import Verif.Proofs.ContentValid

/-
Careful programs.
-/
open Mx.Spec
namespace Mx.Content

theorem slot_one {L : Limits} {c : Cls} {k : Nat} {ss : List Slot} (h : Shape L c k ss) {i : Nat} {m : Member}
    (hm : c.info.members[i]? = some m) (hs : ∀ s, m.mult ≠ .set s) :
    ∃ b n, ss[i]? = some (.mk b [n]) ∧ n.kind = m.kind := by
  obtain ⟨sl, hsl⟩ := getElem?_same_length h.length hm
  have hok := h.slots i m sl hm hsl
  have h2 := hok.2
  have h1 : sl.kids.length = 1 := by
    cases hmu : m.mult with
    | one => rw [hmu] at h2; exact h2
    | opt => rw [hmu] at h2; exact h2
    | set s => exact absurd hmu (hs s)
  obtain ⟨n, hn⟩ := List.length_eq_one_iff.mp h1
  cases sl with
  | mk b ks =>
    simp only [kids_mk] at hn
    subst hn
    exact ⟨b, n, hsl, hok.1 n (by simp [Slot.kids])⟩

theorem element_decl {n : Node} {kd : Kind} (h : n.kind = kd) : kindDecl n.write.element.kind = kindDecl kd := by
  rw [write_element_kind, h]

/-- The contents of a time signature group. -/
theorem timeGroup_body {L : Limits} {d : Str} {k : Nat} {ss : List Slot} (h : Shape L .TimeSignatureGroup k ss) :
    ∃ b n, ss[2]? = some (.mk b [n]) ∧ itemDecls (Node.write (.comp .TimeSignatureGroup d k ss)).body =
      [nm! "beats", nm! "beat-type"] ++ (if b then [nm! "interchangeable"] else []) := by
  obtain ⟨b0, n0, h0, k0⟩ := slot_one h (i := 0) (m := ⟨.leaf (nm! "beats") true, .one⟩) rfl (fun _ h => by cases h)
  obtain ⟨b1, n1, h1, k1⟩ := slot_one h (i := 1) (m := ⟨.leaf (nm! "beat-type") true, .one⟩) rfl (fun _ h => by cases h)
  obtain ⟨b2, n2, h2, k2⟩ := slot_one h (i := 2) (m := ⟨.comp .Interchangeable, .opt⟩) rfl (fun _ h => by cases h)
  refine ⟨b2, n2, h2, ?_⟩
  have hst : Cls.TimeSignatureGroup.info.stmts = [⟨[], 0, .element⟩, ⟨[], 1, .element⟩, ⟨[.flag 2], 2, .element⟩] := rfl
  have e0 := element_decl k0
  have e1 := element_decl k1
  have e2 := element_decl k2
  simp only [Node.write, assemble, hst, Stmt.write, writeSlots_get, h0, h1, h2, Option.map_some, Option.getD_some, writeSlot_kids, kids_mk,
    List.flatMap_cons, List.flatMap_nil, List.map_cons, List.map_nil, How.write, List.all_nil, if_true, Cond.eval, writeSlot_on, Slot.on,
    List.all_cons, Bool.and_true, List.append_nil]
  cases b2 with
  | false =>
    simp only [itemDecls, Bool.false_eq_true, if_false, List.map_append, List.map_cons, List.map_nil, e0, e1]
    rfl
  | true =>
    simp only [itemDecls, if_true, List.map_append, List.map_cons, List.map_nil, e0, e1, e2]
    rfl

theorem timeGroups_match : ∀ (ks : List Node), ks ≠ [] → (∀ g ∈ ks, g.kind = .comp .TimeSignatureGroup ∧ Ok g) →
    (∀ g ∈ ks.dropLast, ¬ HasFlag g 2) →
    (Re.seqs [.plus Schema.g_time_signature, .opt (.sym (nm! "interchangeable"))]).Matches
      (ks.map fun g => itemDecls g.write.body).flatten := by
  intro ks hne hk hf
  have body : ∀ g ∈ ks, ∃ b, itemDecls g.write.body = [nm! "beats", nm! "beat-type"] ++ (if b then [nm! "interchangeable"] else []) ∧
      (b = true → HasFlag g 2) := by
    intro g hg
    obtain ⟨h1, h2⟩ := hk g hg
    cases h2 with
    | leaf t h d _ => cases h1
    | comp c d k ss hsh _ =>
      cases h1
      obtain ⟨b, n, hb, he⟩ := timeGroup_body (d := d) hsh
      exact ⟨b, he, fun hbt => ⟨.mk b [n], hb, hbt⟩⟩
  have hts : Schema.g_time_signature.Matches [nm! "beats", nm! "beat-type"] := ⟨[_], [_], rfl, rfl, rfl⟩
  obtain ⟨init, lst, rfl⟩ : ∃ init lst, ks = init ++ [lst] := ⟨ks.dropLast, ks.getLast hne, (List.dropLast_concat_getLast hne).symm⟩
  have hinit : ∀ g ∈ init, itemDecls g.write.body = [nm! "beats", nm! "beat-type"] := by
    intro g hg
    obtain ⟨b, he, hb⟩ := body g (by simp [hg])
    cases b with
    | false => simpa using he
    | true => exact absurd (hb rfl) (hf g (by simpa using hg))
  obtain ⟨b, he, _⟩ := body lst (by simp)
  refine ⟨(init.map fun g => itemDecls g.write.body).flatten ++ [nm! "beats", nm! "beat-type"], if b then [nm! "interchangeable"] else [], ?_, ?_, ?_⟩
  · simp [he]
  · refine ⟨(init.map fun g => itemDecls g.write.body) ++ [[nm! "beats", nm! "beat-type"]], by simp, by simp, by simp, ?_⟩
    intro u hu
    rcases List.mem_append.mp hu with hu | hu
    · obtain ⟨g, hg, rfl⟩ := List.mem_map.mp hu
      rw [hinit g hg]; exact hts
    · simp at hu; rw [hu]; exact hts
  · cases b with
    | false => exact opt_nil _
    | true => exact opt_matches rfl

theorem timeChoice_match {d : Str} {k : Nat} {ss : List Slot} (h : Ok (.comp .TimeChoice d k ss)) (hc : CarefulHere .TimeChoice k ss) :
    Schema.ct_time.Matches (itemDecls (Node.write (.comp .TimeChoice d k ss)).body) := by
  cases h with
  | comp _ _ _ _ hsh hkids =>
    obtain ⟨sl, hsl⟩ := getElem?_same_length (i := 0) (a := (⟨.comp .TimeSignatureGroup, .set ⟨1, none, 0, 1⟩⟩ : Member)) hsh.length rfl
    have hok := hsh.slots 0 (⟨.comp .TimeSignatureGroup, .set ⟨1, none, 0, 1⟩⟩ : Member) sl rfl hsl
    obtain ⟨b1, n1, h1, k1⟩ := slot_one hsh (i := 1) (m := ⟨.leaf (nm! "senza-misura") true, .one⟩) rfl (fun _ h => by cases h)
    have e1 := element_decl k1
    have hst : Cls.TimeChoice.info.stmts = [⟨[.choice 0], 0, .body⟩, ⟨[.choice 1], 1, .element⟩] := rfl
    have hk : k < 2 := by
      rcases hsh.choice with h | h
      · cases h
      · exact h.1
    simp only [Node.write, assemble, hst, Stmt.write, writeSlots_get, hsl, h1, Option.map_some, Option.getD_some, writeSlot_kids, kids_mk,
      List.flatMap_cons, List.flatMap_nil, How.write, List.all_nil, Cond.eval, List.all_cons, Bool.and_true, List.append_nil]
    match k, hk with
    | 0, _ =>
      obtain ⟨hne, hf⟩ := hc rfl sl (by rw [hsl]; rfl)
      have := timeGroups_match sl.kids hne (fun g hg => ⟨hok.1 g hg, hkids sl (List.mem_of_getElem? hsl) g hg⟩) hf
      left
      have e : itemDecls ((List.map Node.write sl.kids).flatMap fun w => w.body) = (sl.kids.map fun g => itemDecls g.write.body).flatten := by
        rw [itemDecls_flatMap, List.map_map]; rfl
      simp only [beq_self_eq_true, if_true]
      rw [show ((0 : Nat) == 1) = false from rfl]
      simp only [Bool.false_eq_true, if_false, List.append_nil]
      rw [e]
      exact this
    | 1, _ =>
      right
      rw [show ((1 : Nat) == 0) = false from rfl]
      simp only [beq_self_eq_true, if_true, Bool.false_eq_true, if_false, List.nil_append, List.map_cons, List.map_nil, List.flatMap_cons,
        List.flatMap_nil, List.append_nil, itemDecls, e1]
      rfl

theorem flatten_matches_star {r : Re} {ws : List (List Nat)} (h : ∀ u ∈ ws, r.Matches u) : (Re.star r).Matches ws.flatten :=
  ⟨ws, rfl, Nat.zero_le _, (by simp), h⟩

def ornament : Re := classRe reachable noOver 1 .OrnamentsChoice

set_option maxRecDepth 100000 in
theorem ornaments_included :
    Re.included (.seq (.seq ornament (.star ornament)) (.star (.sym (nm! "accidental-mark")))) Schema.ct_ornaments = true := by decide +kernel

theorem ornaments_match {d : Str} {k : Nat} {ss : List Slot} (h : Ok (.comp .Ornaments d k ss)) (hc : CarefulHere .Ornaments k ss) :
    Schema.ct_ornaments.Matches (itemDecls (Node.write (.comp .Ornaments d k ss)).body) := by
  cases h with
  | comp _ _ _ _ hsh hkids =>
    obtain ⟨s0, h0⟩ := getElem?_same_length (i := 0) (a := (⟨.comp .OrnamentsChoice, .set ⟨0, none, 0, 0⟩⟩ : Member)) hsh.length rfl
    have hok := hsh.slots 0 (⟨.comp .OrnamentsChoice, .set ⟨0, none, 0, 0⟩⟩ : Member) s0 rfl h0
    obtain ⟨s1, h1⟩ := getElem?_same_length (i := 1) (a := (⟨.leaf (nm! "accidental-mark") true, .set ⟨0, none, 0, 0⟩⟩ : Member)) hsh.length rfl
    have hok1 := hsh.slots 1 (⟨.leaf (nm! "accidental-mark") true, .set ⟨0, none, 0, 0⟩⟩ : Member) s1 rfl h1
    have hst : Cls.Ornaments.info.stmts = [⟨[], 0, .body⟩, ⟨[], 1, .element⟩] := rfl
    have body : itemDecls (Node.write (.comp .Ornaments d k ss)).body =
        (s0.kids.map fun g => itemDecls g.write.body).flatten ++ (s1.kids.map fun g => itemDecls [g.write.element]).flatten := by
      simp only [Node.write, assemble, hst, Stmt.write, writeSlots_get, h0, h1, Option.map_some, Option.getD_some, writeSlot_kids,
        List.flatMap_cons, List.flatMap_nil, How.write, List.all_nil, if_true, List.append_nil]
      rw [show ∀ a b : List Item, itemDecls (a ++ b) = itemDecls a ++ itemDecls b from fun a b => List.map_append, itemDecls_flatMap, itemDecls_flatMap,
        List.map_map, List.map_map]
      rfl
    rw [body]
    have horn : ∀ g ∈ s0.kids, ornament.Matches (itemDecls g.write.body) := by
      intro g hg
      have hk := hok.1 g hg
      have hgo := hkids s0 (List.mem_of_getElem? h0) g hg
      cases g with
      | leaf => cases hk
      | comp c d' k' ss' => cases hk; exact classRe_matches ok_tree 1 _ _ _ _ hgo
    have hmarks : (Re.star (.sym (nm! "accidental-mark"))).Matches (s1.kids.map fun g => itemDecls [g.write.element]).flatten := by
      refine flatten_matches_star ?_
      intro u hu
      obtain ⟨g, hg, rfl⟩ := List.mem_map.mp hu
      have := element_decl (hok1.1 g hg)
      simp only [itemDecls, List.map_cons, List.map_nil, this]
      rfl
    cases hk0 : s0.kids with
    | nil =>
      rw [hc s0 (by rw [h0]; rfl) hk0 s1 (by rw [h1]; rfl)]
      exact (Re.nullable_iff _).mp (by decide)
    | cons g gs =>
      rw [hk0] at horn
      refine Re.included_sound ornaments_included ⟨_, _, rfl, ?_, hmarks⟩
      refine ⟨_, _, rfl, horn g (by simp), ?_⟩
      refine flatten_matches_star ?_
      intro u hu
      obtain ⟨g', hg', rfl⟩ := List.mem_map.mp hu
      exact horn g' (by simp [hg'])

theorem careful_tree : Tree careful carefulOver (fun n => Ok n ∧ Careful n) where
  leaf h := by cases h.1; assumption
  kids h s hs n hn := by
    obtain ⟨h1, h2⟩ := h
    cases h1 with
    | comp _ _ _ _ _ hk => cases h2 with
      | comp _ _ _ _ _ hk2 => exact ⟨hk s hs n hn, hk2 s hs n hn⟩
  shape := by
    rintro c d k ss ⟨h1, h2⟩
    cases h1 with
    | comp _ _ _ _ hsh _ => cases h2 with
      | comp _ _ _ _ hc _ =>
        refine ⟨hsh.length, ?_, ?_⟩
        · intro i m s hm hs
          have hok := hsh.slots i m s hm hs
          refine ⟨hok.1, ?_⟩
          have h2 := hok.2
          cases hmu : m.mult with
          | one => rw [hmu] at h2; exact h2
          | opt => rw [hmu] at h2; exact h2
          | set sc =>
            rw [hmu] at h2
            refine ⟨?_, h2.2⟩
            have pos : (∀ s ∈ ss[0]?, s.kids ≠ []) → i = 0 → 1 ≤ s.kids.length := by
              intro hp hi
              subst hi
              have := hp s hs
              cases hk : s.kids with
              | nil => exact absurd hk this
              | cons a as => simp
            have single : ∀ {ms : List Member}, c.info.members = ms → ms.length = 1 → i = 0 := by
              intro ms he hl
              have : i < c.info.members.length := (List.getElem?_eq_some_iff.mp hm).1
              rw [he] at this; omega
            cases c <;> first
              | exact h2.1
              | exact pos hc (single rfl rfl)
        · rcases hsh.choice with h | h
          · exact .inl h
          · refine .inr ⟨h.1, ?_⟩
            cases c <;> first
              | rfl
              | (obtain ⟨h9, h10⟩ := hc
                 show (!Nat.beq k 9 && !Nat.beq k 10) = true
                 simp only [Bool.and_eq_true, Bool.not_eq_true']
                 exact ⟨by rw [← Bool.not_eq_true, Nat.beq_eq]; exact h9, by rw [← Bool.not_eq_true, Nat.beq_eq]; exact h10⟩)
  over := by
    rintro c d k ss r ho ⟨h1, h2⟩
    have hh : (c = .TimeChoice ∧ r = Schema.ct_time) ∨ (c = .Ornaments ∧ r = Schema.ct_ornaments) := by
      cases c <;> first | (cases ho; done) | (cases ho; exact .inl ⟨rfl, rfl⟩) | (cases ho; exact .inr ⟨rfl, rfl⟩)
    cases h2 with
    | comp _ _ _ _ hc _ =>
      rcases hh with ⟨rfl, rfl⟩ | ⟨rfl, rfl⟩
      · exact timeChoice_match h1 hc
      · exact ornaments_match h1 hc

end Mx.Content
