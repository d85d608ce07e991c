import Verif.Proofs.Variants
import Verif.Proofs.ReaderSamples

/-
Supported elements are loaded without loss.
-/
open Mx.Spec
namespace Mx.Content

section
variable {c : Cls} {v : Variant} {k : Nat} {ss : List Slot}

theorem Top.at (h : Top v c k ss) (hl : ss.length = c.info.members.length) (i : Nat) {w : Stmt} {m : Member} (hw : c.info.stmts[i]? = some w)
    (hc : inChoice v.choice w = true) (hm : c.info.members[w.slot]? = some m) : ∃ s, ss[w.slot]? = some s ∧ ModeHolds m.mult (v.mode w.slot) s := by
  obtain ⟨s, hs⟩ := getElem?_same_length hl hm
  exact ⟨s, hs, h.2 w (List.mem_of_getElem? hw) hc m s hm hs⟩

end

theorem kidsAt_eq {ss : List Slot} {i : Nat} {s : Slot} (h : ss[i]? = some s) : kidsAt ss i = s.kids := by simp [kidsAt, h]
theorem onAt_eq {ss : List Slot} {i : Nat} {s : Slot} (h : ss[i]? = some s) : onAt ss i = s.on := by simp [onAt, h]

theorem lyric_here {v : Variant} (hv : v ∈ variants .Lyric) {k : Nat} {ss : List Slot} (h : Made v .Lyric k ss) (hsh : Shape wide .Lyric k ss) : StrictHere .Lyric k ss := by
  obtain ⟨b0, n0, h0, k0⟩ := slot_one hsh (i := 0) (m := ⟨.comp .LyricTextChoice, .one⟩) rfl (fun _ h => by cases h)
  obtain ⟨b3, n3, h3, k3⟩ := slot_one hsh (i := 3) (m := ⟨.comp .EditorialGroup, .one⟩) rfl (fun _ h => by cases h)
  have t0 : TopOf (v.mode 0).pick n0 := h.2 ⟨[], 0, .body⟩ (List.mem_of_getElem? (i := 0) rfl) rfl (by simp) _ _ (rfl : Cls.Lyric.info.members[0]? = some ⟨.comp .LyricTextChoice, .one⟩) h0 rfl n0 (by simp [Slot.kids])
  have t3 : TopOf (v.mode 3).pick n3 := h.2 ⟨[], 3, .body⟩ (List.mem_of_getElem? (i := 3) rfl) rfl (by simp) _ _ (rfl : Cls.Lyric.info.members[3]? = some ⟨.comp .EditorialGroup, .one⟩) h3 rfl n3 (by simp [Slot.kids])
  have m3 : v.mode 3 = .only [0] := by
    simp only [variants, List.mem_cons, List.not_mem_nil, or_false] at hv
    rcases hv with rfl | rfl <;> rfl
  obtain ⟨c3, d3, kk3, ss3, j3, v3, rfl, hv3, hp3, ht3⟩ := t3
  cases k3
  have hj3 : j3 = 0 := by
    rw [m3] at hp3
    simp only [Mode.pick, List.any_cons, List.any_nil, Bool.or_false] at hp3
    exact Nat.eq_of_beq_eq_true hp3
  subst hj3
  cases hv3
  have ed : ∀ i, i < 2 → onAt ss3 i = false := by
    intro i hi
    match i, hi with
    | 0, _ =>
      cases hs : ss3[0]? with
      | none => simp [onAt, hs]
      | some s => rw [onAt_eq hs]; exact ht3.2 ⟨[.flag 0], 0, .element⟩ (List.mem_of_getElem? (i := 0) rfl) rfl _ s (rfl : Cls.EditorialGroup.info.members[0]? = some ⟨.leaf (nm! "footnote") true, .opt⟩) hs
    | 1, _ =>
      cases hs : ss3[1]? with
      | none => simp [onAt, hs]
      | some s => rw [onAt_eq hs]; exact ht3.2 ⟨[.flag 1], 1, .element⟩ (List.mem_of_getElem? (i := 1) rfl) rfl _ s (rfl : Cls.EditorialGroup.info.members[1]? = some ⟨.leaf (nm! "level") true, .opt⟩) hs
  have hfl : ∀ i, flagAt ss 3 i = onAt ss3 i := by
    intro i
    unfold flagAt
    rw [kidsAt_eq h3]
    rfl
  refine ⟨by rw [hfl]; exact ed 0 (by omega), by rw [hfl]; exact ed 1 (by omega), ?_⟩
  obtain ⟨c0, d0, kk0, ss0, j0, v0, rfl, hv0, hp0, ht0⟩ := t0
  cases k0
  have hch : choiceAt ss 0 = kk0 := by
    unfold choiceAt
    rw [kidsAt_eq h0]
    rfl
  rw [hch]
  simp only [variants, List.mem_cons, List.not_mem_nil, or_false] at hv
  rcases hv with rfl | rfl
  · have hj0 : j0 = 0 := by
      have hp : ([0].any (Nat.beq j0)) = true := hp0
      simp only [List.any_cons, List.any_nil, Bool.or_false] at hp
      exact Nat.eq_of_beq_eq_true hp
    subst hj0
    cases hv0
    intro hne
    exact absurd ht0.1 hne
  · intro _
    obtain ⟨s1, e1, o1⟩ := h.1.at hsh.length 1 (w := ⟨[.flag 1], 1, .element⟩) (m := ⟨.leaf (nm! "end-line") false, .opt⟩) rfl rfl rfl
    obtain ⟨s2, e2, o2⟩ := h.1.at hsh.length 2 (w := ⟨[.flag 2], 2, .element⟩) (m := ⟨.leaf (nm! "end-paragraph") false, .opt⟩) rfl rfl rfl
    exact ⟨by rw [onAt_eq e1]; exact o1, by rw [onAt_eq e2]; exact o2⟩

theorem key_here {v : Variant} (hv : v ∈ variants .KeyChoice) {k : Nat} {ss : List Slot} (h : Made v .KeyChoice k ss) (hsh : Shape wide .KeyChoice k ss) : StrictHere .KeyChoice k ss := by
  intro hk
  simp only [variants, List.mem_cons, List.not_mem_nil, or_false] at hv
  rcases hv with rfl | rfl
  · rw [hk] at h; cases h.1.1
  · obtain ⟨s, e, o⟩ := h.1.at hsh.length 1 (w := ⟨[.choice 1], 1, .body⟩) (m := ⟨.comp .NonTraditionalKey, (.set ⟨0, none, 0, 0⟩)⟩) rfl rfl rfl
    rw [kidsAt_eq e]; exact o

theorem time_here {v : Variant} (hv : v ∈ variants .TimeChoice) {k : Nat} {ss : List Slot} (h : Made v .TimeChoice k ss) (hsh : Shape wide .TimeChoice k ss) : StrictHere .TimeChoice k ss := by
  intro hk
  simp only [variants, List.mem_cons, List.not_mem_nil, or_false] at hv
  rcases hv with rfl | rfl
  · obtain ⟨s, e, o⟩ := h.1.at hsh.length 0 (w := ⟨[.choice 0], 0, .body⟩) (m := ⟨.comp .TimeSignatureGroup, (.set ⟨1, none, 0, 1⟩)⟩) rfl rfl rfl
    rw [kidsAt_eq e]; exact o
  · rw [hk] at h; cases h.1.1

theorem measure_here {v : Variant} (hv : v ∈ variants .TimewiseMeasure) {k : Nat} {ss : List Slot} (h : Made v .TimewiseMeasure k ss) (hsh : Shape wide .TimewiseMeasure k ss) : StrictHere .TimewiseMeasure k ss := by
  simp only [variants, List.mem_cons, List.not_mem_nil, or_false] at hv
  subst hv
  obtain ⟨s, e, o⟩ := h.1.at hsh.length 0 (w := ⟨[.self], 0, .element⟩) (m := ⟨.comp .TimewisePart, (.set ⟨1, none, 0, 0⟩)⟩) rfl rfl rfl
  show kidsAt ss 0 ≠ []
  rw [kidsAt_eq e]; exact o

theorem elision_here {v : Variant} (hv : v ∈ variants .ElisionSyllabicGroup) {k : Nat} {ss : List Slot} (h : Made v .ElisionSyllabicGroup k ss) (hsh : Shape wide .ElisionSyllabicGroup k ss) :
    StrictHere .ElisionSyllabicGroup k ss := by
  simp only [variants, List.mem_cons, List.not_mem_nil, or_false] at hv
  subst hv
  obtain ⟨s, e, o⟩ := h.1.at hsh.length 1 (w := ⟨[.flag 1], 1, .element⟩) (m := ⟨.leaf (nm! "syllabic") true, .opt⟩) rfl rfl rfl
  show onAt ss 1 = false
  rw [onAt_eq e]; exact o

theorem tuplet_here {v : Variant} (hv : v ∈ variants .MetronomeTuplet) {k : Nat} {ss : List Slot} (h : Made v .MetronomeTuplet k ss) (hsh : Shape wide .MetronomeTuplet k ss) :
    StrictHere .MetronomeTuplet k ss := by
  simp only [variants, List.mem_cons, List.not_mem_nil, or_false] at hv
  subst hv
  obtain ⟨s, e, o⟩ := h.1.at hsh.length 2 (w := ⟨[.flag 2], 2, .body⟩) (m := ⟨.comp .TimeModificationNormalTypeNormalDot, .opt⟩) rfl rfl rfl
  show onAt ss 2 = false
  rw [onAt_eq e]; exact o

theorem credit_here {v : Variant} (hv : v ∈ variants .CreditWordsGroup) {k : Nat} {ss : List Slot} (h : Made v .CreditWordsGroup k ss) (hsh : Shape wide .CreditWordsGroup k ss) :
    StrictHere .CreditWordsGroup k ss := by
  simp only [variants, List.mem_cons, List.not_mem_nil, or_false] at hv
  subst hv
  obtain ⟨s0, e0, o0⟩ := h.1.at hsh.length 0 (w := ⟨[], 0, .element⟩) (m := ⟨.leaf (nm! "link") false, (.set ⟨0, none, 0, 0⟩)⟩) rfl rfl rfl
  obtain ⟨s1, e1, o1⟩ := h.1.at hsh.length 1 (w := ⟨[], 1, .element⟩) (m := ⟨.leaf (nm! "bookmark") false, (.set ⟨0, none, 0, 0⟩)⟩) rfl rfl rfl
  exact ⟨by rw [kidsAt_eq e0]; exact o0, by rw [kidsAt_eq e1]; exact o1⟩

theorem fullNote_here {k : Nat} {ss : List Slot} (hsh : Shape wide .FullNoteGroup k ss) (hg : onAt ss 0 = true → ∀ n ∈ kidsAt ss 0, Loadable n) : StrictHere .FullNoteGroup k ss := by
  intro hon n hn
  obtain ⟨b0, n0, h0, k0⟩ := slot_one hsh (i := 0) (m := ⟨.leaf (nm! "chord") false, .opt⟩) rfl (fun _ h => by cases h)
  have hl := hg hon n hn
  rw [kidsAt_eq h0] at hn
  simp [Slot.kids] at hn
  subst hn
  cases n with
  | comp => cases k0
  | leaf t h d =>
    have k0' : Kind.leaf t h = .leaf (nm! "chord") false := k0
    injection k0' with e1 e2
    subst e1
    exact ⟨_, _, by rw [hl.2.2 _ _ rfl]⟩

theorem sound_here {v : Variant} (hv : v ∈ variants .Sound) {k : Nat} {ss : List Slot} (h : Made v .Sound k ss) (hsh : Shape wide .Sound k ss) (d : Str) :
    HasFlag (.comp .Sound d k ss) 1 ∨ ¬ HasFlag (.comp .Sound d k ss) 0 ∧ ¬ HasFlag (.comp .Sound d k ss) 2 := by
  obtain ⟨s0, e0, o0⟩ := h.1.at hsh.length 0 (w := ⟨[.flag 0], 0, .element⟩) (m := ⟨.leaf (nm! "midi-device") true, .opt⟩) rfl rfl rfl
  obtain ⟨s1, e1, o1⟩ := h.1.at hsh.length 1 (w := ⟨[], 1, .element⟩) (m := ⟨.comp .MidiInstrument, .opt⟩) rfl rfl rfl
  obtain ⟨s2, e2, o2⟩ := h.1.at hsh.length 2 (w := ⟨[.flag 2], 2, .element⟩) (m := ⟨.comp .Play, .opt⟩) rfl rfl rfl
  simp only [variants, List.mem_cons, List.not_mem_nil, or_false] at hv
  rcases hv with rfl | rfl
  · exact .inl ⟨s1, e1, o1⟩
  · refine .inr ⟨?_, ?_⟩
    · rintro ⟨s, a, b⟩
      cases e0.symm.trans a
      have o0' : s0.on = false := o0
      rw [o0'] at b; cases b
    · rintro ⟨s, a, b⟩
      cases e2.symm.trans a
      have o2' : s2.on = false := o2
      rw [o2'] at b; cases b

theorem made_readable {c : Cls} {v : Variant} (hv : v ∈ variants c) {k : Nat} {ss : List Slot} (h : Made v c k ss) (hsh : Shape wide c k ss)
    (hg : ∀ w ∈ c.info.stmts, inChoice k w = true → ∀ s, ss[w.slot]? = some s → inUse c.info.members[w.slot]? s.on = true → ∀ n ∈ s.kids, Loadable n) : StrictHere c k ss := by
  cases c <;> first
    | trivial
    | (cases hv; done)
    | exact lyric_here hv h hsh
    | exact key_here hv h hsh
    | exact time_here hv h hsh
    | exact measure_here hv h hsh
    | exact elision_here hv h hsh
    | exact tuplet_here hv h hsh
    | exact credit_here hv h hsh
    | (refine fullNote_here hsh ?_
       intro hon n hn
       obtain ⟨s, e⟩ := getElem?_same_length (i := 0) (a := (⟨.leaf (nm! "chord") false, .opt⟩ : Member)) hsh.length rfl
       rw [onAt_eq e] at hon
       rw [kidsAt_eq e] at hn
       exact hg ⟨[.flag 0], 0, .element⟩ (List.mem_of_getElem? (i := 0) rfl) rfl s e hon n hn)
    | (simp only [variants, List.mem_cons, List.not_mem_nil, or_false] at hv
       subst hv
       exact h.1.1)
    | (simp only [variants, List.mem_filter, Bool.not_eq_true'] at hv
       show k ≠ 13
       rw [h.1.1]
       intro e
       rw [e] at hv
       cases hv.2)

/-! ## Classes -/

theorem range_get {σ : Nat → Slot} {n i : Nat} (h : i < n) : ((List.range n).map σ)[i]? = some (σ i) := by
  simp [h]

theorem builds_class : ∀ f, Builds (classV f)
  | 0 => fun _ _ _ _ h => absurd h none_matches
  | f + 1 => by
    intro c p ps hps hm d
    obtain ⟨r, hr, hm⟩ := alts_mem hm
    obtain ⟨v, hv, rfl⟩ := List.mem_map.mp hr
    obtain ⟨j, hj, hp⟩ := pickFrom_mem hv
    rw [Nat.zero_add] at hp
    obtain ⟨σ, h1, h2⟩ := build_stmts (builds_class f) c.info.stmts (fun _ h => h) (stmts_nodup c) ps hps hm
    have hvm : v ∈ variants c := List.mem_of_getElem? hj
    let ss := (List.range c.info.members.length).map σ
    have hlen : ss.length = c.info.members.length := by simp [ss]
    have hget : ∀ {i : Nat} {m : Member} {s : Slot}, c.info.members[i]? = some m → ss[i]? = some s → s = σ i := by
      intro i m s hmi hs
      have hi : i < c.info.members.length := (List.getElem?_eq_some_iff.mp hmi).1
      rw [range_get hi] at hs
      exact (Option.some.inj hs).symm
    have hstmt : ∀ {i : Nat} {s : Slot}, ss[i]? = some s → ∃ w ∈ c.info.stmts, w.slot = i ∧ s = σ i ∧ ∃ m, c.info.members[i]? = some m := by
      intro i s hs
      have hi : i < c.info.members.length := by
        rw [← hlen]; exact (List.getElem?_eq_some_iff.mp hs).1
      obtain ⟨w, hw, rfl⟩ := stmts_cover c i hi
      refine ⟨w, hw, rfl, ?_, _, List.getElem?_eq_getElem hi⟩
      exact hget (List.getElem?_eq_getElem hi) hs
    have hshape : Shape wide c v.choice ss := by
      refine ⟨hlen, ?_, ?_⟩
      · intro i m s hmi hs
        obtain ⟨w, hw, rfl, rfl, _⟩ := hstmt hs
        exact (h1 w hw).ok m hmi
      · rcases variants_choice c v hvm with h | h
        · exact .inl h
        · exact .inr ⟨h, rfl⟩
    have hkf : ∀ s ∈ ss, ∀ n ∈ s.kids, Fine n := by
      intro s hs n hn
      obtain ⟨i, hi⟩ := List.getElem?_of_mem hs
      obtain ⟨w, hw, rfl, rfl, _⟩ := hstmt hi
      exact (h1 w hw).fine n hn
    have hmade : Made v c v.choice ss := by
      refine ⟨⟨rfl, ?_⟩, ?_⟩
      · intro w hw hc m s hmw hs
        rw [hget hmw hs]
        exact (h1 w hw).mode hc m hmw
      · intro w hw hc he m s hmw hs hone n hn
        rw [hget hmw hs] at hn
        exact (h1 w hw).group hc he m hmw hone n hn
    have hused : ∀ w ∈ c.info.stmts, inChoice v.choice w = true → ∀ s, ss[w.slot]? = some s → inUse c.info.members[w.slot]? s.on = true → ∀ n ∈ s.kids, Loadable n := by
      intro w hw hc s hs hu n hn
      obtain ⟨w', hw', e, rfl, m, hm'⟩ := hstmt hs
      exact (h1 w hw).good hc hu n hn
    refine ⟨v.choice, ss, j, v, hj, hp, hmade.1, ⟨⟨.comp c d _ ss hshape fun s hs n hn => (hkf s hs n hn).1, .comp c d _ ss ?_ fun s hs n hn => (hkf s hs n hn).2⟩,
      .comp c d _ ss (made_readable hvm hmade hshape hused) fun w hw hc s hs hu n hn => (hused w hw hc s hs hu n hn).2.1, fun _ _ h => by cases h⟩, ?_⟩
    · rintro rfl
      exact sound_here hvm hmade hshape d
    · rw [← h2]
      show wholeKids c v.choice (wholeSlots ss) = _
      unfold wholeKids
      rw [List.flatMap_def, List.flatMap_def]
      congr 1
      refine List.map_congr_left ?_
      intro w hw
      obtain ⟨m, sl, hmw, hsl, _⟩ := slot_at hshape hw
      have e := hget hmw hsl
      rw [wholeSlots_get, hsl]
      subst e
      cases hσ : σ w.slot with
      | mk b ks =>
        simp only [Option.map_some, wholeSlot, wholeList_eq, outOf, Slot.on, Slot.kids, List.flatMap_map]
        rfl

/-! ## Elements -/

theorem leaf_models : (leafNames.all fun t => isEps (supportedModel t) && Nat.beq (Schema.declName t) t) = true := by decide +kernel

theorem supported_expressed {d : Nat} {x : Xml} (h : Supported d x) : Expressed (d, x) := by
  induction h with
  | mk d data kids r ds hr hl hm hkids hch ih =>
    intro kd hk hd
    have hd' : kindDecl kd = d := hd
    subst hd'
    cases kd with
    | leaf t b =>
      have ht := List.all_eq_true.mp leaf_models t hk
      rw [Bool.and_eq_true] at ht
      have e1 : supportedModel t = some .eps := isEps_eq ht.1
      have e2 : Schema.declName t = t := Nat.eq_of_beq_eq_true ht.2
      have hr' : supportedModel t = some r := hr
      rw [e1] at hr'
      cases hr'
      have hds : ds = [] := hm
      subst hds
      have hk0 : kids = [] := by simpa using hl.symm
      subst hk0
      refine ⟨.leaf t b data, rfl, ⟨⟨.leaf t b data hk, .leaf t b data⟩, .leaf t b data, ?_⟩, ?_⟩
      · intro h d' e
        cases e
        exact hch rfl
      · show Xml.elem t data [] = .elem (Schema.declName t) data []
        rw [e2]
    | comp c =>
      have hn : c.info.name ≠ 0 := hk
      have hc := List.all_eq_true.mp check_supported c (mem_allCls c)
      rw [Bool.or_eq_true] at hc
      have hc' := hc.resolve_left (fun h => hn (Nat.eq_of_beq_eq_true h))
      have hr' : supportedModel (classDecl c) = some r := hr
      rw [hr'] at hc'
      simp only at hc'
      have hmm := Re.included_sound hc' hm
      have e1 : (ds.zip kids).map (·.1) = ds := List.map_fst_zip (by omega)
      have e2 : (ds.zip kids).map (·.2) = kids := List.map_snd_zip (by omega)
      rw [← e1] at hmm
      obtain ⟨k, ss, j, v, _, _, _, g4, g5⟩ := builds_class 8 c anyVariant (ds.zip kids) (fun q hq => ih q hq) hmm data
      refine ⟨.comp c data k ss, rfl, g4, ?_⟩
      show Xml.elem c.info.name data _ = .elem (Schema.declName (classDecl c)) data kids
      rw [class_declName, show wholeKids c k (wholeSlots ss) = kids from g5.trans e2]

theorem loadable_reads {n : Node} (h : Loadable n) (hn : n.kind.named = true) :
    ∃ n', ((whole n).element.child prog).read (make n.kind) = (n', true) ∧ n'.kind = n.kind ∧ n'.xml = (whole n).element := by
  obtain ⟨n', e1, e2, e3, e4, e5⟩ := (read_all (sizeOf n + 1) n ⟨Nat.lt_succ_self _, h.1, strict_readable h.2.1 h.1.1⟩ hn).read (make n.kind) (blank_for h.1.1) (make_kind _)
  exact ⟨n', e1, e2, (write_whole n' e4 e5).1 (by rw [e2]; exact hn) |>.trans e3⟩

/-- A supported element, read by a new object of its class. -/
theorem supported_reads {kd : Kind} (hk : ElementKind kd) {x : Xml} (h : Supported (kindDecl kd) x) :
    ∃ n', (x.child prog).read (make kd) = (n', true) ∧ n'.kind = kd ∧ n'.xml = x := by
  obtain ⟨n, rfl, h2, rfl⟩ := supported_expressed h kd hk rfl
  have hn : n.kind.named = true := by
    cases n with
    | leaf => rfl
    | comp c d k ss =>
      have : c.info.name ≠ 0 := hk
      simp only [Node.kind, Kind.named, Bool.not_eq_true']
      rw [← Bool.not_eq_true, Nat.beq_eq]
      exact this
  exact loadable_reads h2 hn

/-- Supported elements are valid. -/
theorem supported_valid {d : Nat} {x : Xml} (h : Supported d x) : ValidFor d x := by
  induction h with
  | mk d data kids r ds hr hl hm hkids _ ih =>
    have schema : ∀ {r}, schemaModel d = some r → (d, r) ∈ Schema.decls := fun h => schemaOf_mem h
    unfold supportedModel at hr
    split at hr
    · rename_i p hp
      cases hr
      have h1 := List.mem_of_find?_eq_some hp
      have h2 : Nat.beq p.1 d = true := by simpa using List.find?_some hp
      have h3 := List.all_eq_true.mp check_narrowed p h1
      rw [Nat.eq_of_beq_eq_true h2] at h3
      cases hs : schemaModel d with
      | none => rw [hs] at h3; cases h3
      | some r =>
        rw [hs] at h3
        exact .mk d data kids r ds (schema hs) hl (Re.included_sound h3 hm) ih
    · exact .mk d data kids r ds (schema hr) hl hm ih

end Mx.Content
