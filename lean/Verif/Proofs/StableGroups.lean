import Verif.Proofs.StableFrame

/-
The groups with a reader of their own.
-/
open Mx.Spec
namespace Mx.Content

theorem deep_innerGot' {c : Cls} {o : Node} (h : Is (.comp c) o) (hd : Deep o) {i : Nat} {f : Node → Got}
    (hf : ∀ m, c.info.members[i]? = some m → ∀ n, Is m.kind n → Clear n → Clear (f n).obj) : Deep (o.innerGot i f).obj := by
  simp only [Node.innerGot]
  cases hk : o.kid? i with
  | none => exact hd
  | some x =>
    obtain ⟨m, hm, hx⟩ := is_kid h hk
    exact deep_setKid hd (hf m hm x hx (clear_kid hd hk))

/-- A member without conditions that is read. -/
theorem deep_free {c : Cls} {o : Node} (h : Is (.comp c) o) (hd : Deep o) {i : Nat} (hc : closedM c i = true) {x : Child} (hx : Steady x) : Deep (o.inner i x.read).1 :=
  deep_inner' h hd fun _ hm n hn => closedM_clear hc hm (hx _ n hn)

theorem partsAt_slot {o : Node} {j : Nat} : partsAt o j = (o.slotAt? j |>.map (·.kids)).getD [] := by
  cases o <;> rfl

theorem partsAt_eq {o o' : Node} {j : Nat} (h : o'.slotAt? j = o.slotAt? j) : partsAt o' j = partsAt o j := by
  rw [partsAt_slot, partsAt_slot, h]

theorem isOn_eq {o o' : Node} {j : Nat} (h : o'.slotAt? j = o.slotAt? j) : o'.isOn j = o.isOn j := by
  have e : ∀ o : Node, o.isOn j = (o.slotAt? j |>.map (·.on)).getD false := fun o => by cases o <;> rfl
  rw [e, e, h]

/-! ## Notes -/

theorem clear_full {o : Node} (h : Is (.comp .FullNoteGroup) o) (hs : (partsAt o 0).all (leafData []) = true) : Clear o := by
  have hd : Deep o := by
    obtain ⟨d, k, ss, rfl, hsh, hk⟩ := is_comp h
    intro s hs' n hn
    obtain ⟨i, hi⟩ := List.mem_iff_getElem?.mp hs'
    have hl := (List.getElem?_eq_some_iff.mp hi).1
    rw [hsh.length] at hl
    have hm := List.getElem?_eq_getElem hl
    refine closedM_clear (c := .FullNoteGroup) (i := i) ?_ hm ⟨hk s hs' n hn, (hsh.slots i _ s hm hi).1 n hn⟩
    have : i < 2 := hl
    rcases (by omega : i = 0 ∨ i = 1) with rfl | rfl <;> decide +kernel
  obtain ⟨d, k, ss, rfl, hsh, hk⟩ := is_comp h
  exact .comp _ _ _ _ hs hd

theorem full_clear {o : Node} (h : Is (.comp .FullNoteGroup) o) (hc : Clear o) : (partsAt o 0).all (leafData []) = true := by
  obtain ⟨d, k, ss, rfl, hsh, hk⟩ := is_comp h
  cases hc with
  | comp _ _ _ _ h1 _ => exact h1

theorem parts_flag {o : Node} {i j : Nat} {b : Bool} : partsAt (o.changeItems i fun s => .mk b s.kids) j = partsAt o j := by
  cases o with
  | leaf => rfl
  | comp c d k ss =>
    simp only [Node.changeItems, partsAt, kidsAt, changeSlot_get]
    split
    · cases ss[j]? <;> rfl
    · rfl

theorem clear_fullNote {g : Node} (h : Is (.comp .FullNoteGroup) g) (hc : Clear g) {l : List Child} (hl : Steadies l) : Clear (fullNote g l).obj := by
  have h' := is_fullNote h hl
  have h0 := full_clear h hc
  refine clear_full h' ?_
  have e : partsAt (fullNote g l).obj 0 = partsAt g 0 := by
    cases l with
    | nil => rfl
    | cons x xs =>
      simp only [fullNote]
      have hg : partsAt (if Nat.beq x.name (nm! "chord") = true then g.changeItems 0 (fun s => .mk true s.kids) else g) 0 = partsAt g 0 := by
        split
        · exact parts_flag
        · rfl
      revert hg
      generalize (if Nat.beq x.name (nm! "chord") = true then g.changeItems 0 (fun s => Slot.mk true s.kids) else g) = g'
      generalize (if Nat.beq x.name (nm! "chord") = true then xs else x :: xs) = l'
      intro hg
      rw [← hg]
      cases l' with
      | nil => rfl
      | cons y ys =>
        simp only
        cases field [(nm! "pitch", 0, some 0), (nm! "unpitched", 1, some 1), (nm! "rest", 2, some 2)] y.name with
        | none => rfl
        | some f => exact partsAt_eq (slot_inner (by decide))
  rw [e]; exact h0

theorem deep_addTies {c : Cls} {i : Nat} (hb : isSetB c i = true) (hc : closedM c i = true) : ∀ {l : List Child} {g : Node}, Is (.comp c) g → Deep g → Steadies l → Deep (addTies g i l).1
  | [], _, _, hd, _ => hd
  | x :: xs, g, h, hd, hl => by
    obtain ⟨hx, hxs⟩ := steadies_cons hl
    rw [addTies]
    refine deep_addTies hb hc (is_push h hb fun m hm => hx _ _ (is_newItem h hm)) (deep_push hd ?_) hxs
    obtain ⟨kd, sc, hm⟩ := isSetB_mult hb
    exact closedM_clear hc hm (hx _ _ (is_newItem h hm))

theorem clear_graceNote {g : Node} (h : Is (.comp .GraceNoteGroup) g) (hc : Clear g) {x : Child} (hx : Steady x) {l : List Child} (hl : Steadies l) : Clear (graceNote x l g).obj := by
  have h' := is_graceNote h hx hl
  refine clear_of_deep h'.2 rfl ?_
  have ha : Is (.comp .GraceNoteGroup) (g.inner 0 x.read).1 := is_inner h fun m _ n hn => hx m.kind n hn
  have da := deep_free h (clear_deep hc) (i := 0) (by decide +kernel) hx
  simp only [graceNote]
  cases hk : (g.inner 0 x.read).1.kid? 1 with
  | none => exact clear_deep hc
  | some full =>
    obtain ⟨m, hm, hf⟩ := is_kid ha hk
    cases hm
    refine deep_addTies (by decide +kernel) (by decide +kernel) (is_setKid ha hk ?_) (deep_setKid da (clear_fullNote hf (clear_kid da hk) hl)) (steadies_run (steadies_drop hl _) _)
    intro m' hm'
    cases hm'
    exact is_fullNote hf hl

theorem deep_noteDuration {c : Cls} {i : Nat} (hc : closedM c i = true) {g : Node} (h : Is (.comp c) g) (hd : Deep g) {l : List Child} (hl : Steadies l) : Deep (noteDuration i g l).obj := by
  cases l with
  | nil => exact hd
  | cons x xs =>
    simp only [noteDuration]
    split
    · exact deep_free h hd hc (steadies_cons hl).1
    · exact hd

theorem clear_cueNote {g : Node} (h : Is (.comp .CueNoteGroup) g) (hc : Clear g) {x : Child} (hx : Steady x) {l : List Child} (hl : Steadies l) : Clear (cueNote x l g).obj := by
  have h' := is_cueNote h hx hl
  refine clear_of_deep h'.2 rfl ?_
  have ha : Is (.comp .CueNoteGroup) (g.inner 0 x.read).1 := is_inner h fun m _ n hn => hx m.kind n hn
  have da := deep_free h (clear_deep hc) (i := 0) (by decide +kernel) hx
  simp only [cueNote]
  cases hk : (g.inner 0 x.read).1.kid? 1 with
  | none => exact clear_deep hc
  | some full =>
    obtain ⟨m, hm, hf⟩ := is_kid ha hk
    cases hm
    refine deep_noteDuration (by decide +kernel) (is_setKid ha hk ?_) (deep_setKid da (clear_fullNote hf (clear_kid da hk) hl)) (steadies_drop hl _)
    intro m' hm'
    cases hm'
    exact is_fullNote hf hl

theorem clear_normalNote {g : Node} (h : Is (.comp .NormalNoteGroup) g) (hc : Clear g) {l : List Child} (hl : Steadies l) : Clear (normalNote l g).obj := by
  have h' := is_normalNote h hl
  refine clear_of_deep h'.2 rfl ?_
  have da := clear_deep hc
  simp only [normalNote]
  cases hk : g.kid? 0 with
  | none => exact da
  | some full =>
    obtain ⟨m, hm, hf⟩ := is_kid h hk
    cases hm
    have hs : Is (.comp .NormalNoteGroup) (g.setKid 0 (fullNote full l).obj) := is_setKid h hk fun m' hm' => by
      cases hm'
      exact is_fullNote hf hl
    exact deep_addTies (by decide +kernel) (by decide +kernel) (is_noteDuration hs (steadies_drop hl _))
      (deep_noteDuration (by decide +kernel) hs (deep_setKid da (clear_fullNote hf (clear_kid da hk) hl)) (steadies_drop hl _)) (steadies_run (steadies_drop hl _) _)

theorem clear_noteChoice {g : Node} (h : Is (.comp .NoteChoice) g) (hc : Clear g) {l : List Child} (hl : Steadies l) : Clear (noteChoice l g).obj := by
  refine clear_of_deep (is_noteChoice h hl).2 rfl ?_
  have hd := clear_deep hc
  cases l with
  | nil => exact hd
  | cons x xs =>
    obtain ⟨hx, hxs⟩ := steadies_cons hl
    simp only [noteChoice]
    split
    · refine deep_innerGot' (is_choose h (by decide +kernel)) (deep_choose hd _) ?_
      intro m hm n hn hcn
      cases hm
      exact clear_graceNote hn hcn hx hxs
    · split
      · refine deep_innerGot' (is_choose h (by decide +kernel)) (deep_choose hd _) ?_
        intro m hm n hn hcn
        cases hm
        exact clear_cueNote hn hcn hx hxs
      · refine deep_innerGot' (is_choose h (by decide +kernel)) (deep_choose hd _) ?_
        intro m hm n hn hcn
        cases hm
        exact clear_normalNote hn hcn hl

/-! ## Lyrics -/

theorem clear_elision {o : Node} (h : Is (.comp .ElisionSyllabicGroup) o) (hs : o.isOn 1 = false) : Clear o := by
  obtain ⟨d, k, ss, rfl, hsh, hk⟩ := is_comp h
  refine .comp _ _ _ _ (by show (!onAt ss 1) = true; rw [show onAt ss 1 = false from hs]; rfl) ?_
  intro s hs' n hn
  obtain ⟨i, hi⟩ := List.mem_iff_getElem?.mp hs'
  have hl := (List.getElem?_eq_some_iff.mp hi).1
  rw [hsh.length] at hl
  have hm := List.getElem?_eq_getElem hl
  refine closedM_clear (c := .ElisionSyllabicGroup) (i := i) ?_ hm ⟨hk s hs' n hn, (hsh.slots i _ s hm hi).1 n hn⟩
  have : i < 2 := hl
  rcases (by omega : i = 0 ∨ i = 1) with rfl | rfl <;> decide +kernel

theorem elision_clear {o : Node} (h : Is (.comp .ElisionSyllabicGroup) o) (hc : Clear o) : o.isOn 1 = false := by
  obtain ⟨d, k, ss, rfl, hsh, hk⟩ := is_comp h
  cases hc with
  | comp _ _ _ _ h1 _ =>
    have h1 : (!onAt ss 1) = true := h1
    cases ho : onAt ss 1 with
    | true => rw [ho] at h1; cases h1
    | false => exact ho

theorem isOn_flag {o : Node} {i : Nat} {b : Bool} (h : b = false) : (o.changeItems i fun s => .mk b s.kids).isOn i = false := by
  subst h
  cases o with
  | leaf => rfl
  | comp c d k ss =>
    simp only [Node.changeItems, Node.isOn, changeSlot_get, if_true]
    cases ss[i]? <;> rfl

theorem clear_elisionGroup {g : Node} (h : Is (.comp .ElisionSyllabicTextGroup) g) (hc : Clear g) {l : List Child} (hl : Steadies l) : Clear (elisionGroup g l).obj := by
  refine clear_of_deep (is_elisionGroup h hl).2 rfl ?_
  unfold elisionGroup
  extract_lets isS a b
  have ha : Is (.comp .ElisionSyllabicTextGroup) a.obj ∧ Deep a.obj := by
    simp only [a]
    cases l with
    | nil => exact ⟨h, clear_deep hc⟩
    | cons x xs =>
      simp only
      have hx := (steadies_cons hl).1
      split
      · refine ⟨?_, ?_⟩
        · refine is_inner h ?_
          intro m hm n hn
          cases hm
          exact is_inner hn fun m _ n hn => hx m.kind n hn
        · simp only [Node.inner]
          cases hk : g.kid? 0 with
          | none => exact clear_deep hc
          | some e =>
            obtain ⟨m, hm, he⟩ := is_kid h hk
            cases hm
            refine deep_setKid (clear_deep hc) ?_
            refine clear_elision (is_inner he fun m _ n hn => hx m.kind n hn) ?_
            refine (isOn_eq ?_).trans (elision_clear he (clear_kid (clear_deep hc) hk))
            exact slot_inner (by decide)
      · exact ⟨h, clear_deep hc⟩
  obtain ⟨ha, da⟩ := ha
  have hb : Is (.comp .ElisionSyllabicTextGroup) b.obj ∧ Deep b.obj := by
    clear_value a
    simp only [b]
    cases hd : l.drop a.used with
    | nil => exact ⟨ha, da⟩
    | cons x xs =>
      have hx : Steady x := (steadies_cons (hd ▸ steadies_drop hl a.used)).1
      simp only
      split
      · refine ⟨?_, ?_⟩
        · refine is_inner ha ?_
          intro m hm n hn
          cases hm
          exact is_flag (is_inner hn fun m _ n hn => hx m.kind n hn) _
        · simp only [Node.inner]
          cases hk : a.obj.kid? 0 with
          | none => exact da
          | some e =>
            obtain ⟨m, hm, he⟩ := is_kid ha hk
            cases hm
            refine deep_setKid da ?_
            exact clear_elision (is_flag (is_inner he fun m _ n hn => hx m.kind n hn) _) (isOn_flag (elision_clear he (clear_kid da hk)))
      · exact ⟨ha, da⟩
  clear_value b
  obtain ⟨hb, db⟩ := hb
  cases hd : l.drop b.used with
  | nil => exact db
  | cons x xs =>
    have hx : Steady x := (steadies_cons (hd ▸ steadies_drop hl b.used)).1
    simp only
    split
    · exact deep_free hb db (by decide +kernel) hx
    · exact db

theorem deep_elisionGroups : ∀ (f : Nat) {g : Node} {l : List Child}, Is (.comp .SyllabicTextGroup) g → Deep g → Steadies l → Deep (elisionGroups f g l).obj
  | 0, _, _, _, hd, _ => hd
  | f + 1, g, l, h, hd, hl => by
    rw [elisionGroups]
    split
    · have hm : (Cls.SyllabicTextGroup).info.members[2]? = some ⟨.comp .ElisionSyllabicTextGroup, .set ⟨0, none, 0, 0⟩⟩ := rfl
      have hn := is_newItem h hm
      refine deep_elisionGroups f (is_push h (by decide +kernel) ?_) (deep_push hd ?_) (steadies_drop hl _)
      · intro m hm'
        cases hm'
        exact is_elisionGroup hn hl
      · exact clear_elisionGroup hn (clear_newItem _ _ ⟨_, h.2⟩) hl
    · exact hd

theorem deep_freeParts {c : Cls} : ∀ (ps : List Part) {g : Node} {l : List Child}, ps.all (Part.openB c) = true → ps.all (fun p => match p with | .one _ i => closedM c i | .run _ i => closedM c i) = true →
    Is (.comp c) g → Deep g → Steadies l → Deep (readParts ps g l).obj
  | [], g, l, _, _, _, h, _ => by simpa [readParts] using h
  | .one name i :: ps, g, [], _, _, _, h, _ => by simpa [readParts] using h
  | .run name i :: ps, g, [], _, _, _, h, _ => by simpa [readParts] using h
  | .one name i :: ps, g, x :: xs, hp, hq, h, hd, hl => by
    simp only [List.all_cons, Bool.and_eq_true] at hp hq
    obtain ⟨hx, hxs⟩ := steadies_cons hl
    rw [readParts]
    split
    · exact deep_freeParts ps hp.2 hq.2 (is_inner h fun m _ n hn => hx m.kind n hn) (deep_free h hd hq.1 hx) hxs
    · exact deep_freeParts ps hp.2 hq.2 h hd hl
  | .run name i :: ps, g, x :: xs, hp, hq, h, hd, hl => by
    simp only [List.all_cons, Bool.and_eq_true] at hp hq
    rw [readParts]
    have hr := is_readParts [.run name i] (g := g) (l := x :: xs) (by simpa using hp.1) h hl
    refine deep_freeParts ps hp.2 hq.2 ?_ ?_ (steadies_drop hl _)
    · simpa [readParts] using hr
    · split
      · exact hd
      · refine deep_addRun hd ?_
        intro n hn
        simp only [List.map_map, List.mem_map, Function.comp_apply] at hn
        obtain ⟨y, hy, rfl⟩ := hn
        have hob : Content.openB c i = true := hp.1
        rw [Content.openB, Bool.and_eq_true] at hob
        obtain ⟨kd, sc, hm⟩ := isSetB_mult hob.1
        exact closedM_clear hq.1 hm (steadies_run hl name y hy _ _ (is_newItem h hm))

theorem clear_syllabicText {g : Node} (h : Is (.comp .SyllabicTextGroup) g) (hc : Clear g) {l : List Child} (hl : Steadies l) : Clear (syllabicText g l).obj := by
  refine clear_of_deep (is_syllabicText h hl).2 rfl ?_
  simp only [syllabicText]
  have i1 := is_readParts (c := .SyllabicTextGroup) [.one (nm! "syllabic") 0] (by decide +kernel) h hl
  have d1 := deep_freeParts (c := .SyllabicTextGroup) [.one (nm! "syllabic") 0] (by decide +kernel) (by decide +kernel) h (clear_deep hc) hl
  have l1 := steadies_drop hl (readParts [.one (nm! "syllabic") 0] g l).used
  have i2 := is_readParts (c := .SyllabicTextGroup) [.one (nm! "text") 1] (by decide +kernel) i1 l1
  have d2 := deep_freeParts (c := .SyllabicTextGroup) [.one (nm! "text") 1] (by decide +kernel) (by decide +kernel) i1 d1 l1
  have l2 := steadies_drop l1 (readParts [.one (nm! "text") 1] (readParts [.one (nm! "syllabic") 0] g l).obj (l.drop (readParts [.one (nm! "syllabic") 0] g l).used)).used
  exact deep_freeParts (c := .SyllabicTextGroup) _ (by decide +kernel) (by decide +kernel) (is_elisionGroups _ i2 l2) (deep_elisionGroups _ i2 d2 l2) (steadies_drop l2 _)

/-! ## Metronome marks -/

theorem run_name {name : Nat} {l : List Child} {y : Child} (h : y ∈ runItems name l) : Nat.beq y.name name = true := by
  unfold runItems at h
  induction l with
  | nil => cases h
  | cons x xs ih =>
    rw [List.takeWhile_cons] at h
    split at h
    · rename_i hx
      rcases List.mem_cons.mp h with rfl | h
      · exact hx
      · exact ih h
    · cases h

/-- New objects read from a run of children. -/
theorem clear_run {c : Cls} {o : Node} (h : Is (.comp c) o) {i name : Nat} (hs : isSetB c i = true) (hb : newB c i name = true) {l : List Child} (hl : Calms l)
    (hok : ((runItems name l).map fun y => y.read (o.newItem i)).all (·.2) = true) : ∀ n ∈ ((runItems name l).map fun y => y.read (o.newItem i)).map (·.1), Clear n := by
  obtain ⟨kd, sc, hm⟩ := isSetB_mult hs
  intro n hn
  simp only [List.map_map, List.mem_map, Function.comp_apply] at hn
  obtain ⟨y, hy, rfl⟩ := hn
  have := List.all_eq_true.mp hok _ (List.mem_map_of_mem hy)
  exact clear_read_new h hm hb (calms_run hl name y hy) (run_name hy) this

theorem clear_noteRelation {g : Node} (h : Is (.comp .NoteRelationNote) g) (hc : Clear g) {l : List Child} (hl : Calms l) (hh : headIn [nm! "metronome-note"] l = true) (hok : (noteRelation l g).ok = true) :
    Clear (noteRelation l g).obj := by
  refine clear_of_deep (is_noteRelation h (calms_steadies hl) hh).2 rfl ?_
  have hg : Is (.comp .NoteRelationNote) (g.addRun 0 (((runItems (nm! "metronome-note") l).map fun y => y.read (g.newItem 0)).map (·.1))) := by
    rw [List.map_map]
    refine is_addRun h (by decide +kernel) ?_ (is_runItems h (steadies_run (calms_steadies hl) _))
    cases l with
    | nil => cases hh
    | cons x xs =>
      have : Nat.beq x.name (nm! "metronome-note") = true := by simpa [headIn] using hh
      simp [runItems, List.takeWhile_cons, this]
  have dg : ((runItems (nm! "metronome-note") l).map fun y => y.read (g.newItem 0)).all (·.2) = true → Deep (g.addRun 0 (((runItems (nm! "metronome-note") l).map fun y => y.read (g.newItem 0)).map (·.1))) :=
    fun h1 => deep_addRun (clear_deep hc) (clear_run h (by decide +kernel) (by decide +kernel) hl h1)
  revert hok
  simp only [noteRelation]
  revert hg dg
  generalize g.addRun 0 (((runItems (nm! "metronome-note") l).map fun y => y.read (g.newItem 0)).map (·.1)) = g'
  generalize (((runItems (nm! "metronome-note") l).map fun y => y.read (g.newItem 0)).all (·.2)) = ok
  intro hg dg
  cases hd : l.drop (runItems (nm! "metronome-note") l).length with
  | nil => exact dg
  | cons x xs =>
    obtain ⟨hx, hxs⟩ := calms_cons (hd ▸ calms_drop hl _)
    simp only
    split
    · have hr : Is (.comp .NoteRelationNote) (g'.inner 1 (fun q => q.inner 0 x.read)).1 := by
        refine is_inner hg ?_
        intro m hm n hn
        cases hm
        exact is_inner hn fun m _ n hn => hx.steady m.kind n hn
      have dr : ok = true → Deep (g'.inner 1 (fun q => q.inner 0 x.read)).1 := by
        intro h1
        simp only [Node.inner]
        cases hk : g'.kid? 1 with
        | none => exact dg h1
        | some q =>
          obtain ⟨m, hm, hq⟩ := is_kid hg hk
          cases hm
          have i2 : Is (.comp .MetronomeRelationGroup) (q.inner 0 x.read).1 := is_inner hq fun m _ n hn => hx.steady m.kind n hn
          exact deep_setKid (dg h1) (clear_of_deep i2.2 rfl (deep_free hq (clear_deep (clear_kid (dg h1) hk)) (by decide +kernel) hx.steady))
      cases xs with
      | nil =>
        intro hok
        rw [Bool.and_eq_true] at hok
        exact dr hok.1
      | cons y ys =>
        simp only
        split
        · rename_i hy
          intro hok
          rw [Bool.and_eq_true, Bool.and_eq_true] at hok
          refine deep_inner hr (dr hok.1.1) ?_ hok.2
          intro m hm n hn hcn he
          cases hm
          have i2 : Is (.comp .MetronomeRelationGroup) (n.inner 1 y.read).1 := is_inner hn fun m _ n hn => (calms_cons hxs).1.steady m.kind n hn
          exact clear_of_deep i2.2 rfl (deep_call hn (clear_deep hcn) (by decide +kernel) (calms_cons hxs).1 hy he)
        · intro hok
          rw [Bool.and_eq_true] at hok
          exact dr hok.1
    · exact dg

theorem clear_metronome {g : Node} (h : Is (.comp .BeatUnitPerOrNoteRelationNoteChoice) g) (hc : Clear g) {l : List Child} (hl : Calms l) (hok : (metronome l g).ok = true) : Clear (metronome l g).obj := by
  refine clear_of_deep (is_metronome h (calms_steadies hl)).2 rfl ?_
  revert hok
  simp only [metronome]
  split
  · intro _
    refine deep_innerGot' (is_choose h (by decide +kernel)) (deep_choose (clear_deep hc) _) ?_
    intro m hm n hn _
    cases hm
    exact closed_clear 12 (by decide +kernel) (is_beatUnitPer hn (calms_steadies hl))
  · split
    · rename_i hh
      intro hok
      refine deep_innerGot (is_choose h (by decide +kernel)) (deep_choose (clear_deep hc) _) ?_ hok
      intro m hm n hn hcn he
      cases hm
      exact clear_noteRelation hn hcn hl hh he
    · intro _; exact clear_deep hc

/-! ## Keys -/

theorem deep_all_free {c : Cls} (hc : (List.range c.info.members.length).all (closedM c) = true) {o : Node} (h : Is (.comp c) o) : Deep o := by
  obtain ⟨d, k, ss, rfl, hsh, hk⟩ := is_comp h
  intro s hs' n hn
  obtain ⟨i, hi⟩ := List.mem_iff_getElem?.mp hs'
  have hl := (List.getElem?_eq_some_iff.mp hi).1
  rw [hsh.length] at hl
  have hm := List.getElem?_eq_getElem hl
  exact closedM_clear (List.all_eq_true.mp hc i (List.mem_range.mpr hl)) hm ⟨hk s hs' n hn, (hsh.slots i _ s hm hi).1 n hn⟩

theorem clear_oldKey {g : Node} (h : Is (.comp .KeyChoice) g) {f : Node → Got} (hi : Is (.comp .KeyChoice) ((g.choose (some 0)).innerGot 0 f).obj) : Clear ((g.choose (some 0)).innerGot 0 f).obj := by
  have hd := deep_all_free (by decide +kernel) hi
  obtain ⟨d, k, ss, rfl, hsh, hk⟩ := is_comp h
  revert hd
  simp only [Node.innerGot, Node.choose, Option.getD_some]
  cases (Node.comp Cls.KeyChoice d 0 ss).kid? 0 with
  | none => intro hd; exact .comp _ _ _ _ rfl hd
  | some x => intro hd; exact .comp _ _ _ _ rfl hd

theorem clear_newKey {g : Node} (h : Is (.comp .KeyChoice) g) {new : List Node} (hne : new ≠ []) (hi : Is (.comp .KeyChoice) ((g.addRun 1 new).choose (some 1))) : Clear ((g.addRun 1 new).choose (some 1)) := by
  have hd := deep_all_free (by decide +kernel) hi
  obtain ⟨d, k, ss, rfl, hsh, hk⟩ := is_comp h
  have hm : (Cls.KeyChoice).info.members[1]? = some ⟨.comp .NonTraditionalKey, .set ⟨0, none, 0, 0⟩⟩ := rfl
  obtain ⟨s, hs⟩ : ∃ s, ss[1]? = some s := by
    have : 1 < ss.length := by rw [hsh.length]; decide
    exact ⟨_, List.getElem?_eq_getElem this⟩
  revert hd
  simp only [Node.addRun, Node.changeItems, Node.choose, Option.getD_some]
  intro hd
  refine .comp _ _ _ _ ?_ hd
  simp only [hereB, kidsAt, changeSlot_get, if_true, hs, Option.map_some, Option.getD_some]
  rw [Bool.or_eq_true]
  right
  rw [Bool.not_eq_true', List.isEmpty_eq_false_iff]
  intro he
  exact hne (List.append_eq_nil_iff.mp he).2

end Mx.Content
