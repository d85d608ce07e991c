import Verif.Proofs.LoadedGroups

/-
The statements, the readers of the classes, and whole elements.
-/
open Mx.Spec
namespace Mx.Content

/-- The test holds for the class of the member `i`. -/
def memberB (c : Cls) (i : Nat) (p : Cls → Bool) : Bool :=
  match c.info.members[i]? with
  | some ⟨.comp g, _⟩ => p g
  | _ => false

theorem memberB_comp {c : Cls} {i : Nat} {p : Cls → Bool} (h : memberB c i p = true) : ∃ g mu, c.info.members[i]? = some ⟨.comp g, mu⟩ ∧ p g = true := by
  unfold memberB at h
  split at h
  · rename_i g mu hm; exact ⟨g, mu, hm, h⟩
  · cases h

/-- The statement fits the class. -/
def RStmt.fitsB (c : Cls) : RStmt → Bool
  | .elem _ _ _ => true
  | .set _ i _ => openB c i
  | .item _ i => openB c i
  | .group i ps _ => memberB c i fun g => ps.all (Part.openB g)
  | .sub i fs _ => memberB c i fun g => fieldsB g fs
  | .each i fs => isSetB c i && memberB c i fun g => fieldsB g fs
  | .music fs => memberB c 0 fun g => openB g 0 && memberB g 0 fun e => fieldsB e fs
  | .subAdd _ i j => memberB c i fun g => isSetB g j
  | .selfItem _ i f => openB c i && memberB c i fun g => chooseB g f.2
  | .unless _ => true
  | .stop _ => true
  | .midi i => openB c i && memberB c i fun g => decide (g = .MidiDeviceInstrumentGroup)
  | .oldKey => decide (c = .Key)
  | .newKey => decide (c = .Key)
  | .times => decide (c = .Time)
  | .chords => decide (c = .Harmony)
  | .noteChoice => decide (c = .Note)
  | .syllables => decide (c = .Lyric)
  | .metronome => decide (c = .Metronome)
  | .partList => decide (c = .PartList)
  | .own fs => fieldsB c fs
  | .ownSet _ i k => openB c i && chooseB c (some k)

theorem runItems_ne {x : Child} {xs : List Child} {name : Nat} (h : Nat.beq x.name name = true) : runItems name (x :: xs) ≠ [] := by
  simp [runItems, List.takeWhile_cons, h]

theorem is_run {c : Cls} {o : Node} (h : Is (.comp c) o) {i name : Nat} (hb : openB c i = true) {x : Child} {xs : List Child} (hl : Steadies (x :: xs)) (he : Nat.beq x.name name = true) :
    Is (.comp c) (o.addRun i (((runItems name (x :: xs)).map fun y => y.read (o.newItem i)).map (·.1))) := by
  rw [List.map_map]
  refine is_addRun h hb ?_ (is_runItems h (steadies_run hl name))
  intro e
  exact runItems_ne he (List.map_eq_nil_iff.mp e)

set_option maxRecDepth 10000 in
theorem is_at {c : Cls} {self : Child} (hself : Steady self) {o : Node} (h : Is (.comp c) o) {x : Child} {xs : List Child} (hl : Steadies (x :: xs)) :
    ∀ (s : RStmt), s.fitsB c = true → Is (.comp c) (s.at self o x xs).obj := by
  obtain ⟨hx, hxs⟩ := steadies_cons hl
  intro s hb
  cases s with
  | elem name i next =>
    simp only [RStmt.at]
    split
    · exact is_inner h fun m _ n hn => hx m.kind n hn
    · exact h
  | set name i next =>
    simp only [RStmt.at]
    split
    · rename_i he; exact is_run h hb hl he
    · exact h
  | item name i =>
    simp only [RStmt.at]
    split
    · exact is_addItem h hb fun m hm => hx _ _ (is_newItem h hm)
    · exact h
  | group i ps back =>
    simp only [RStmt.at]
    cases hk : o.kid? i with
    | none => exact h
    | some g =>
      simp only
      split
      · exact h
      · obtain ⟨m, hm, hg⟩ := is_kid h hk
        obtain ⟨g', mu, hm', hp⟩ := memberB_comp hb
        rw [hm'] at hm
        cases hm
        refine is_setKid h hk ?_
        intro m hm
        rw [hm'] at hm
        cases hm
        exact is_readParts ps hp hg hl
  | sub i fs next =>
    simp only [RStmt.at]
    cases hf : field fs x.name with
    | none => exact h
    | some f =>
      obtain ⟨g, mu, hm', hp⟩ := memberB_comp hb
      refine is_inner h ?_
      intro m hm n hn
      rw [hm'] at hm
      cases hm
      exact is_fields hn hp hf hx
  | each i fs =>
    simp only [RStmt.at]
    cases hf : field fs x.name with
    | none => exact h
    | some f =>
      rw [RStmt.fitsB, Bool.and_eq_true] at hb
      obtain ⟨g, mu, hm', hp⟩ := memberB_comp hb.2
      refine is_push h hb.1 ?_
      intro m hm
      have := is_newItem h hm
      rw [hm'] at hm
      cases hm
      exact is_fields this hp hf hx
  | music fs =>
    simp only [RStmt.at]
    cases hf : field fs x.name with
    | none => exact h
    | some f =>
      obtain ⟨g, mu, hm', hp⟩ := memberB_comp hb
      rw [Bool.and_eq_true] at hp
      obtain ⟨e, mu', hm2, hp2⟩ := memberB_comp hp.2
      refine is_inner h ?_
      intro m hm n hn
      rw [hm'] at hm
      cases hm
      refine is_addItem hn hp.1 ?_
      intro m hm
      have := is_newItem hn hm
      rw [hm2] at hm
      cases hm
      exact is_fields this hp2 hf hx
  | subAdd name i j =>
    simp only [RStmt.at]
    split
    · obtain ⟨g, mu, hm', hp⟩ := memberB_comp hb
      refine is_inner h ?_
      intro m hm n hn
      rw [hm'] at hm
      cases hm
      exact is_push hn hp fun m hm => hx _ _ (is_newItem hn hm)
    · exact h
  | selfItem name i f =>
    simp only [RStmt.at]
    split
    · rw [RStmt.fitsB, Bool.and_eq_true] at hb
      obtain ⟨g, mu, hm', hp⟩ := memberB_comp hb.2
      refine is_addItem h hb.1 ?_
      intro m hm
      have := is_newItem h hm
      rw [hm'] at hm
      cases hm
      exact is_readField this hp hself
    · exact h
  | «unless» i => exact h
  | stop i => exact h
  | midi i =>
    simp only [RStmt.at]
    split
    · exact h
    · rw [RStmt.fitsB, Bool.and_eq_true] at hb
      obtain ⟨g, mu, hm', hp⟩ := memberB_comp hb.2
      have hg : g = .MidiDeviceInstrumentGroup := by simpa using hp
      subst hg
      refine is_items h hb.1 ?_
      intro m s hm hk
      have hnew := is_newItem h hm
      rw [hm'] at hm
      cases hm
      refine ⟨?_, ?_⟩
      · intro n hn
        have hn : n ∈ s.kids ++ (midiGroups (o.newItem i) (x :: xs)).1 := hn
        rw [List.mem_append] at hn
        rcases hn with hn | hn
        · exact hk n hn
        · exact is_midiGroups hnew hl n hn
      · intro h1
        show 1 ≤ (s.kids ++ (midiGroups (o.newItem i) (x :: xs)).1).length
        rw [List.length_append]
        omega
  | oldKey =>
    simp only [RStmt.fitsB, decide_eq_true_eq] at hb
    subst hb
    simp only [RStmt.at]
    split
    · refine is_innerGot h ?_
      intro m hm n hn
      cases hm
      refine is_innerGot (is_choose hn (by decide +kernel)) ?_
      intro m hm n hn
      cases hm
      exact is_readParts _ (by decide +kernel) hn hl
    · exact h
  | newKey =>
    simp only [RStmt.fitsB, decide_eq_true_eq] at hb
    subst hb
    simp only [RStmt.at]
    split
    · rename_i hh
      refine is_innerGot h ?_
      intro m hm n hn
      cases hm
      refine is_choose (is_addRun hn (by decide +kernel) (readGroups_ne hh) ?_) (by decide +kernel)
      intro m hm
      have := is_newItem hn hm
      cases hm
      exact is_readGroups (by decide +kernel) this _ hl
    · exact h
  | times =>
    simp only [RStmt.fitsB, decide_eq_true_eq] at hb
    subst hb
    refine is_innerGot h ?_
    intro m hm n hn
    cases hm
    refine is_choose (is_addItem hn (by decide +kernel) ?_) (by decide +kernel)
    intro m hm
    have := is_newItem hn hm
    cases hm
    exact is_readParts _ (by decide +kernel) this hl
  | chords =>
    simp only [RStmt.fitsB, decide_eq_true_eq] at hb
    subst hb
    simp only [RStmt.at]
    split
    · refine is_addItem h (by decide +kernel) ?_
      intro m hm
      have := is_newItem h hm
      cases hm
      exact is_harmonyChord this hl
    · exact h
  | noteChoice =>
    simp only [RStmt.fitsB, decide_eq_true_eq] at hb
    subst hb
    simp only [RStmt.at]
    split
    · refine is_innerGot h ?_
      intro m hm n hn
      cases hm
      exact is_noteChoice hn hl
    · exact h
  | syllables =>
    simp only [RStmt.fitsB, decide_eq_true_eq] at hb
    subst hb
    refine is_innerGot h ?_
    intro m hm n hn
    cases hm
    refine is_innerGot (is_choose hn (by decide +kernel)) ?_
    intro m hm n hn
    cases hm
    exact is_syllabicText hn hl
  | metronome =>
    simp only [RStmt.fitsB, decide_eq_true_eq] at hb
    subst hb
    refine is_innerGot h ?_
    intro m hm n hn
    cases hm
    exact is_metronome hn hl
  | partList =>
    simp only [RStmt.fitsB, decide_eq_true_eq] at hb
    subst hb
    simp only [RStmt.at]
    split
    · cases hf : field partNames x.name with
      | none => exact is_push h (by decide +kernel) fun m hm => is_newItem h hm
      | some f =>
        refine is_push h (by decide +kernel) ?_
        intro m hm
        have := is_newItem h hm
        cases hm
        exact is_fields this (by decide +kernel) hf hx
    · split
      · exact is_push h (by decide +kernel) fun m hm => hx _ _ (is_newItem h hm)
      · split
        · exact is_inner h fun m _ n hn => hx m.kind n hn
        · exact h
  | own fs =>
    simp only [RStmt.at]
    cases hf : field fs x.name with
    | none => exact h
    | some f => exact is_fields h hb hf hx
  | ownSet name i k =>
    simp only [RStmt.at]
    rw [RStmt.fitsB, Bool.and_eq_true] at hb
    split
    · rename_i he; exact is_choose (is_run h hb.1 hl he) hb.2
    · exact h

theorem is_runBody {c : Cls} {self : Child} (hself : Steady self) : ∀ (ss : List RStmt) {o : Node} {l : List Child}, ss.all (RStmt.fitsB c) = true → Is (.comp c) o → Steadies l → Is (.comp c) (runBody self ss o l).obj
  | [], o, l, _, h, _ => by simpa [runBody, idle] using h
  | s :: ss, o, [], _, h, _ => by simpa [runBody, idle] using h
  | s :: ss, o, x :: xs, hb, h, hl => by
    simp only [List.all_cons, Bool.and_eq_true] at hb
    have h1 := is_at hself h hl s hb.1
    rw [runBody]
    split
    · exact h1
    · exact is_runBody hself ss hb.2 h1 (steadies_drop hl _)

theorem is_readLoop {c : Cls} {self : Child} (hself : Steady self) {body : List RStmt} (hb : body.all (RStmt.fitsB c) = true) {strict : Bool} : ∀ (f : Nat) {o : Node} {l : List Child}, Is (.comp c) o → Steadies l →
    Is (.comp c) (readLoop self body strict f o l).1
  | _, o, [], h, _ => by simpa [readLoop] using h
  | 0, o, _ :: _, h, _ => by simpa [readLoop] using h
  | f + 1, o, x :: xs, h, hl => by
    rw [readLoop]
    exact is_readLoop hself hb f (is_runBody hself body hb h hl) (steadies_drop (steadies_cons hl).2 _)

/-! ## Credit and arrow -/

theorem is_pushes {c : Cls} {i : Nat} (hb : isSetB c i = true) : ∀ {new : List Node} {o : Node}, Is (.comp c) o → (∀ m, c.info.members[i]? = some m → ∀ n ∈ new, Is m.kind n) → Is (.comp c) (new.foldl (fun o x => o.push i x) o)
  | [], _, h, _ => h
  | n :: ns, _, h, hn => by
    rw [List.foldl_cons]
    exact is_pushes hb (is_push h hb fun m hm => hn m hm n (by simp)) fun m hm x hx => hn m hm x (by simp [hx])

theorem is_pushRun {c : Cls} {i name : Nat} (hb : isSetB c i = true) {o : Node} (h : Is (.comp c) o) {l : List Child} (hl : Steadies l) : Is (.comp c) (pushRun name i o l).obj := by
  simp only [pushRun]
  rw [List.map_map]
  exact is_pushes hb h (is_runItems h (steadies_run hl name))

theorem is_selfs {c : Cls} {o : Node} (h : Is (.comp c) o) {self : Child} (hself : Steady self) {i : Nat} (l : List Child) : ∀ m, c.info.members[i]? = some m → ∀ n ∈ (l.map fun _ => self.read (o.newItem i)).map (·.1), Is m.kind n := by
  intro m hm n hn
  simp only [List.map_map, List.mem_map, Function.comp_apply] at hn
  obtain ⟨y, _, rfl⟩ := hn
  exact hself _ _ (is_newItem h hm)

theorem is_creditWords {self : Child} (hself : Steady self) : ∀ (f : Nat) {c g : Node} {l : List Child}, Is (.comp .CreditChoice) c → Is (.comp .CreditWordsGroup) g → Steadies l →
    Is (.comp .CreditChoice) (creditWords self f c g l).1
  | 0, _, _, _, h, _, _ => h
  | f + 1, c, g, l, h, hg, hl => by
    rw [creditWords]
    split
    · extract_lets links g1 l1 marks g2 ok
      have hg1 : Is (.comp .CreditWordsGroup) g1 := is_pushes (by decide +kernel) hg (is_selfs hg hself _)
      have hg2 : Is (.comp .CreditWordsGroup) g2 := is_pushes (by decide +kernel) hg1 (is_selfs hg1 hself _)
      have hd : Steadies (l1.drop marks.length) := steadies_drop (steadies_drop hl _) _
      clear_value g2 ok
      revert hd
      generalize l1.drop marks.length = l2
      intro hd
      cases l2 with
      | nil => exact h
      | cons x xs =>
        obtain ⟨hx, hxs⟩ := steadies_cons hd
        simp only
        split
        · refine is_creditWords hself f (is_push h (by decide +kernel) ?_) ?_ hxs
          · intro m hm
            cases hm
            exact is_inner hg2 fun m _ n hn => hx m.kind n hn
          · exact is_newItem h (i := 2) (m := ⟨.comp .CreditWordsGroup, .set ⟨0, none, 0, 0⟩⟩) rfl
        · exact is_creditWords hself f h hg2 hd
    · exact h

theorem is_readCredit {self : Child} (hself : Steady self) {o : Node} (h : Is (.comp .Credit) o) {l : List Child} (hl : Steadies l) : Is (.comp .Credit) (readCredit self l o).1 := by
  simp only [readCredit]
  have ha := is_pushRun (c := .Credit) (i := 0) (name := nm! "credit-type") (by decide +kernel) h hl
  revert ha
  generalize pushRun (nm! "credit-type") 0 o l = a
  intro ha
  have hb := is_pushRun (c := .Credit) (i := 1) (name := nm! "link") (by decide +kernel) ha (steadies_drop hl a.used)
  revert hb
  generalize pushRun (nm! "link") 1 a.obj (l.drop a.used) = b
  intro hb
  have hc := is_pushRun (c := .Credit) (i := 2) (name := nm! "bookmark") (by decide +kernel) hb (steadies_drop hl (a.used + b.used))
  revert hc
  generalize pushRun (nm! "bookmark") 2 b.obj (l.drop (a.used + b.used)) = c
  intro hc
  cases hd : l.drop (a.used + b.used + c.used) with
  | nil => exact hc
  | cons x xs =>
    obtain ⟨hx, hxs⟩ := steadies_cons (hd ▸ steadies_drop hl (a.used + b.used + c.used))
    simp only
    split
    · refine is_inner hc ?_
      intro m hm n hn
      cases hm
      exact is_readField hn (by decide +kernel) hx
    · split
      · refine is_inner hc ?_
        intro m hm n hn
        cases hm
        have hw := is_readField hn (f := (1, some 1)) (by decide +kernel) hx
        refine is_creditWords hself _ hw ?_ hxs
        exact is_newItem hw (i := 2) (m := ⟨.comp .CreditWordsGroup, .set ⟨0, none, 0, 0⟩⟩) rfl
      · exact hc

theorem is_readArrow {self : Child} (hself : Steady self) : ∀ {l : List Child} {o : Node} {ok : Bool}, Is (.comp .Arrow) o → Steadies l → Is (.comp .Arrow) (readArrow self l o ok).1
  | [], _, _, h, _ => h
  | x :: xs, o, ok, h, hl => by
    obtain ⟨hx, hxs⟩ := steadies_cons hl
    rw [readArrow]
    refine is_readArrow hself (is_inner (is_choose ?_ (by decide +kernel)) fun m _ n hn => hself m.kind n hn) hxs
    split
    · exact is_inner (is_choose h (by decide +kernel)) fun m _ n hn => hx m.kind n hn
    · exact h

/-! ## Whole elements -/

def RProg.fitsB (c : Cls) : RProg → Bool
  | .loop _ body _ _ => body.all (RStmt.fitsB c)
  | .pick fs => fieldsB c fs
  | .once body _ => body.all (RStmt.fitsB c)
  | .arrow => decide (c = .Arrow)
  | .credit => decide (c = .Credit)
  | .unused => true

set_option maxRecDepth 100000 in
theorem prog_fits (c : Cls) : (prog c).fitsB c = true := by
  have h : allCls.all (fun c => (prog c).fitsB c) = true := by decide +kernel
  exact List.all_eq_true.mp h c (mem_allCls c)

theorem is_progRun {c : Cls} {p : RProg} (hp : p.fitsB c = true) {self : Child} (hself : Steady self) {l : List Child} (hl : Steadies l) {o : Node} (h : Is (.comp c) o) : Is (.comp c) (p.run self l o).1 := by
  cases p with
  | loop pre body strict need =>
    simp only [RProg.run]
    refine is_readLoop hself hp _ ?_ hl
    cases pre with
    | none => exact h
    | some i => exact is_inner h fun m _ n hn => hself m.kind n hn
  | pick fs =>
    simp only [RProg.run]
    cases hf : field fs self.name with
    | none => exact h
    | some f => exact is_fields h hp hf hself
  | once body need =>
    simp only [RProg.run]
    cases l with
    | nil => exact h
    | cons x xs => exact is_runBody hself body hp h hl
  | arrow =>
    simp only [RProg.fitsB, decide_eq_true_eq] at hp
    subst hp
    exact is_readArrow hself h hl
  | credit =>
    simp only [RProg.fitsB, decide_eq_true_eq] at hp
    subst hp
    exact is_readCredit hself h hl
  | unused => exact h

theorem is_readInto {name : Nat} {data : Str} {kids : List Child} (hk : Steadies kids) : ∀ (l : Nat) {kd : Kind} {n : Node}, Is kd n → Is kd (readInto prog name data kids l n).1
  | l, kd, .leaf t hc d, h => by
    obtain ⟨h1, rfl⟩ := h
    cases h1 with
    | leaf _ _ _ ht =>
      rw [readInto]
      exact ⟨.leaf t hc data ht, rfl⟩
  | 0, kd, .comp c d k ss, h => by rw [readInto]; exact h
  | l + 1, kd, .comp c d k ss, h => by
    obtain ⟨h1, rfl⟩ := h
    rw [readInto]
    refine is_progRun (prog_fits c) (fun kd n hn => is_readInto hk l hn) hk ?_
    cases h1 with
    | comp _ _ _ _ hs hks => exact ⟨.comp c data k ss hs hks, rfl⟩

mutual
theorem steady_child : ∀ (x : Xml), Steady (x.child prog)
  | .elem name data kids => by
    intro kd n hn
    rw [Xml.child]
    exact is_readInto (steady_list kids) 4 hn
theorem steady_list : ∀ (l : List Xml), Steadies (childList prog l)
  | [] => by intro y hy; simp [childList] at hy
  | x :: xs => by
    intro y hy
    rw [childList, List.mem_cons] at hy
    rcases hy with rfl | hy
    · exact steady_child x
    · exact steady_list xs y hy
end

/-- Whatever the element is, a new object of the class that reads it is of that class and within the bounds. -/
theorem sane_read (c : Cls) (x : Xml) : Is (.comp c) ((x.child prog).read (make (.comp c))).1 := steady_child x _ _ (is_make_comp c)

end Mx.Content
