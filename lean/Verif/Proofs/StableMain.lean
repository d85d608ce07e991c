import Verif.Proofs.StableGroups

/-
The statements and the loops: the objects within the object.
-/
open Mx.Spec
namespace Mx.Content

/-- A choice other than `other-notation`. -/
def otherB (f : Field) : Bool :=
  Nat.beq f.1 (nm! "other-notations") || match f.2.2 with
    | some k => !Nat.beq k 13
    | none => false

/-- The statement gives the objects it reads to elements they go with. -/
def RStmt.readsB (c : Cls) : RStmt → Bool
  | .elem name i _ => callB c i name
  | .set name i _ => newB c i name
  | .item name i => newB c i name
  | .sub i fs _ => memberB c i fun g => simpleB g && callsB g fs
  | .each i fs => memberB c i fun g => callsB g fs && (simpleB g || (decide (g = .NotationsChoice) && fs.all otherB))
  | .music fs => memberB c 0 fun g => simpleB g && memberB g 0 fun e => simpleB e && callsB e fs
  | .oldKey => true
  | .newKey => true
  | .noteChoice => true
  | .syllables => true
  | .metronome => true
  | .own fs => callsB c fs
  | _ => false

/-- What the statement makes of the members is in order. -/
def RStmt.calmB (c : Cls) (s : RStmt) : Bool := s.touch.all (closedM c) || s.readsB c

theorem clear_notations {g : Node} (h : g.kind = .comp .NotationsChoice) (hk : choiceOf g ≠ 13) (hd : Deep g) : Clear g := by
  cases g with
  | leaf => cases h
  | comp c d k ss =>
    cases h
    refine .comp _ _ _ _ ?_ hd
    show (!Nat.beq k 13) = true
    rw [Bool.not_eq_true']
    cases hb : Nat.beq k 13 with
    | false => rfl
    | true => exact absurd (Nat.eq_of_beq_eq_true hb) hk

theorem choiceOf_choose {c : Cls} {g : Node} (h : g.kind = .comp c) (k : Nat) : choiceOf (g.choose (some k)) = k := by
  cases g with
  | leaf => cases h
  | comp => rfl

theorem deep_at {c : Cls} {self : Child} (hself : Calm self) {o : Node} (h : Is (.comp c) o) (hd : Deep o) {x : Child} {xs : List Child} (hl : Calms (x :: xs)) {s : RStmt} (hf : s.fitsB c = true) (hb : s.calmB c = true)
    (hok : (s.at self o x xs).ok = true) : Deep (s.at self o x xs).obj := by
  obtain ⟨hx, hxs⟩ := calms_cons hl
  have h' := is_at hself.steady h (calms_steadies hl) s hf
  rw [RStmt.calmB, Bool.or_eq_true] at hb
  rcases hb with hb | hb
  · refine deep_frame h h' hd ?_
    intro j hj
    refine frame_at ?_ self o x xs
    intro hm
    rw [List.all_eq_true.mp hb j hm] at hj
    cases hj
  revert hok
  cases s with
  | elem name i next =>
    simp only [RStmt.at]
    split
    · rename_i he; exact deep_call h hd hb hx he
    · exact fun _ => hd
  | set name i next =>
    simp only [RStmt.at]
    split
    · intro hok
      have ho : Content.openB c i = true := hf
      rw [Content.openB, Bool.and_eq_true] at ho
      exact deep_addRun hd (clear_run h ho.1 hb hl hok)
    · exact fun _ => hd
  | item name i =>
    simp only [RStmt.at]
    split
    · rename_i he
      intro hok
      have ho : Content.openB c i = true := hf
      rw [Content.openB, Bool.and_eq_true] at ho
      obtain ⟨kd, sc, hm⟩ := isSetB_mult ho.1
      exact deep_addItem hd (clear_read_new h hm hb hx he hok)
    · exact fun _ => hd
  | sub i fs next =>
    simp only [RStmt.at]
    cases hf' : field fs x.name with
    | none => exact fun _ => hd
    | some f =>
      intro hok
      obtain ⟨g, mu, hm', hp⟩ := memberB_comp hb
      obtain ⟨g2, mu2, hm2, hp2⟩ := memberB_comp hf
      rw [hm'] at hm2
      cases hm2
      rw [Bool.and_eq_true] at hp
      refine deep_inner h hd ?_ hok
      intro m hm n hn hc he
      rw [hm'] at hm
      cases hm
      exact clear_of_deep (is_fields hn hp2 hf' hx.steady).2 hp.1 (deep_fields hn (clear_deep hc) hp.2 hx hf' he)
  | each i fs =>
    simp only [RStmt.at]
    cases hf' : field fs x.name with
    | none => exact fun _ => hd
    | some f =>
      intro hok
      rw [RStmt.fitsB, Bool.and_eq_true] at hf
      obtain ⟨g, mu, hm', hp⟩ := memberB_comp hb
      obtain ⟨g2, mu2, hm2, hp2⟩ := memberB_comp hf.2
      rw [hm'] at hm2
      cases hm2
      rw [Bool.and_eq_true] at hp
      obtain ⟨hp1, hp5⟩ := hp
      rw [Bool.or_eq_true, Bool.and_eq_true] at hp5
      refine deep_push hd ?_
      have hn := is_newItem h hm'
      have hkind := (is_fields hn hp2 hf' hx.steady).2
      have hdeep := deep_fields hn (clear_deep (clear_newItem o i ⟨c, h.2⟩)) hp1 hx hf' hok
      rcases hp5 with h1 | ⟨h1, h2⟩
      · exact clear_of_deep hkind h1 hdeep
      · have hg : g = .NotationsChoice := by simpa using h1
        subst hg
        refine clear_notations hkind ?_ hdeep
        obtain ⟨p, hp3, rfl, hpn⟩ := field_named hf'
        have h3 := List.all_eq_true.mp h2 p hp3
        rw [otherB, Bool.or_eq_true] at h3
        rcases h3 with h3 | h3
        · exact absurd (hpn.symm.trans (Nat.eq_of_beq_eq_true h3)) hx.known
        · obtain ⟨a, b, ck⟩ := p
          cases ck with
          | none => cases h3
          | some k =>
            have hk : choiceOf ((o.newItem i).readField (b, some k) x).1 = k := choiceOf_choose (is_inner hn fun m _ n hn => hx.steady m.kind n hn).2 k
            rw [hk]
            intro e
            subst e
            cases h3
  | music fs =>
    simp only [RStmt.at]
    cases hf' : field fs x.name with
    | none => exact fun _ => hd
    | some f =>
      intro hok
      obtain ⟨g, mu, hm', hp⟩ := memberB_comp hb
      obtain ⟨g2, mu2, hm2, hp2⟩ := memberB_comp hf
      rw [hm'] at hm2
      cases hm2
      rw [Bool.and_eq_true] at hp hp2
      obtain ⟨e, mu3, hm3, hp3⟩ := memberB_comp hp.2
      obtain ⟨e2, mu4, hm4, hp4⟩ := memberB_comp hp2.2
      rw [hm3] at hm4
      cases hm4
      rw [Bool.and_eq_true] at hp3
      refine deep_inner h hd ?_ hok
      intro m hm n hn hc he
      rw [hm'] at hm
      cases hm
      have hnew := is_newItem hn hm3
      have hi := is_fields hnew hp4 hf' hx.steady
      have : Is (.comp g) (n.addItem 0 ((n.newItem 0).readField f x).1) := is_addItem hn hp2.1 fun m hm => by
        rw [hm3] at hm
        cases hm
        exact hi
      exact clear_of_deep this.2 hp.1 (deep_addItem (clear_deep hc) (clear_of_deep hi.2 hp3.1 (deep_fields hnew (clear_deep (clear_newItem n 0 ⟨g, hn.2⟩)) hp3.2 hx hf' he)))
  | oldKey =>
    simp only [RStmt.fitsB, decide_eq_true_eq] at hf
    subst hf
    simp only [RStmt.at]
    split
    · intro _
      refine deep_innerGot' h hd ?_
      intro m hm n hn _
      cases hm
      refine clear_oldKey hn (is_innerGot (is_choose hn (by decide +kernel)) ?_)
      intro m hm n hn
      cases hm
      exact is_readParts _ (by decide +kernel) hn (calms_steadies hl)
    · exact fun _ => hd
  | newKey =>
    simp only [RStmt.fitsB, decide_eq_true_eq] at hf
    subst hf
    simp only [RStmt.at]
    split
    · rename_i hh
      intro _
      refine deep_innerGot' h hd ?_
      intro m hm n hn _
      cases hm
      refine clear_newKey hn (readGroups_ne hh) (is_choose (is_addRun hn (by decide +kernel) (readGroups_ne hh) ?_) (by decide +kernel))
      intro m hm
      have := is_newItem hn hm
      cases hm
      exact is_readGroups (by decide +kernel) this _ (calms_steadies hl)
    · exact fun _ => hd
  | noteChoice =>
    simp only [RStmt.fitsB, decide_eq_true_eq] at hf
    subst hf
    simp only [RStmt.at]
    split
    · intro _
      refine deep_innerGot' h hd ?_
      intro m hm n hn hc
      cases hm
      exact clear_noteChoice hn hc (calms_steadies hl)
    · exact fun _ => hd
  | syllables =>
    simp only [RStmt.fitsB, decide_eq_true_eq] at hf
    subst hf
    intro _
    refine deep_innerGot' h hd ?_
    intro m hm n hn hc
    cases hm
    have hi : Is (.comp .LyricTextChoice) ((n.choose (some 0)).innerGot 0 (fun t => syllabicText t (x :: xs))).obj := by
      refine is_innerGot (is_choose hn (by decide +kernel)) ?_
      intro m hm n hn
      cases hm
      exact is_syllabicText hn (calms_steadies hl)
    refine clear_of_deep hi.2 rfl (deep_innerGot' (is_choose hn (by decide +kernel)) (deep_choose (clear_deep hc) _) ?_)
    intro m hm n hn hc
    cases hm
    exact clear_syllabicText hn hc (calms_steadies hl)
  | metronome =>
    simp only [RStmt.fitsB, decide_eq_true_eq] at hf
    subst hf
    intro hok
    refine deep_innerGot h hd ?_ hok
    intro m hm n hn hc he
    cases hm
    exact clear_metronome hn hc hl he
  | own fs =>
    simp only [RStmt.at]
    cases hf' : field fs x.name with
    | none => exact fun _ => hd
    | some f => exact deep_fields h hd hb hx hf'
  | _ => cases hb

theorem deep_runBody {c : Cls} {self : Child} (hself : Calm self) : ∀ (ss : List RStmt) {o : Node} {l : List Child}, ss.all (RStmt.fitsB c) = true → ss.all (RStmt.calmB c) = true → Is (.comp c) o → Deep o → Calms l →
    (runBody self ss o l).ok = true → Deep (runBody self ss o l).obj
  | [], o, l, _, _, _, h, _, _ => by simpa [runBody, idle] using h
  | s :: ss, o, [], _, _, _, h, _, _ => by simpa [runBody, idle] using h
  | s :: ss, o, x :: xs, hf, hb, h, hd, hl, hok => by
    simp only [List.all_cons, Bool.and_eq_true] at hf hb
    have h1 := is_at hself.steady h (calms_steadies hl) s hf.1
    have h2 := deep_at hself h hd hl hf.1 hb.1
    revert hok
    rw [runBody]
    split
    · exact h2
    · intro hok
      rw [Bool.and_eq_true] at hok
      exact deep_runBody hself ss hf.2 hb.2 h1 (h2 hok.1) (calms_drop hl _) hok.2

theorem deep_readLoop {c : Cls} {self : Child} (hself : Calm self) {body : List RStmt} (hf : body.all (RStmt.fitsB c) = true) (hb : body.all (RStmt.calmB c) = true) {strict : Bool} : ∀ (f : Nat) {o : Node} {l : List Child},
    Is (.comp c) o → Deep o → Calms l → (readLoop self body strict f o l).2 = true → Deep (readLoop self body strict f o l).1
  | _, o, [], _, h, _, _ => by simpa [readLoop] using h
  | 0, o, _ :: _, _, h, _, _ => by simpa [readLoop] using h
  | f + 1, o, x :: xs, h, hd, hl, hok => by
    rw [readLoop] at hok ⊢
    simp only [Bool.and_eq_true] at hok
    exact deep_readLoop hself hf hb f (is_runBody hself.steady body hf h (calms_steadies hl)) (deep_runBody hself body hf hb h hd hl hok.1.1) (calms_drop (calms_cons hl).2 _) hok.2

def preB (c : Cls) : Option Nat → Bool
  | some i => callB c i 0
  | none => true

def RProg.calmB (c : Cls) : RProg → Bool
  | .loop pre body _ _ => body.all (RStmt.calmB c) && preB c pre
  | .pick fs => callsB c fs
  | .once body _ => body.all (RStmt.calmB c)
  | .arrow => true
  | .credit => true
  | .unused => true

set_option maxRecDepth 100000 in
theorem prog_calm (c : Cls) : (prog c).calmB c = true := by
  have h : allCls.all (fun c => (prog c).calmB c) = true := by decide +kernel
  exact List.all_eq_true.mp h c (mem_allCls c)

theorem deep_progRun {c : Cls} {p : RProg} (hp : p.fitsB c = true) (hb : p.calmB c = true) (hc : p ≠ .credit) (ha : p ≠ .arrow) {self : Child} (hself : Calm self) {l : List Child} (hl : Calms l) {o : Node} (h : Is (.comp c) o) (hd : Deep o)
    (hok : (p.run self l o).2 = true) : Deep (p.run self l o).1 := by
  revert hok
  cases p with
  | loop pre body strict need =>
    simp only [RProg.run, Bool.and_eq_true]
    rw [RProg.calmB, Bool.and_eq_true] at hb
    intro hok
    cases pre with
    | none => exact deep_readLoop hself hp hb.1 _ h hd hl hok.1.2
    | some i => exact deep_readLoop hself hp hb.1 _ (is_inner h fun m _ n hn => hself.steady m.kind n hn) (deep_self h hd hb.2 hself hok.1.1) hl hok.1.2
  | pick fs =>
    simp only [RProg.run]
    cases hf : field fs self.name with
    | none => intro hok; cases hok
    | some f => exact deep_fields h hd hb hself hf
  | once body need =>
    simp only [RProg.run]
    cases l with
    | nil => exact fun _ => hd
    | cons x xs => exact deep_runBody hself body hp hb h hd hl
  | arrow => exact absurd rfl ha
  | credit => exact absurd rfl hc
  | unused => intro hok; cases hok

end Mx.Content
