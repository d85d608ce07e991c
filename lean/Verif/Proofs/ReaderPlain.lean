import Verif.Proofs.ReaderChoices

/-
The classes whose reader is a plain loop: that each statement of the loop serves its member is checked on the tables.
-/
open Mx.Spec
namespace Mx.Content

def RStmt.slot? : RStmt → Option Nat
  | .elem _ i _ => some i
  | .set _ i _ => some i
  | .item _ i => some i
  | .group i _ _ => some i
  | .sub i _ _ => some i
  | .each i _ => some i
  | _ => none

def RStmt.isNext : RStmt → Bool
  | .elem _ _ b => b
  | .set _ _ b => b
  | .item _ _ => true
  | .sub _ _ b => b
  | .each _ _ => true
  | _ => false

/-- The statement for a member, with those before and after it. -/
def locate (i : Nat) : List RStmt → Option (List RStmt × RStmt × List RStmt)
  | [] => none
  | st :: b => match st.slot? with
    | some j => if Nat.beq i j then some ([], st, b) else (locate i b).map fun r => (st :: r.1, r.2)
    | none => (locate i b).map fun r => (st :: r.1, r.2)

theorem locate_eq {i : Nat} : ∀ {b pre post : List RStmt} {st : RStmt}, locate i b = some (pre, st, post) → b = pre ++ st :: post ∧ st.slot? = some i
  | [], _, _, _, h => by simp [locate] at h
  | s :: b, pre, post, st, h => by
    have hrec : ∀ {pre' post' : List RStmt} {st' : RStmt}, (locate i b).map (fun r => (s :: r.1, r.2)) = some (pre', st', post') → s :: b = pre' ++ st' :: post' ∧ st'.slot? = some i := by
      intro pre' post' st' h
      obtain ⟨r, hr, e⟩ := Option.map_eq_some_iff.mp h
      obtain ⟨p, q, t⟩ := r
      obtain ⟨rfl, e2⟩ := Prod.mk.inj e
      obtain ⟨rfl, rfl⟩ := Prod.mk.inj e2
      obtain ⟨h1, h2⟩ := locate_eq hr
      exact ⟨by rw [h1]; rfl, h2⟩
    rw [locate] at h
    split at h
    · next j hj =>
      split at h
      · next hij =>
        have e := Option.some.inj h
        obtain ⟨rfl, e2⟩ := Prod.mk.inj e
        obtain ⟨rfl, rfl⟩ := Prod.mk.inj e2
        exact ⟨rfl, by rw [hj, ← Nat.eq_of_beq_eq_true hij]⟩
      · exact hrec h
    · exact hrec h

def aroundB (c : Cls) (w : Stmt) (pre post : List RStmt) (strict next : Bool) : Bool :=
  pre.all (fun p => (names c w).all fun n => !p.reacts n) && (next || (!strict && post.all fun p => (names c w).all fun n => !p.reacts n))

theorem around_of {c : Cls} {w : Stmt} {pre post : List RStmt} {strict next : Bool} (h : aroundB c w pre post strict next = true) : Around c w pre post strict next := by
  simp only [aroundB, Bool.and_eq_true, Bool.or_eq_true, Bool.not_eq_true', List.all_eq_true] at h
  exact ⟨h.1, h.2⟩

def badChoice (G : Cls) (k : Nat) : Bool := match G with | .NotationsChoice => Nat.beq k 13 | _ => false

theorem good_choice {G : Cls} {d : Str} {k : Nat} {ss : List Slot} (h : ReadableHere G d k ss) : badChoice G k = false := by
  unfold badChoice
  split
  · exact beq_ne h
  · rfl

def choicesB (G : Cls) (fs : List Field) : Bool :=
  !Nat.beq G.info.choices 0 && (List.range G.info.choices).all fun k => badChoice G k || choiceOk G fs k

theorem choices_ok {G : Cls} {fs : List Field} (h : choicesB G fs = true) : ChoicesOk G fs := by
  intro d k ss hk hr
  simp only [choicesB, Bool.and_eq_true, Bool.not_eq_true', List.all_eq_true, Bool.or_eq_true] at h
  rcases hk with hk | hk
  · rw [hk] at h; simp at h
  · rcases h.2 k (by simpa using hk) with h' | h'
    · rw [good_choice hr] at h'; cases h'
    · exact h'

def isSet? : Mult → Option SetCode
  | .set s => some s
  | _ => none

def isElement : How → Bool
  | .element => true
  | _ => false

/-- The statement does what it should for its member. -/
def stmtB (c : Cls) (w : Stmt) (m : Member) (pre : List RStmt) (later : List Nat) (st : RStmt) : Bool :=
  match st, m.kind with
  | .elem n _ _, kd => isElement w.how && (isSet? m.mult).isNone && Nat.beq n (kindName kd)
  | .set n _ _, kd => isElement w.how && (match isSet? m.mult with | some sc => setFitsB c w.slot sc | none => false) && Nat.beq n (kindName kd) && !later.any (Nat.beq n)
  | .item n _, kd => isElement w.how && (match isSet? m.mult with | some sc => setFitsB c w.slot sc | none => false) && Nat.beq n (kindName kd)
  | .group i parts back, .comp G => !isElement w.how && decide (m.mult = .one) && Nat.beq G.info.choices 0 && partsOk G later parts G.info.stmts &&
      (back || later.all fun n => pre.all (fun p => !p.reacts n) && !(RStmt.group i parts back).reacts n)
  | .sub _ fs _, .comp G => !isElement w.how && !decide (G = .Sound) &&
      ((isSet? m.mult).isNone && choicesB G fs || decide (m.mult = .one) && Nat.beq G.info.choices 0 && G.info.stmts.all (fieldOk G fs))
  | .each _ fs, .comp G => !isElement w.how && !decide (G = .Sound) && choicesB G fs &&
      (match isSet? m.mult with | some sc => Nat.beq sc.start 0 && sc.most.isNone | none => false)
  | _, _ => false

def serveB (c : Cls) (body : List RStmt) (strict : Bool) (later : List Nat) (w : Stmt) : Bool :=
  match c.info.members[w.slot]?, locate w.slot body with
  | some m, some (pre, st, post) => aroundB c w pre post strict st.isNext && stmtB c w m pre later st
  | _, _ => false

theorem one_of {m : Member} (h : (isSet? m.mult).isNone = true) : m.mult = .one ∨ m.mult = .opt := by
  cases hm : m.mult with
  | one => exact .inl rfl
  | opt => exact .inr rfl
  | set s => rw [hm] at h; simp [isSet?] at h

theorem set_of {m : Member} {sc : SetCode} (h : isSet? m.mult = some sc) : m.mult = .set sc := by
  cases hm : m.mult with
  | one => rw [hm] at h; simp [isSet?] at h
  | opt => rw [hm] at h; simp [isSet?] at h
  | set s => rw [hm] at h; simp only [isSet?, Option.some.injEq] at h; rw [h]

theorem element_of {h : How} (e : isElement h = true) : h = .element := by cases h <;> simp_all [isElement]
theorem not_element_of {h : How} (e : isElement h = false) : h ≠ .element := by cases h <;> simp_all [isElement]

theorem serve_of {N : Nat} {self : Child} {body : List RStmt} {strict : Bool} {c : Cls} {later : List Nat} {w : Stmt} (hrd : RdBelow N) (hw : w ∈ c.info.stmts)
    (h : serveB c body strict later w = true) : Serve N self body strict c w later := by
  unfold serveB at h
  split at h
  · next m pre st post hm hloc =>
    simp only [Bool.and_eq_true] at h
    obtain ⟨rfl, hslot⟩ := locate_eq hloc
    have ha := around_of h.1
    have hs := h.2
    unfold stmtB at hs
    split at hs
    · -- elem
      next n i b =>
      simp only [RStmt.slot?, Option.some.injEq] at hslot
      subst hslot
      simp only [Bool.and_eq_true] at hs
      exact serve_elem hrd hw (element_of hs.1.1) hm (one_of hs.1.2) (Nat.eq_of_beq_eq_true hs.2) ha
    · -- set
      next n i b =>
      simp only [RStmt.slot?, Option.some.injEq] at hslot
      subst hslot
      simp only [Bool.and_eq_true, Bool.not_eq_true'] at hs
      obtain ⟨⟨⟨h1, h2⟩, h3⟩, h4⟩ := hs
      split at h2
      · next sc hsc => exact serve_set hrd hw (element_of h1) hm (set_of hsc) (setFits_of h2) (Nat.eq_of_beq_eq_true h3) h4 ha
      · cases h2
    · -- item
      next n i =>
      simp only [RStmt.slot?, Option.some.injEq] at hslot
      subst hslot
      simp only [Bool.and_eq_true] at hs
      obtain ⟨⟨h1, h2⟩, h3⟩ := hs
      split at h2
      · next sc hsc => exact serve_item hrd hw (element_of h1) hm (set_of hsc) (setFits_of h2) (Nat.eq_of_beq_eq_true h3) ha
      · cases h2
    · -- group
      next i parts back G hk =>
      simp only [RStmt.slot?, Option.some.injEq] at hslot
      subst hslot
      simp only [Bool.and_eq_true, Bool.not_eq_true', decide_eq_true_eq, Bool.or_eq_true, List.all_eq_true] at hs
      obtain ⟨⟨⟨⟨h1, h2⟩, h3⟩, h4⟩, h5⟩ := hs
      exact serve_group hrd (not_element_of h1) hm h2 hk (Nat.eq_of_beq_eq_true h3) h4 ha h5
    · -- sub
      next i fs b G hk =>
      simp only [RStmt.slot?, Option.some.injEq] at hslot
      subst hslot
      simp only [Bool.and_eq_true, Bool.not_eq_true', decide_eq_true_eq, decide_eq_false_iff_not, Bool.or_eq_true] at hs
      obtain ⟨⟨h1, h2⟩, h3⟩ := hs
      rcases h3 with ⟨h3, h4⟩ | ⟨⟨h3, h4⟩, h5⟩
      · exact serve_sub_choice hrd (not_element_of h1) hm (one_of h3) hk h2 (choices_ok h4) ha
      · exact serve_sub_group hrd (not_element_of h1) hm h3 hk (Nat.eq_of_beq_eq_true h4) h5 ha
    · -- each
      next i fs G hk =>
      simp only [RStmt.slot?, Option.some.injEq] at hslot
      subst hslot
      simp only [Bool.and_eq_true, Bool.not_eq_true', decide_eq_false_iff_not] at hs
      obtain ⟨⟨⟨h1, h2⟩, h3⟩, h4⟩ := hs
      split at h4
      · next sc hsc =>
        simp only [Bool.and_eq_true] at h4
        exact serve_each hrd (not_element_of h1) hm (set_of hsc) (by simpa using h4.2) (Nat.eq_of_beq_eq_true h4.1) hk h2 (choices_ok h3) ha
      · cases h4
    · cases hs
  · cases h

/-- All statements but those left out. -/
def serveAllB (c : Cls) (body : List RStmt) (strict : Bool) (last skip : List Nat) : List Stmt → Bool
  | [] => true
  | w :: ws => (skip.any (Nat.beq w.slot) || serveB c body strict (namesOf c ws ++ last) w) && serveAllB c body strict last skip ws

theorem serveAll_of {N : Nat} {self : Child} {body : List RStmt} {strict : Bool} {c : Cls} {last skip : List Nat} (hrd : RdBelow N)
    (hskip : ∀ pre w ws, c.info.stmts = pre ++ w :: ws → w.slot ∈ skip → Serve N self body strict c w (namesOf c ws ++ last)) :
    ∀ (pre ws : List Stmt), c.info.stmts = pre ++ ws → serveAllB c body strict last skip ws = true → ServeAll N self body strict c last ws
  | _, [], _, _ => trivial
  | pre, w :: ws, he, h => by
    simp only [serveAllB, Bool.and_eq_true, Bool.or_eq_true] at h
    refine ⟨?_, serveAll_of hrd hskip (pre ++ [w]) ws (by rw [he]; simp) h.2⟩
    rcases h.1 with h1 | h1
    · obtain ⟨x, hx, e⟩ := List.any_eq_true.mp h1
      exact hskip pre w ws he (by rw [Nat.eq_of_beq_eq_true e]; exact hx)
    · exact serve_of hrd (by rw [he]; simp) h1

/-! ## Classes -/

/-- The element an object of the class has written, read into a new object, makes an object that is written in the same way. -/
def ClassReads (c : Cls) : Prop :=
  ∀ (N : Nat), RdBelow N → ∀ (d : Str) (k : Nat) (ss : List Slot), Here N (.comp c d k ss) → ∀ (d0 : Str) (k0 : Nat) (ss0 : List Slot), Blank (.comp c d0 k0 ss0) →
    ∀ (name : Nat), ∃ k' ss',
      (prog c).run ⟨name, readInto prog name d ((whole (.comp c d k ss)).kids.map (Xml.child prog)) 3⟩ ((whole (.comp c d k ss)).kids.map (Xml.child prog)) (.comp c d k0 ss0) =
        (.comp c d k' ss', true) ∧ Fine (.comp c d k' ss') ∧ (whole (.comp c d k' ss')).kids = (whole (.comp c d k ss)).kids

/-- A class without a choice, read by a loop that serves all its members. -/
theorem loop_reads {c : Cls} {body : List RStmt} {strict : Bool} {last : List Nat} {N : Nat} {self : Child} {d : Str} {k : Nat} {ss : List Slot} {rest : List Child}
    (hc : Free c) (hg : Here N (.comp c d k ss)) {d0 d' : Str} {k0 : Nat} {ss0 : List Slot} (hb : Blank (.comp c d0 k0 ss0))
    (hr : RestOk last rest) (hS : ServeAll N self body strict c last c.info.stmts) :
    ∃ ss1, L self body strict (.comp c d' k0 ss0) ((whole (.comp c d k ss)).kids.map (Xml.child prog) ++ rest) = L self body strict (.comp c d' k0 ss1) rest ∧
      Fine (.comp c d' k0 ss1) ∧ (whole (.comp c d' k0 ss1)).kids = (whole (.comp c d k ss)).kids ∧ Filled c ss c.info.stmts ss0 ss1 := by
  obtain ⟨hl, hk, hbl⟩ := hb.slot
  obtain ⟨ss1, h1, h2⟩ := loop_all (d' := d') (k' := k0) hg hr _ ss0 hS (fun w hw => ⟨hw, free_inChoice (hc w hw) k⟩) (stmts_nodup c) (by
    intro w hw
    obtain ⟨m, s, hm, hs, _, _⟩ := good_slot hg hw (free_inChoice (hc w hw) k)
    obtain ⟨s0, h0⟩ := getElem?_same_length hl hm
    exact ⟨m, s0, hm, h0, hbl _ m s0 hm h0⟩)
  obtain ⟨h3, h4⟩ := filled_fine (d' := d') hc hg.2.1 hb rfl h2
  exact ⟨ss1, by rw [whole_kids]; exact h1, h3, h4, h2⟩

theorem class_loop {c : Cls} {body : List RStmt} {strict : Bool} {need : List Nat} (hp : prog c = .loop none body strict need) (hc : Free c)
    (hneed : ∀ N d k ss, Here N (.comp c d k ss) → need = [] ∨ ((whole (.comp c d k ss)).kids.any fun x => need.any (Nat.beq x.name)) = true)
    (hS : ∀ N self, RdBelow N → ServeAll N self body strict c [] c.info.stmts) : ClassReads c := by
  intro N hrd d k ss hg d0 k0 ss0 hb name
  obtain ⟨ss1, h1, h2, h3, _⟩ := loop_reads (d' := d) (rest := []) hc hg hb (by intro x hx; cases hx) (hS N ⟨name, readInto prog name d ((whole (.comp c d k ss)).kids.map (Xml.child prog)) 3⟩ hrd)
  rw [List.append_nil, L_nil] at h1
  refine ⟨k0, ss1, ?_, h2, h3⟩
  rw [hp, RProg.run]
  simp only [Option.map_none, Option.getD_none, Bool.true_and]
  rw [show readLoop _ body strict ((whole (.comp c d k ss)).kids.map (Xml.child prog)).length (.comp c d k0 ss0) ((whole (.comp c d k ss)).kids.map (Xml.child prog)) = _ from h1]
  have : (need.isEmpty || ((whole (.comp c d k ss)).kids.map (Xml.child prog)).any fun x => need.any (Nat.beq x.name)) = true := by
    rcases hneed N d k ss hg with h | h
    · rw [h]; rfl
    · rw [List.any_map]
      have e : ((fun x : Child => need.any (Nat.beq x.name)) ∘ Xml.child prog) = fun x : Xml => need.any (Nat.beq x.name) := by
        funext x; simp [child_name]
      rw [e, h, Bool.or_true]
  rw [this]; rfl

def plainB (c : Cls) : Bool :=
  match prog c with
  | .loop none body strict [] => c.info.stmts.all freeStmt && serveAllB c body strict [] [] c.info.stmts
  | _ => false

theorem plain_reads {c : Cls} (h : plainB c = true) : ClassReads c := by
  unfold plainB at h
  split at h
  · next body strict hp =>
    simp only [Bool.and_eq_true] at h
    exact class_loop hp (List.all_eq_true.mp h.1) (fun _ _ _ _ _ => .inl rfl)
      (fun N self hrd => serveAll_of hrd (fun _ _ _ _ h => by cases h) [] _ rfl h.2)
  · cases h

end Mx.Content
