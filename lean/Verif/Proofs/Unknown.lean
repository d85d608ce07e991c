import Verif.Proofs.LoadedMain
import Verif.Spec.Unknown

/-
Children of names that the reader of a class does not know.
-/
open Mx.Spec
namespace Mx.Content

/-- The names a statement knows. -/
def RStmt.names : RStmt → List Nat
  | .elem n _ _ => [n]
  | .set n _ _ => [n]
  | .item n _ => [n]
  | .sub _ fs _ => fs.map (·.1)
  | .each _ fs => fs.map (·.1)
  | .music fs => fs.map (·.1)
  | .subAdd n _ _ => [n]
  | .noteChoice => [nm! "pitch", nm! "unpitched", nm! "rest", nm! "chord", nm! "grace", nm! "cue", nm! "duration", nm! "tie"]
  | _ => []

/-- All the names of the children that the reader of the class looks for. -/
def readerNames (c : Cls) : List Nat :=
  match prog c with
  | .loop _ body _ _ => body.flatMap RStmt.names
  | _ => []

def knownB (names : List Nat) (n : Nat) : Bool := names.any (Nat.beq n)

theorem knownB_of {names : List Nat} {n m : Nat} (h : Nat.beq n m = true) (hm : knownB names m = true) : knownB names n = true := by
  rw [Nat.eq_of_beq_eq_true h]; exact hm

/-! ## Strict readers -/

/-- The first `k` children are known. -/
def Known (names : List Nat) (l : List Child) (k : Nat) : Prop := ∀ x ∈ l.take k, knownB names x.name = true

theorem known_zero {names : List Nat} {l : List Child} : Known names l 0 := by intro x hx; simp at hx

theorem known_cons {names : List Nat} {x : Child} {l : List Child} {k : Nat} (hx : knownB names x.name = true) (h : Known names l k) : Known names (x :: l) (k + 1) := by
  intro y hy
  rw [List.take_succ_cons, List.mem_cons] at hy
  rcases hy with rfl | hy
  · exact hx
  · exact h y hy

theorem known_add {names : List Nat} {l : List Child} {a b : Nat} (h1 : Known names l a) (h2 : Known names (l.drop a) b) : Known names l (a + b) := by
  intro y hy
  rw [List.take_add, List.mem_append] at hy
  rcases hy with hy | hy
  · exact h1 y hy
  · exact h2 y hy

theorem known_run {names : List Nat} {name : Nat} (hn : knownB names name = true) (l : List Child) : Known names l (runItems name l).length := by
  intro y hy
  have : l.take (runItems name l).length = runItems name l := (List.prefix_iff_eq_take.mp (List.takeWhile_prefix _)).symm
  rw [this] at hy
  have h2 : Nat.beq y.name name = true := by
    have hy' : y ∈ l.takeWhile fun x => Nat.beq x.name name := hy
    exact List.all_eq_true.mp (List.all_takeWhile (l := l) (p := fun x : Child => Nat.beq x.name name)) y hy'
  exact knownB_of h2 hn

theorem field_name {fs : List Field} {name : Nat} {f : Nat × Option Nat} (h : field fs name = some f) {names : List Nat} (hn : (fs.map (·.1)).all (knownB names) = true) : knownB names name = true := by
  unfold field at h
  cases hf : fs.find? (fun f => Nat.beq f.1 name) with
  | none => rw [hf] at h; simp at h
  | some p =>
    have h1 := List.mem_of_find?_eq_some hf
    have h2 : Nat.beq p.1 name = true := by have := List.find?_some hf; simpa using this
    have h3 := List.all_eq_true.mp hn p.1 (List.mem_map.mpr ⟨p, h1, rfl⟩)
    rw [← Nat.eq_of_beq_eq_true h2]; exact h3

/-- The names within a note. -/
def noteHeads : List Nat := [nm! "pitch", nm! "unpitched", nm! "rest", nm! "chord", nm! "grace", nm! "cue", nm! "duration", nm! "tie"]

theorem sub_known {names : List Nat} (h : noteHeads.all (knownB names) = true) {n : Nat} (hn : noteHeads.any (Nat.beq n) = true) : knownB names n = true := by
  obtain ⟨m, hm, hb⟩ := List.any_eq_true.mp hn
  exact knownB_of hb (List.all_eq_true.mp h m hm)

theorem fullNote_known {names : List Nat} (hn : noteHeads.all (knownB names) = true) {g : Node} {l : List Child} (h : (fullNote g l).ok = true) : Known names l (fullNote g l).used := by
  cases l with
  | nil => cases h
  | cons x xs =>
    revert h
    simp only [fullNote]
    cases hc : Nat.beq x.name (nm! "chord") with
    | true =>
      have hx : knownB names x.name = true := knownB_of hc (sub_known hn (by decide +kernel))
      simp only [if_true]
      cases xs with
      | nil => intro h; cases h
      | cons y ys =>
        simp only
        cases hf : field [(nm! "pitch", 0, some 0), (nm! "unpitched", 1, some 1), (nm! "rest", 2, some 2)] y.name with
        | none => intro h; cases h
        | some f =>
          intro _
          refine known_cons hx (known_cons (field_name hf ?_) known_zero)
          simp only [List.map_cons, List.map_nil, List.all_cons, List.all_nil, Bool.and_eq_true, Bool.and_true]
          exact ⟨sub_known hn (by decide +kernel), sub_known hn (by decide +kernel), sub_known hn (by decide +kernel)⟩
    | false =>
      simp only [Bool.false_eq_true, if_false]
      cases hf : field [(nm! "pitch", 0, some 0), (nm! "unpitched", 1, some 1), (nm! "rest", 2, some 2)] x.name with
      | none => intro h; cases h
      | some f =>
        intro _
        refine known_cons (field_name hf ?_) known_zero
        simp only [List.map_cons, List.map_nil, List.all_cons, List.all_nil, Bool.and_eq_true, Bool.and_true]
        exact ⟨sub_known hn (by decide +kernel), sub_known hn (by decide +kernel), sub_known hn (by decide +kernel)⟩

theorem noteDuration_known {names : List Nat} (hn : noteHeads.all (knownB names) = true) {i : Nat} {g : Node} {l : List Child} (h : (noteDuration i g l).ok = true) : Known names l (noteDuration i g l).used := by
  cases l with
  | nil => cases h
  | cons x xs =>
    revert h
    simp only [noteDuration]
    cases hd : Nat.beq x.name (nm! "duration") with
    | true => intro _; exact known_cons (knownB_of hd (sub_known hn (by decide +kernel))) known_zero
    | false => intro h; cases h

theorem noteChoice_known {names : List Nat} (hn : noteHeads.all (knownB names) = true) {g : Node} {x : Child} {xs : List Child} (h : (noteChoice (x :: xs) g).ok = true) :
    Known names (x :: xs) (noteChoice (x :: xs) g).used := by
  have htie : knownB names (nm! "tie") = true := sub_known hn (by decide +kernel)
  revert h
  simp only [noteChoice]
  cases hg : Nat.beq x.name (nm! "grace") with
  | true =>
    have hx : knownB names x.name = true := knownB_of hg (sub_known hn (by decide +kernel))
    simp only [if_true, Node.innerGot]
    cases hk : (g.choose (some 0)).kid? 0 with
    | none => intro h; cases h
    | some q =>
      simp only [graceNote]
      cases hk2 : (q.inner 0 x.read).1.kid? 1 with
      | none => intro h; cases h
      | some full =>
        simp only
        intro h
        rw [Bool.and_eq_true, Bool.and_eq_true] at h
        have h1 := fullNote_known hn h.1.2
        rw [Nat.add_assoc, Nat.add_comm 1]
        exact known_cons hx (known_add h1 (known_run htie _))
  | false =>
    simp only [Bool.false_eq_true, if_false]
    cases hcue : Nat.beq x.name (nm! "cue") with
    | true =>
      have hx : knownB names x.name = true := knownB_of hcue (sub_known hn (by decide +kernel))
      simp only [if_true, Node.innerGot]
      cases hk : (g.choose (some 1)).kid? 1 with
      | none => intro h; cases h
      | some q =>
        simp only [cueNote]
        cases hk2 : (q.inner 0 x.read).1.kid? 1 with
        | none => intro h; cases h
        | some full =>
          simp only
          intro h
          rw [Bool.and_eq_true, Bool.and_eq_true] at h
          have h1 := fullNote_known hn h.1.2
          have h2 := noteDuration_known hn h.2
          rw [Nat.add_assoc, Nat.add_comm 1]
          exact known_cons hx (known_add h1 h2)
    | false =>
      simp only [Bool.false_eq_true, if_false, Node.innerGot]
      cases hk : (g.choose (some 2)).kid? 2 with
      | none => intro h; cases h
      | some q =>
        simp only [normalNote]
        cases hk2 : q.kid? 0 with
        | none => intro h; cases h
        | some full =>
          simp only
          intro h
          rw [Bool.and_eq_true, Bool.and_eq_true] at h
          have h1 := fullNote_known hn h.1.1
          have h2 := noteDuration_known hn h.1.2
          refine known_add (known_add h1 h2) (known_run htie _)

/-- A statement of a strict reader. -/
def RStmt.strictB : RStmt → Bool
  | .elem _ _ next => next
  | .item _ _ => true
  | .sub _ _ next => next
  | .each _ _ => true
  | .noteChoice => true
  | _ => false

/-- Either the statement does nothing or the children it takes are known. -/
theorem strict_at {self : Child} {names : List Nat} {o : Node} {x : Child} {xs : List Child} {s : RStmt} (hs : s.strictB = true) (hn : s.names.all (knownB names) = true) :
    s.at self o x xs = idle o ∨ ((s.at self o x xs).next = true ∧ ((s.at self o x xs).ok = true → Known names (x :: xs) ((s.at self o x xs).adv + 1))) := by
  cases s with
  | elem name i next =>
    simp only [RStmt.strictB] at hs
    subst hs
    simp only [RStmt.at]
    cases hb : Nat.beq x.name name with
    | false => exact .inl rfl
    | true =>
      refine .inr ⟨rfl, fun _ => known_cons (knownB_of hb ?_) known_zero⟩
      simpa [RStmt.names] using hn
  | item name i =>
    simp only [RStmt.at]
    cases hb : Nat.beq x.name name with
    | false => exact .inl rfl
    | true =>
      refine .inr ⟨rfl, fun _ => known_cons (knownB_of hb ?_) known_zero⟩
      simpa [RStmt.names] using hn
  | sub i fs next =>
    simp only [RStmt.strictB] at hs
    subst hs
    simp only [RStmt.at]
    cases hf : field fs x.name with
    | none => exact .inl rfl
    | some f => exact .inr ⟨rfl, fun _ => known_cons (field_name hf hn) known_zero⟩
  | each i fs =>
    simp only [RStmt.at]
    cases hf : field fs x.name with
    | none => exact .inl rfl
    | some f => exact .inr ⟨rfl, fun _ => known_cons (field_name hf hn) known_zero⟩
  | noteChoice =>
    simp only [RStmt.at]
    cases hh : headIn [nm! "pitch", nm! "unpitched", nm! "rest", nm! "chord", nm! "grace", nm! "cue"] (x :: xs) with
    | false => exact .inl rfl
    | true =>
      refine .inr ⟨rfl, ?_⟩
      simp only [if_true, Got.step, Node.innerGot]
      cases hk : o.kid? 0 with
      | none => intro h; cases h
      | some g =>
        simp only
        intro h
        have h1 := noteChoice_known (names := names) hn h
        have hx : knownB names x.name = true := by
          have hh' : ([nm! "pitch", nm! "unpitched", nm! "rest", nm! "chord", nm! "grace", nm! "cue"] : List Nat).any (Nat.beq x.name) = true := hh
          obtain ⟨m, hm, hb⟩ := List.any_eq_true.mp hh'
          refine sub_known hn (List.any_eq_true.mpr ⟨m, ?_, hb⟩)
          simp only [List.mem_cons, List.not_mem_nil, or_false] at hm
          simp only [noteHeads, List.mem_cons, List.not_mem_nil, or_false]
          rcases hm with e | e | e | e | e | e <;> simp [e]
        cases hu : (Content.noteChoice (x :: xs) g).used with
        | zero => exact known_cons hx known_zero
        | succ k => rw [hu] at h1; exact h1
  | _ => cases hs

theorem strict_body {self : Child} {names : List Nat} : ∀ (ss : List RStmt) {o : Node} {x : Child} {xs : List Child}, ss.all RStmt.strictB = true → (ss.flatMap RStmt.names).all (knownB names) = true →
    (runBody self ss o (x :: xs)).next = true → (runBody self ss o (x :: xs)).ok = true → Known names (x :: xs) ((runBody self ss o (x :: xs)).adv + 1)
  | [], o, x, xs, _, _, h, _ => by simp [runBody, idle] at h
  | s :: ss, o, x, xs, hs, hn, h, hok => by
    simp only [List.all_cons, Bool.and_eq_true, List.flatMap_cons, List.all_append] at hs hn
    have h1 := strict_at (self := self) (o := o) (x := x) (xs := xs) hs.1 hn.1
    rw [runBody] at h hok ⊢
    rcases h1 with h1 | ⟨h1, h2⟩
    · rw [h1] at h hok ⊢
      simp only [idle, Bool.false_eq_true, if_false, List.drop_zero, Bool.true_and, Nat.zero_add] at h hok ⊢
      exact strict_body ss hs.2 hn.2 h hok
    · rw [if_pos h1] at hok ⊢
      exact h2 hok

theorem strict_loop {self : Child} {names : List Nat} {body : List RStmt} (hs : body.all RStmt.strictB = true) (hn : (body.flatMap RStmt.names).all (knownB names) = true) :
    ∀ (f : Nat) {o : Node} {l : List Child}, (readLoop self body true f o l).2 = true → ∀ x ∈ l, knownB names x.name = true
  | _, o, [], _ => by intro x hx; cases hx
  | 0, o, _ :: _, h => by simp [readLoop] at h
  | f + 1, o, x :: xs, h => by
    rw [readLoop] at h
    simp only [Bool.not_true, Bool.or_false, Bool.and_eq_true] at h
    have h1 := strict_body body hs hn h.1.2 h.1.1
    have h2 := strict_loop hs hn f h.2
    intro y hy
    rw [← List.take_append_drop ((runBody self body o (x :: xs)).adv + 1) (x :: xs), List.mem_append] at hy
    rcases hy with hy | hy
    · exact h1 y hy
    · rw [List.drop_succ_cons] at hy
      exact h2 y hy

/-- The reader of the class is strict. -/
def strictClassB (c : Cls) : Bool :=
  match prog c with
  | .loop none body true _ => body.all RStmt.strictB
  | _ => false

theorem childList_mem {p : Cls → RProg} : ∀ {l : List Xml} {x : Xml}, x ∈ l → x.child p ∈ childList p l
  | y :: l, x, h => by
    rw [childList]
    rcases List.mem_cons.mp h with rfl | h
    · exact List.mem_cons_self
    · exact List.mem_cons_of_mem _ (childList_mem h)

theorem name_of_child (p : Cls → RProg) (x : Xml) : (x.child p).name = (match x with | .elem n _ _ => n) := by
  cases x; rfl

/-- A strict reader says failure if there is a child it does not know. -/
theorem strict_refuses {c : Cls} (hc : strictClassB c = true) {name : Nat} {data : Str} {kids : List Xml} {n : Nat} {d : Str} {ks : List Xml} (hm : .elem n d ks ∈ kids)
    (hn : knownB (readerNames c) n = false) (d' : Str) (k' : Nat) (ss' : List Slot) : (((Xml.elem name data kids).child prog).read (.comp c d' k' ss')).2 = false := by
  cases hok : (((Xml.elem name data kids).child prog).read (.comp c d' k' ss')).2 with
  | false => rfl
  | true =>
    exfalso
    unfold strictClassB at hc
    have hread : ((Xml.elem name data kids).child prog).read (.comp c d' k' ss') =
        (prog c).run ⟨name, readInto prog name data (childList prog kids) 3⟩ (childList prog kids) (.comp c data k' ss') := rfl
    rw [hread] at hok
    split at hc
    · rename_i body need hp
      rw [hp] at hok
      simp only [RProg.run, Option.map_none, Option.getD_none, Bool.true_and, Bool.and_eq_true] at hok
      have hnames : readerNames c = body.flatMap RStmt.names := by simp only [readerNames, hp]
      have := strict_loop (names := readerNames c) hc (by
        rw [hnames, List.all_eq_true]
        intro m hm
        exact List.any_eq_true.mpr ⟨m, hm, by simp⟩) _ hok.1 _ (childList_mem hm)
      rw [name_of_child] at this
      rw [this] at hn
      cases hn
    · cases hc

/-! ## Lenient readers -/

/-- A statement that looks at one child only. -/
def RStmt.singleB : RStmt → Bool
  | .elem _ _ _ => true
  | .item _ _ => true
  | .sub _ _ _ => true
  | .each _ _ => true
  | .music _ => true
  | .subAdd _ _ _ => true
  | _ => false

theorem beq_unknown {names : List Nat} {x m : Nat} (h : knownB names x = false) (hm : knownB names m = true) : Nat.beq x m = false := by
  cases hb : Nat.beq x m with
  | false => rfl
  | true => rw [knownB_of hb hm] at h; cases h

theorem field_unknown {names : List Nat} {fs : List Field} {x : Nat} (h : knownB names x = false) (hn : (fs.map (·.1)).all (knownB names) = true) : field fs x = none := by
  cases hf : field fs x with
  | none => rfl
  | some f => rw [field_name hf hn] at h; cases h

/-- It does nothing at a child it does not know. -/
theorem single_unknown {self : Child} {names : List Nat} {o : Node} {x : Child} {xs : List Child} {s : RStmt} (hs : s.singleB = true) (hn : s.names.all (knownB names) = true)
    (hx : knownB names x.name = false) : s.at self o x xs = idle o := by
  cases s with
  | elem name i next => simp only [RStmt.at]; rw [beq_unknown hx (by simpa [RStmt.names] using hn)]; rfl
  | item name i => simp only [RStmt.at]; rw [beq_unknown hx (by simpa [RStmt.names] using hn)]; rfl
  | sub i fs next => simp only [RStmt.at]; rw [field_unknown hx hn]
  | each i fs => simp only [RStmt.at]; rw [field_unknown hx hn]
  | music fs => simp only [RStmt.at]; rw [field_unknown hx hn]
  | subAdd name i j => simp only [RStmt.at]; rw [beq_unknown hx (by simpa [RStmt.names] using hn)]; rfl
  | _ => cases hs

/-- It does not look further than at one child. -/
theorem single_at {self : Child} {o : Node} {x : Child} {xs : List Child} {s : RStmt} (hs : s.singleB = true) (ys : List Child) : s.at self o x xs = s.at self o x ys ∧ (s.at self o x xs).adv = 0 := by
  cases s with
  | elem name i next => simp only [RStmt.at]; cases Nat.beq x.name name <;> simp [idle]
  | item name i => simp only [RStmt.at]; cases Nat.beq x.name name <;> simp [idle]
  | sub i fs next => simp only [RStmt.at]; cases field fs x.name <;> simp [idle]
  | each i fs => simp only [RStmt.at]; cases field fs x.name <;> simp [idle]
  | music fs => simp only [RStmt.at]; cases field fs x.name <;> simp [idle]
  | subAdd name i j => simp only [RStmt.at]; cases Nat.beq x.name name <;> simp [idle]
  | _ => cases hs

theorem single_body_unknown {self : Child} {names : List Nat} : ∀ (ss : List RStmt) {o : Node} {x : Child} {xs : List Child}, ss.all RStmt.singleB = true → (ss.flatMap RStmt.names).all (knownB names) = true →
    knownB names x.name = false → runBody self ss o (x :: xs) = idle o
  | [], o, x, xs, _, _, _ => by rw [runBody]
  | s :: ss, o, x, xs, hs, hn, hx => by
    simp only [List.all_cons, Bool.and_eq_true, List.flatMap_cons, List.all_append] at hs hn
    rw [runBody, single_unknown hs.1 hn.1 hx]
    simp only [idle, Bool.false_eq_true, if_false, List.drop_zero, Bool.true_and, Nat.zero_add]
    have := single_body_unknown (self := self) ss (o := o) (xs := xs) hs.2 hn.2 hx
    rw [this]; rfl

theorem single_body {self : Child} : ∀ (ss : List RStmt) {o : Node} {x : Child} {xs : List Child}, ss.all RStmt.singleB = true → ∀ ys, runBody self ss o (x :: xs) = runBody self ss o (x :: ys) ∧ (runBody self ss o (x :: xs)).adv = 0
  | [], o, x, xs, _, ys => by rw [runBody, runBody]; exact ⟨rfl, rfl⟩
  | s :: ss, o, x, xs, hs, ys => by
    simp only [List.all_cons, Bool.and_eq_true] at hs
    obtain ⟨h1, h2⟩ := single_at (self := self) (o := o) (x := x) (xs := xs) hs.1 ys
    rw [runBody, runBody, ← h1, h2]
    obtain ⟨h3, h4⟩ := single_body (self := self) ss (o := (s.at self o x xs).obj) (x := x) (xs := xs) hs.2 ys
    simp only [List.drop_zero]
    rw [← h3]
    refine ⟨rfl, ?_⟩
    split
    · exact h2
    · simp only [h4]

/-- With enough fuel the loop over single children takes one after the other; those it does not know make no difference. -/
theorem single_loop {self self' : Child} (hself : ∀ (s : RStmt) o x xs, s.singleB = true → s.at self o x xs = s.at self' o x xs) {names : List Nat} {body : List RStmt} (hs : body.all RStmt.singleB = true)
    (hn : (body.flatMap RStmt.names).all (knownB names) = true) :
    ∀ (f g : Nat) {o : Node} {l : List Child}, l.length ≤ f → (l.filter fun x => knownB names x.name).length ≤ g →
      readLoop self body false f o l = readLoop self' body false g o (l.filter fun x => knownB names x.name)
  | _, _, o, [], _, _ => by simp [readLoop]
  | 0, _, o, _ :: _, h, _ => by simp at h
  | f + 1, g, o, x :: xs, hf, hg => by
    rw [readLoop]
    cases hx : knownB names x.name with
    | false =>
      rw [List.filter_cons_of_neg (by simp [hx])] at hg ⊢
      rw [single_body_unknown body hs hn hx]
      simp only [idle, List.drop_zero, Bool.not_false, Bool.or_true, Bool.true_and]
      exact single_loop hself hs hn f g (by simpa using hf) hg
    | true =>
      rw [List.filter_cons_of_pos (p := fun x : Child => knownB names x.name) hx] at hg ⊢
      cases g with
      | zero => simp at hg
      | succ g =>
        rw [readLoop]
        obtain ⟨h1, h2⟩ := single_body (self := self) body (o := o) (x := x) (xs := xs) hs (xs.filter fun x => knownB names x.name)
        have hb : ∀ (ss : List RStmt) o, ss.all RStmt.singleB = true → runBody self ss o (x :: xs.filter fun x => knownB names x.name) = runBody self' ss o (x :: xs.filter fun x => knownB names x.name) := by
          intro ss
          induction ss with
          | nil => intro o _; rw [runBody, runBody]
          | cons s ss ih =>
            intro o hss
            simp only [List.all_cons, Bool.and_eq_true] at hss
            have h0 := (single_at (self := self) (o := o) (x := x) (xs := xs.filter fun x => knownB names x.name) hss.1 []).2
            rw [runBody, runBody, ← hself s o x _ hss.1, h0]
            simp only [List.drop_zero]
            rw [ih _ hss.2]
        rw [← hb body o hs, ← h1, h2]
        simp only [List.drop_zero, Bool.not_false, Bool.or_true, Bool.and_true]
        have ih := single_loop hself hs hn f g (o := (runBody self body o (x :: xs)).obj) (l := xs) (by simpa using hf) (by simpa using hg)
        rw [ih]

/-- The reader of the class passes over children it does not know. -/
def lenientClassB (c : Cls) : Bool :=
  match prog c with
  | .loop none body false need => body.all RStmt.singleB && need.all (knownB (body.flatMap RStmt.names))
  | _ => false

theorem filter_childList (p : Cls → RProg) (q : Nat → Bool) : ∀ (l : List Xml), (childList p l).filter (fun x => q x.name) = childList p (l.filter fun x => q (xmlName x))
  | [] => rfl
  | .elem n d ks :: l => by
    rw [childList, List.filter_cons, List.filter_cons, filter_childList p q l]
    have h1 : (Xml.child p (.elem n d ks)).name = n := by rw [name_of_child]
    have h2 : xmlName (Xml.elem n d ks) = n := rfl
    rw [h1, h2]
    cases q n with
    | true => rfl
    | false => rfl

theorem single_self {self self' : Child} (s : RStmt) (o : Node) (x : Child) (xs : List Child) (hs : s.singleB = true) : s.at self o x xs = s.at self' o x xs := by
  cases s with
  | elem | item | sub | each | music | subAdd => rfl
  | _ => cases hs

theorem any_filter_known {names need : List Nat} (h : need.all (knownB names) = true) (l : List Child) :
    ((l.filter fun x => knownB names x.name).any fun x => need.any (Nat.beq x.name)) = l.any fun x => need.any (Nat.beq x.name) := by
  induction l with
  | nil => rfl
  | cons x l ih =>
    cases hx : knownB names x.name with
    | true => rw [List.filter_cons_of_pos (p := fun x : Child => knownB names x.name) hx, List.any_cons, List.any_cons, ih]
    | false =>
      rw [List.filter_cons_of_neg (p := fun x : Child => knownB names x.name) (by simp [hx]), List.any_cons, ih]
      have : need.any (Nat.beq x.name) = false := by
        rw [List.any_eq_false]
        intro m hm
        rw [beq_unknown hx (List.all_eq_true.mp h m hm)]
        simp
      rw [this, Bool.false_or]

/-- A lenient reader passes over all the children it does not know. -/
theorem lenient_ignores {c : Cls} (hc : lenientClassB c = true) (name : Nat) (data : Str) (kids : List Xml) {names : List Nat} (hnames : (readerNames c).all (knownB names) = true) :
    ((Xml.elem name data kids).child prog).read (make (.comp c)) = ((Xml.elem name data (kids.filter fun x => knownB names (xmlName x))).child prog).read (make (.comp c)) := by
  have hread : ∀ ks, ((Xml.elem name data ks).child prog).read (make (.comp c)) =
      (prog c).run ⟨name, readInto prog name data (childList prog ks) 3⟩ (childList prog ks) (.comp c data (initialChoice c) (c.info.members.map fun m => .mk false (List.replicate m.mult.start (create 11 m.kind)))) := fun _ => rfl
  rw [hread, hread]
  unfold lenientClassB at hc
  split at hc
  · rename_i body need hp
    rw [Bool.and_eq_true] at hc
    have hb : readerNames c = body.flatMap RStmt.names := by simp only [readerNames, hp]
    rw [hb] at hnames
    have hneed : need.all (knownB names) = true := by
      rw [List.all_eq_true]
      intro m hm
      have h1 := List.all_eq_true.mp hc.2 m hm
      obtain ⟨k, hk, e⟩ := List.any_eq_true.mp h1
      exact knownB_of e (List.all_eq_true.mp hnames k hk)
    rw [hp, ← filter_childList prog (knownB names) kids]
    simp only [RProg.run, Option.map_none, Option.getD_none, Bool.true_and]
    rw [any_filter_known hneed, single_loop (self := ⟨name, readInto prog name data (childList prog kids) 3⟩) (self' := ⟨name, readInto prog name data ((childList prog kids).filter fun x => knownB names x.name) 3⟩)
      (fun s o x xs hs => single_self s o x xs hs) hc.1 hnames (childList prog kids).length ((childList prog kids).filter fun x => knownB names x.name).length (Nat.le_refl _) (Nat.le_refl _)]
  · cases hc

end Mx.Content
