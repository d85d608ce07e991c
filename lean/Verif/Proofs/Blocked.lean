import Verif.Proofs.Unknown

/-
Failures that are handed on from the children to the document.
-/
open Mx.Spec
namespace Mx.Content

/-- No object of the class reads the child without a complaint. -/
def Hopeless (c : Cls) (x : Child) : Prop := ∀ o, Is (.comp c) o → (x.read o).2 = false

/-- The class of the member. -/
def memberClsB (c : Cls) (i : Nat) (c' : Cls) : Bool := memberB c i fun g => decide (g = c')

theorem memberCls {c : Cls} {i : Nat} {c' : Cls} (h : memberClsB c i c' = true) {m : Member} (hm : c.info.members[i]? = some m) : m.kind = .comp c' := by
  obtain ⟨g, mu, h1, h2⟩ := memberB_comp h
  rw [decide_eq_true_eq] at h2
  subst h2
  rw [h1] at hm
  cases hm
  rfl

/-- The statement reads children of the name as objects of the class `c'`. -/
def RStmt.passesB (c : Cls) (name : Nat) (c' : Cls) : RStmt → Bool
  | .item n i => Nat.beq name n && memberClsB c i c'
  | .each i fs => match field fs name with
    | none => false
    | some f => memberB c i fun g => memberClsB g f.1 c'
  | .music fs => match field fs name with
    | none => false
    | some f => memberB c 0 fun g => memberB g 0 fun e => memberClsB e f.1 c'
  | _ => false

theorem field_fails {g : Cls} {c' : Cls} {f : Nat × Option Nat} (hf : memberClsB g f.1 c' = true) {x : Child} (hx : Hopeless c' x) {o : Node} (ho : Is (.comp g) o) : (o.readField f x).2 = false := by
  simp only [Node.readField, Node.inner]
  cases hk : o.kid? f.1 with
  | none => rfl
  | some y =>
    obtain ⟨m, hm, hy⟩ := is_kid ho hk
    rw [memberCls hf hm] at hy
    exact hx y hy

theorem at_fails {self : Child} {c c' : Cls} {s : RStmt} {x : Child} (hs : s.passesB c x.name c' = true) (hx : Hopeless c' x) {o : Node} (ho : Is (.comp c) o) (xs : List Child) :
    (s.at self o x xs).ok = false ∧ (s.at self o x xs).adv = 0 := by
  cases s with
  | item n i =>
    simp only [RStmt.passesB, Bool.and_eq_true] at hs
    simp only [RStmt.at, hs.1, if_true, and_true]
    obtain ⟨g, mu, h1, h2⟩ := memberB_comp hs.2
    have := is_newItem ho h1
    rw [memberCls hs.2 h1] at this
    exact hx _ this
  | each i fs =>
    simp only [RStmt.passesB] at hs
    simp only [RStmt.at]
    cases hf : field fs x.name with
    | none => rw [hf] at hs; cases hs
    | some f =>
      rw [hf] at hs
      obtain ⟨g, mu, h1, h2⟩ := memberB_comp hs
      exact ⟨field_fails h2 hx (is_newItem ho h1), rfl⟩
  | music fs =>
    simp only [RStmt.passesB] at hs
    simp only [RStmt.at]
    cases hf : field fs x.name with
    | none => rw [hf] at hs; cases hs
    | some f =>
      rw [hf] at hs
      obtain ⟨g, mu, h1, h2⟩ := memberB_comp hs
      obtain ⟨e, mu', h3, h4⟩ := memberB_comp h2
      refine ⟨?_, rfl⟩
      simp only [Node.inner]
      cases hk : o.kid? 0 with
      | none => rfl
      | some y =>
        obtain ⟨m, hm, hy⟩ := is_kid ho hk
        rw [h1] at hm
        cases hm
        exact field_fails h4 hx (is_newItem hy h3)
  | _ => simp [RStmt.passesB] at hs

/-- One child at a time, or the beginning of a note. -/
def RStmt.plainB (s : RStmt) : Bool := s.singleB || (match s with | .noteChoice => true | _ => false)

theorem plain_cases {s : RStmt} (h : s.plainB = true) : s.singleB = true ∨ s = .noteChoice := by
  cases s with
  | noteChoice => exact .inr rfl
  | _ => left; simpa [RStmt.plainB] using h

/-- The first statement that knows the name hands its failures on. -/
def passBody (c : Cls) (name : Nat) (c' : Cls) : List RStmt → Bool
  | [] => false
  | s :: ss => if knownB s.names name then s.passesB c name c' else passBody c name c' ss

theorem names_self (l : List Nat) : l.all (knownB l) = true := by
  rw [List.all_eq_true]
  intro m hm
  exact List.any_eq_true.mpr ⟨m, hm, by simp⟩

theorem plain_unknown {self : Child} {o : Node} {x : Child} {xs : List Child} {s : RStmt} (hs : s.plainB = true) (hx : knownB s.names x.name = false) : s.at self o x xs = idle o := by
  rcases plain_cases hs with hs | rfl
  · exact single_unknown hs (names_self _) hx
  · simp only [RStmt.at]
    have : headIn [nm! "pitch", nm! "unpitched", nm! "rest", nm! "chord", nm! "grace", nm! "cue"] (x :: xs) = false := by
      cases hh : headIn [nm! "pitch", nm! "unpitched", nm! "rest", nm! "chord", nm! "grace", nm! "cue"] (x :: xs) with
      | false => rfl
      | true =>
        exfalso
        have hh' : ([nm! "pitch", nm! "unpitched", nm! "rest", nm! "chord", nm! "grace", nm! "cue"] : List Nat).any (Nat.beq x.name) = true := hh
        obtain ⟨m, hm, hb⟩ := List.any_eq_true.mp hh'
        have : knownB (RStmt.names .noteChoice) x.name = true := by
          refine List.any_eq_true.mpr ⟨m, ?_, hb⟩
          simp only [List.mem_cons, List.not_mem_nil, or_false] at hm
          simp only [RStmt.names, List.mem_cons, List.not_mem_nil, or_false]
          rcases hm with e | e | e | e | e | e <;> simp [e]
        rw [this] at hx
        cases hx
    rw [this]
    rfl

theorem body_fails {self : Child} {c c' : Cls} {x : Child} (hx : Hopeless c' x) : ∀ (ss : List RStmt) {o : Node}, ss.all RStmt.plainB = true → passBody c x.name c' ss = true → Is (.comp c) o → ∀ xs,
    (runBody self ss o (x :: xs)).ok = false
  | [], o, _, h, _, _ => by simp [passBody] at h
  | s :: ss, o, hs, h, ho, xs => by
    simp only [List.all_cons, Bool.and_eq_true] at hs
    rw [passBody] at h
    rw [runBody]
    cases hk : knownB s.names x.name with
    | true =>
      rw [hk, if_pos rfl] at h
      obtain ⟨h1, h2⟩ := at_fails (self := self) h hx ho xs
      split
      · exact h1
      · simp [h1]
    | false =>
      rw [hk, if_neg (by simp)] at h
      rw [plain_unknown hs.1 hk]
      simp only [idle, Bool.false_eq_true, if_false, List.drop_zero, Bool.true_and, Nat.zero_add]
      exact body_fails hx ss hs.2 h ho xs

/-- What is taken beyond the first child belongs to the beginning of a note. -/
theorem body_taken {self : Child} : ∀ (ss : List RStmt) {o : Node} {x : Child} {xs : List Child}, ss.all RStmt.plainB = true → (runBody self ss o (x :: xs)).ok = true →
    ∀ y ∈ xs.take (runBody self ss o (x :: xs)).adv, knownB noteHeads y.name = true
  | [], o, x, xs, _, _ => by intro y hy; simp [runBody, idle] at hy
  | s :: ss, o, x, xs, hs, hok => by
    simp only [List.all_cons, Bool.and_eq_true] at hs
    rw [runBody] at hok ⊢
    rcases plain_cases hs.1 with h1 | rfl
    · have h2 := (single_at (self := self) (o := o) (x := x) (xs := xs) h1 []).2
      split
      · rw [h2]; intro y hy; simp at hy
      · rename_i hn
        rw [if_neg hn, h2] at hok
        simp only [List.drop_zero, Bool.and_eq_true] at hok
        rw [h2]
        simp only [List.drop_zero, Nat.zero_add]
        exact body_taken ss hs.2 hok.2
    · rcases strict_at (self := self) (names := noteHeads) (o := o) (x := x) (xs := xs) (s := .noteChoice) rfl (by decide +kernel) with h1 | ⟨h1, h2⟩
      · rw [h1] at hok ⊢
        simp only [idle, Bool.false_eq_true, if_false, List.drop_zero, Bool.true_and, Nat.zero_add] at hok ⊢
        exact body_taken ss hs.2 hok
      · rw [if_pos h1] at hok ⊢
        have h3 := h2 hok
        intro y hy
        refine h3 y ?_
        rw [List.take_succ_cons]
        exact List.mem_cons_of_mem _ hy

theorem loop_fails {self : Child} (hself : Steady self) {c c' : Cls} {body : List RStmt} (hfit : body.all (RStmt.fitsB c) = true) (hp : body.all RStmt.plainB = true) {strict : Bool} {x : Child}
    (hx : Hopeless c' x) (hpass : passBody c x.name c' body = true) (hn : knownB noteHeads x.name = false) :
    ∀ (f : Nat) {o : Node} {l : List Child}, Is (.comp c) o → Steadies l → x ∈ l → (readLoop self body strict f o l).2 = false
  | _, o, [], _, _, h => by cases h
  | 0, o, _ :: _, _, _, _ => by simp [readLoop]
  | f + 1, o, y :: ys, ho, hl, h => by
    rw [readLoop]
    simp only
    cases hok : (runBody self body o (y :: ys)).ok with
    | false => simp
    | true =>
      rcases List.mem_cons.mp h with rfl | h
      · rw [body_fails hx body hp hpass ho ys] at hok; cases hok
      · have h1 : x ∈ ys.drop (runBody self body o (y :: ys)).adv := by
          rw [← List.take_append_drop (runBody self body o (y :: ys)).adv ys, List.mem_append] at h
          rcases h with h | h
          · rw [body_taken body hp hok x h] at hn; cases hn
          · exact h
        rw [loop_fails hself hfit hp hx hpass hn f (is_runBody hself body hfit ho hl) (fun z hz => hl z (List.mem_cons_of_mem _ (List.mem_of_mem_drop hz))) h1]
        simp

/-- The way from the class to a child hands failures on. -/
def passB (p : Cls × Nat × Cls) : Bool :=
  match prog p.1 with
  | .loop _ body _ _ => body.all RStmt.plainB && passBody p.1 p.2.1 p.2.2 body && !knownB noteHeads p.2.1
  | _ => false

theorem hopeless_up {c c' : Cls} {name : Nat} {data : Str} {kids : List Xml} {y : Xml} (hp : passB (c, xmlName y, c') = true) (hy : y ∈ kids) (h : Hopeless c' (y.child prog)) :
    Hopeless c ((Xml.elem name data kids).child prog) := by
  intro o ho
  obtain ⟨d, k, ss, rfl, hs, hkids⟩ := is_comp ho
  have hread : ((Xml.elem name data kids).child prog).read (.comp c d k ss) =
      (prog c).run ⟨name, readInto prog name data (childList prog kids) 3⟩ (childList prog kids) (.comp c data k ss) := rfl
  rw [hread]
  have hself : Steady ⟨name, readInto prog name data (childList prog kids) 3⟩ := fun kd n hn => is_readInto (steady_list kids) 3 hn
  have ho' : Is (.comp c) (.comp c data k ss) := ⟨.comp c data k ss hs hkids, rfl⟩
  have hname : (y.child prog).name = xmlName y := by cases y; rfl
  unfold passB at hp
  split at hp
  · rename_i pre body strict need hprog
    rw [Bool.and_eq_true, Bool.and_eq_true] at hp
    have hfit := prog_fits c
    simp only at hprog
    rw [hprog] at hfit ⊢
    simp only [RProg.run]
    rw [loop_fails (c := c) (c' := c') hself hfit hp.1.1 h (by rw [hname]; exact hp.1.2) (by rw [hname]; simpa using hp.2) _ ?_ (steady_list kids) (childList_mem hy)]
    · simp
    · cases pre with
      | none => exact ho'
      | some i => exact is_inner ho' fun m _ n hn => hself m.kind n hn
  · cases hp

theorem knownB_mem {names : List Nat} {n : Nat} (h : knownB names n = true) : n ∈ names := by
  obtain ⟨m, hm, e⟩ := List.any_eq_true.mp h
  rw [Nat.eq_of_beq_eq_true e]; exact hm

/-- The readers of the complaining classes know nothing that the schema does not know, with one exception. -/
theorem complaining_known {c : Cls} (hc : c ∈ complaining) {n : Nat} (hn : n ∉ allowedNames c) (ho : ¬ (c = .Notations ∧ n = nm! "other-notations")) : knownB (readerNames c) n = false := by
  have h2 : (complaining.all fun c => (readerNames c).all fun m => knownB (allowedNames c) m || (decide (c = .Notations) && Nat.beq m (nm! "other-notations"))) = true := by decide +kernel
  cases hk : knownB (readerNames c) n with
  | false => rfl
  | true =>
    exfalso
    have h3 := List.all_eq_true.mp (List.all_eq_true.mp h2 c hc) _ (knownB_mem hk)
    rw [Bool.or_eq_true, Bool.and_eq_true, decide_eq_true_eq] at h3
    rcases h3 with h3 | ⟨h3, h4⟩
    · exact hn (knownB_mem h3)
    · exact ho ⟨h3, Nat.eq_of_beq_eq_true h4⟩

theorem complaining_strict {c : Cls} (hc : c ∈ complaining) : strictClassB c = true := by
  have h : (complaining.all strictClassB) = true := by decide +kernel
  exact List.all_eq_true.mp h c hc

theorem blocked_hopeless {c : Cls} {x : Xml} (h : Blocked c x) : Hopeless c (x.child prog) := by
  induction h with
  | @here c x y hc hy hn ho =>
    intro o hio
    obtain ⟨d, k, ss, rfl, _, _⟩ := is_comp hio
    cases x with
    | elem name data kids =>
      cases y with
      | elem n d' ks => exact strict_refuses (complaining_strict hc) hy (complaining_known hc hn ho) d k ss
  | @inside c c' x y hp hy _ ih =>
    have h1 : (passages.all passB) = true := by decide +kernel
    cases x with
    | elem name data kids => exact hopeless_up (List.all_eq_true.mp h1 _ hp) hy ih

end Mx.Content
