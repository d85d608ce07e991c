import Verif.Proofs.ReaderBasics

/-
The loop over the children.
-/
open Mx.Spec
namespace Mx.Content

theorem readLoop_fuel (self : Child) (body : List RStmt) (strict : Bool) :
    ∀ (f : Nat) (o : Node) (l : List Child), l.length ≤ f → readLoop self body strict f o l = readLoop self body strict l.length o l
  | 0, o, l, h => by
    cases l with
    | nil => rfl
    | cons x xs => simp at h
  | f + 1, o, [], _ => rfl
  | f + 1, o, x :: xs, h => by
    have h' : xs.length ≤ f := by simpa using h
    simp only [readLoop, List.length_cons]
    rw [readLoop_fuel self body strict f _ _ (by rw [List.length_drop]; omega)]
    by_cases hx : xs.length = f
    · subst hx
      rw [readLoop_fuel self body strict xs.length _ _ (by rw [List.length_drop]; omega)]
    · rw [readLoop_fuel self body strict xs.length _ _ (by rw [List.length_drop]; omega)]
termination_by f _ l => f + l.length
decreasing_by
  all_goals simp_wf
  all_goals (try rw [List.length_drop])
  all_goals (simp only [List.length_cons] at *)
  all_goals omega

/-- The loop from an object on. -/
def L (self : Child) (body : List RStmt) (strict : Bool) (o : Node) (l : List Child) : Node × Bool := readLoop self body strict l.length o l

theorem L_nil (self : Child) (body : List RStmt) (strict : Bool) (o : Node) : L self body strict o [] = (o, true) := rfl

theorem L_cons (self : Child) (body : List RStmt) (strict : Bool) (o : Node) (x : Child) (xs : List Child) :
    L self body strict o (x :: xs) =
      ((L self body strict (runBody self body o (x :: xs)).obj (xs.drop (runBody self body o (x :: xs)).adv)).1,
        (runBody self body o (x :: xs)).ok && ((runBody self body o (x :: xs)).next || !strict) &&
          (L self body strict (runBody self body o (x :: xs)).obj (xs.drop (runBody self body o (x :: xs)).adv)).2) := by
  simp only [L, List.length_cons, readLoop]
  rw [readLoop_fuel self body strict xs.length _ _ (by rw [List.length_drop]; omega)]

/-- One round in which all is well. -/
theorem L_round {self : Child} {body : List RStmt} {strict : Bool} {o o' : Node} {x : Child} {xs : List Child} {n : Nat} {next : Bool}
    (h : runBody self body o (x :: xs) = ⟨o', true, n, next⟩) (hn : next = true ∨ strict = false) :
    L self body strict o (x :: xs) = L self body strict o' (xs.drop n) := by
  rw [L_cons, h]
  rcases hn with rfl | rfl <;> simp

theorem runBody_idle (self : Child) (o : Node) (x : Child) (xs : List Child) : ∀ (b : List RStmt), (∀ p ∈ b, p.at self o x xs = idle o) →
    runBody self b o (x :: xs) = idle o
  | [], _ => rfl
  | p :: b, h => by
    rw [runBody, h p (by simp)]
    simp only [idle, List.drop_zero]
    rw [runBody_idle self o x xs b (fun q hq => h q (by simp [hq]))]
    simp [idle]

theorem runBody_skip (self : Child) (o : Node) (x : Child) (xs : List Child) (rest : List RStmt) : ∀ (b : List RStmt), (∀ p ∈ b, p.at self o x xs = idle o) →
    runBody self (b ++ rest) o (x :: xs) = runBody self rest o (x :: xs)
  | [], _ => rfl
  | p :: b, h => by
    rw [List.cons_append, runBody, h p (by simp)]
    simp only [idle, List.drop_zero]
    rw [runBody_skip self o x xs rest b (fun q hq => h q (by simp [hq]))]
    simp

/-- The statement `st` takes `n + 1` children, the last of which is `y`. -/
theorem L_seg {self : Child} {pre post : List RStmt} {st : RStmt} {strict : Bool} {o o' : Node} {x y : Child} {xs rest : List Child} {n : Nat} {next : Bool}
    (hpre : ∀ p ∈ pre, p.at self o x xs = idle o) (hst : st.at self o x xs = ⟨o', true, n, next⟩) (hdrop : (x :: xs).drop n = y :: rest)
    (hpost : next = true ∨ strict = false ∧ ∀ p ∈ post, p.at self o' y rest = idle o') :
    L self (pre ++ st :: post) strict o (x :: xs) = L self (pre ++ st :: post) strict o' rest := by
  have hr : xs.drop n = rest := by
    have : ((x :: xs).drop n).tail = rest := by rw [hdrop]; rfl
    rw [← this, List.tail_drop]; rfl
  have hb : runBody self (pre ++ st :: post) o (x :: xs) = ⟨o', true, n, next⟩ := by
    rw [runBody_skip self o x xs _ pre hpre, runBody, hst]
    rcases hpost with rfl | ⟨_, h⟩
    · rfl
    · cases next with
      | true => rfl
      | false =>
        simp only [hdrop]
        rw [runBody_idle self o' y rest post h]
        rfl
  rw [L_round hb (by rcases hpost with h | h; exact .inl h; exact .inr h.1), hr]

/-- The same when the iterator has already gone on to the next child. -/
theorem L_seg_on {self : Child} {pre post : List RStmt} {st : RStmt} {strict : Bool} {o o' : Node} {x y : Child} {xs rest : List Child} {n : Nat}
    (hpre : ∀ p ∈ pre, p.at self o x xs = idle o) (hst : st.at self o x xs = ⟨o', true, n, false⟩) (hdrop : (x :: xs).drop n = y :: rest)
    (hpre' : ∀ p ∈ pre, p.at self o' y rest = idle o') (hst' : st.at self o' y rest = idle o') :
    L self (pre ++ st :: post) strict o (x :: xs) = L self (pre ++ st :: post) strict o' (y :: rest) := by
  have hr : xs.drop n = rest := by
    have : ((x :: xs).drop n).tail = rest := by rw [hdrop]; rfl
    rw [← this, List.tail_drop]; rfl
  have e : runBody self (pre ++ st :: post) o' (y :: rest) = runBody self post o' (y :: rest) := by
    have : pre ++ st :: post = (pre ++ [st]) ++ post := by simp
    rw [this, runBody_skip self o' y rest post (pre ++ [st])]
    intro p hp
    rcases List.mem_append.mp hp with hp | hp
    · exact hpre' p hp
    · rw [List.mem_singleton.mp hp]; exact hst'
  have hb : runBody self (pre ++ st :: post) o (x :: xs) =
      ⟨(runBody self post o' (y :: rest)).obj, (runBody self post o' (y :: rest)).ok, n + (runBody self post o' (y :: rest)).adv, (runBody self post o' (y :: rest)).next⟩ := by
    rw [runBody_skip self o x xs _ pre hpre, runBody, hst]
    simp only [hdrop, Bool.true_and, Bool.false_eq_true, if_false]
  rw [L_cons, hb, L_cons, e]
  simp only
  rw [← List.drop_drop, hr]

/-! ## Statements that let a child pass -/

def partName : Part → Nat
  | .one n _ => n
  | .run n _ => n

/-- The statement can have an effect at a child of this name. -/
def RStmt.reacts (name : Nat) : RStmt → Bool
  | .elem n _ _ => Nat.beq name n
  | .set n _ _ => Nat.beq name n
  | .item n _ => Nat.beq name n
  | .group _ parts _ => parts.any fun p => Nat.beq name (partName p)
  | .sub _ fs _ => fs.any fun f => Nat.beq f.1 name
  | .each _ fs => fs.any fun f => Nat.beq f.1 name
  | .music fs => fs.any fun f => Nat.beq f.1 name
  | .subAdd n _ _ => Nat.beq name n
  | .selfItem n _ _ => Nat.beq name n
  | .midi _ => Nat.beq name (nm! "midi-device") || Nat.beq name (nm! "midi-instrument")
  | .oldKey => [nm! "cancel", nm! "fifths", nm! "mode"].any (Nat.beq name)
  | .newKey => [nm! "key-step", nm! "key-alter", nm! "key-accidental"].any (Nat.beq name)
  | .chords => [nm! "root", nm! "function"].any (Nat.beq name)
  | .noteChoice => [nm! "pitch", nm! "unpitched", nm! "rest", nm! "chord", nm! "grace", nm! "cue"].any (Nat.beq name)
  | .own fs => fs.any fun f => Nat.beq f.1 name
  | .ownSet n _ _ => Nat.beq name n
  | _ => true

theorem field_none {fs : List Field} {name : Nat} (h : (fs.any fun f => Nat.beq f.1 name) = false) : field fs name = none := by
  simp only [field, Option.map_eq_none_iff, List.find?_eq_none]
  intro f hf
  have := List.any_eq_false.mp h f hf
  simpa using this

theorem runItems_nil {name : Nat} {x : Child} {xs : List Child} (h : Nat.beq x.name name = false) : runItems name (x :: xs) = [] := by
  simp [runItems, h]

theorem readParts_pass : ∀ (ps : List Part) (g : Node) (x : Child) (xs : List Child), (ps.any fun p => Nat.beq x.name (partName p)) = false →
    readParts ps g (x :: xs) = ⟨g, true, 0⟩
  | [], _, _, _, _ => rfl
  | .one n i :: ps, g, x, xs, h => by
    simp only [List.any_cons, Bool.or_eq_false_iff] at h
    have h1 : Nat.beq x.name n = false := h.1
    rw [readParts, h1]
    simpa using readParts_pass ps g x xs h.2
  | .run n i :: ps, g, x, xs, h => by
    simp only [List.any_cons, Bool.or_eq_false_iff] at h
    have h1 : Nat.beq x.name n = false := h.1
    rw [readParts]
    simp only [runItems_nil h1, List.isEmpty_nil, if_true, List.map_nil, List.all_nil, Bool.true_and, List.length_nil, List.drop_zero, Nat.add_zero]
    rw [readParts_pass ps g x xs h.2]

theorem midi_pass {new : Node} {x : Child} {xs : List Child} (h1 : Nat.beq x.name (nm! "midi-device") = false) (h2 : Nat.beq x.name (nm! "midi-instrument") = false) :
    midiGroups new (x :: xs) = ([], true, 0) := by
  cases xs <;> simp only [midiGroups, h1, h2] <;> rfl

theorem reacts_idle {st : RStmt} {self : Child} {o : Node} {x : Child} {xs : List Child} (h : st.reacts x.name = false) : st.at self o x xs = idle o := by
  cases st with
  | elem n i b => simp only [RStmt.reacts] at h; simp [RStmt.at, h]
  | set n i b => simp only [RStmt.reacts] at h; simp [RStmt.at, h]
  | item n i => simp only [RStmt.reacts] at h; simp [RStmt.at, h]
  | group i ps b =>
    simp only [RStmt.reacts] at h
    simp only [RStmt.at]
    cases o.kid? i with
    | none => rfl
    | some g => simp [readParts_pass ps g x xs h]
  | sub i fs b => simp only [RStmt.reacts] at h; simp [RStmt.at, field_none h]
  | each i fs => simp only [RStmt.reacts] at h; simp [RStmt.at, field_none h]
  | music fs => simp only [RStmt.reacts] at h; simp [RStmt.at, field_none h]
  | subAdd n i j => simp only [RStmt.reacts] at h; simp [RStmt.at, h]
  | selfItem n i f => simp only [RStmt.reacts] at h; simp [RStmt.at, h]
  | midi i =>
    simp only [RStmt.reacts, Bool.or_eq_false_iff] at h
    simp [RStmt.at, midi_pass h.1 h.2]
  | oldKey => simp only [RStmt.reacts] at h; simp only [RStmt.at, headIn, h, Bool.false_eq_true, if_false]
  | newKey => simp only [RStmt.reacts] at h; simp only [RStmt.at, headIn, h, Bool.false_eq_true, if_false]
  | chords => simp only [RStmt.reacts] at h; simp only [RStmt.at, headIn, h, Bool.false_eq_true, if_false]
  | noteChoice => simp only [RStmt.reacts] at h; simp only [RStmt.at, headIn, h, Bool.false_eq_true, if_false]
  | own fs => simp only [RStmt.reacts] at h; simp [RStmt.at, field_none h]
  | ownSet n i k => simp only [RStmt.reacts] at h; simp [RStmt.at, h]
  | _ => simp [RStmt.reacts] at h

end Mx.Content
