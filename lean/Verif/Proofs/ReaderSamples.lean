import Verif.Proofs.ReaderMain
import Verif.Proofs.ContentSamples

/-
Deciding `Readable`, and telling written elements apart.
-/
open Mx.Spec
namespace Mx.Content

def hasDataB (d : Str) : Node → Bool
  | .leaf _ _ d' => d' == d
  | .comp .. => false

theorem hasDataB_of {d : Str} {n : Node} (h : hasDataB d n = true) : HasData d n := by
  cases n with
  | comp => cases h
  | leaf t b d' => exact ⟨t, b, by rw [eq_of_beq (a := d') (b := d) h]⟩

def emptyB {α : Type} : List α → Bool
  | [] => true
  | _ => false

theorem emptyB_iff {α : Type} (l : List α) : emptyB l = true ↔ l = [] := by cases l <;> simp [emptyB]

def readableHereB (c : Cls) (d : Str) (k : Nat) (ss : List Slot) : Bool :=
  match c with
  | .Play => false
  | .Percussion => false
  | .NoteheadText => !emptyB (kidsAt ss 0) && (kidsAt ss 0).all fun g => (partsAt g (choiceOf g)).all (hasDataB d)
  | .NotationsChoice => !Nat.beq k 13
  | .Arrow => Nat.beq k 0
  | .KeyChoice => !Nat.beq k 1 || !emptyB (kidsAt ss 1)
  | .TimeChoice => !Nat.beq k 0 || !emptyB (kidsAt ss 0)
  | .TimewiseMeasure => !emptyB (kidsAt ss 0)
  | .Lyric => !flagAt ss 3 0 && (!flagAt ss 3 1 && (Nat.beq (choiceAt ss 0) 0 || (!onAt ss 1 && !onAt ss 2)))
  | .ElisionSyllabicGroup => !onAt ss 1
  | .MetronomeTuplet => !onAt ss 2
  | .Credit => (kidsAt ss 3).all fun q => !Nat.beq (choiceOf q) 1 || (partsAt q 2).all fun g => (partsAt g 0 ++ partsAt g 1).all (hasDataB d)
  | .FullNoteGroup => !onAt ss 0 || (kidsAt ss 0).all (hasDataB [])
  | _ => true

theorem readableHereB_of {c : Cls} {d : Str} {k : Nat} {ss : List Slot} (h : readableHereB c d k ss = true) : ReadableHere c d k ss := by
  have hn : ∀ {a b : Nat}, Nat.beq a b = false → a ≠ b := fun h e => by rw [e, Nat.beq_refl] at h; cases h
  have he : ∀ {α : Type} {l : List α}, emptyB l = false → l ≠ [] := fun h e => by rw [e] at h; cases h
  unfold readableHereB at h
  split at h
  · cases h
  · cases h
  · simp only [Bool.and_eq_true, Bool.not_eq_true', List.all_eq_true] at h
    exact ⟨he h.1, fun g hg n hn => hasDataB_of (h.2 g hg n hn)⟩
  · simp only [Bool.not_eq_true'] at h; exact hn h
  · exact Nat.eq_of_beq_eq_true h
  · simp only [Bool.or_eq_true, Bool.not_eq_true'] at h
    intro e
    rcases h with h | h
    · exact absurd e (hn h)
    · exact he h
  · simp only [Bool.or_eq_true, Bool.not_eq_true'] at h
    intro e
    rcases h with h | h
    · exact absurd e (hn h)
    · exact he h
  · simp only [Bool.not_eq_true'] at h
    exact he h
  · simp only [Bool.and_eq_true, Bool.or_eq_true, Bool.not_eq_true'] at h
    exact ⟨h.1, h.2.1, fun e => by
      rcases h.2.2 with h | h
      · exact absurd (Nat.eq_of_beq_eq_true h) e
      · exact h⟩
  · simpa [ReadableHere] using h
  · simpa [ReadableHere] using h
  · simp only [List.all_eq_true, Bool.or_eq_true, Bool.not_eq_true'] at h
    intro q hq hc g hg n hm
    rcases h q hq with h | h
    · exact absurd hc (hn h)
    · exact hasDataB_of (h g hg n hm)
  · simp only [Bool.or_eq_true, Bool.not_eq_true', List.all_eq_true] at h
    intro hon n hm
    rcases h with h | h
    · rw [h] at hon; cases hon
    · exact hasDataB_of (h n hm)
  · unfold ReadableHere
    split <;> first | trivial | (exfalso; simp_all; done)

/-- A condition on all objects that are written. -/
def usedB (p : Cls → Str → Nat → List Slot → Bool) : Nat → Node → Bool
  | 0, _ => false
  | _ + 1, .leaf .. => true
  | f + 1, .comp c d k ss => p c d k ss && c.info.stmts.all fun w =>
    !inChoice k w || match ss[w.slot]? with
      | none => true
      | some s => !inUse c.info.members[w.slot]? s.on || s.kids.all (usedB p f)

theorem readable_of : ∀ (f : Nat) (n : Node), usedB readableHereB f n = true → Readable n
  | 0, _, h => by simp [usedB] at h
  | _ + 1, .leaf t h d, _ => .leaf t h d
  | f + 1, .comp c d k ss, h => by
    simp only [usedB, Bool.and_eq_true, List.all_eq_true] at h
    refine .comp c d k ss (readableHereB_of h.1) ?_
    intro w hw hc s hs hu n hn
    have := h.2 w hw
    rw [hc, hs] at this
    simp only [hu, Bool.not_true, Bool.false_or, List.all_eq_true] at this
    exact readable_of f n (this n hn)

mutual
/-- An element as a list: its name, its attributes and value, its children, and a mark for its end. -/
def flat : Xml → List (Nat × Str)
  | .elem n d ks => (n, d) :: (flatAll ks ++ [(0, [])])
def flatAll : List Xml → List (Nat × Str)
  | [] => []
  | x :: xs => flat x ++ flatAll xs
end

/-- What becomes of an object when it is written and read: `none` when the reader complains. -/
def reread (n : Node) : Option (List (Nat × Str)) :=
  let r := (n.xml.child prog).read (make n.kind)
  if r.2 then some (flat r.1.xml) else none

theorem not_back {n : Node} (h : reread n ≠ some (flat n.xml)) : ¬ ReadsBack n := by
  rintro ⟨n', e1, _, e3⟩
  apply h
  rw [reread, e1]
  simp [e3]

theorem complains {n : Node} (h : reread n = none) : ((n.xml.child prog).read (make n.kind)).2 = false := by
  cases hr : ((n.xml.child prog).read (make n.kind)).2 with
  | false => rfl
  | true => simp [reread, hr] at h

theorem blank_for {n : Node} (h : Wide n) : Blank (make n.kind) := by
  cases n with
  | leaf t b d =>
    cases h with
    | leaf _ _ _ ht => exact .leaf t b ht
  | comp c d k ss => exact make_blank c

theorem reads_back {n : Node} (hb : Built n) (he : n.kind.named = true) (hs : SoundCareful n) (hr : Readable n) :
    ∃ n', (n.xml.child prog).read (make n.kind) = (n', true) ∧ n'.kind = n.kind ∧ n'.xml = n.xml ∧ Wide n' ∧ SoundCareful n' := by
  have hx : n.xml = (whole n).element := (write_whole n (built_wide hb) hs).1 he
  obtain ⟨n', e1, e2, e3, e4, e5⟩ := (read_all (sizeOf n + 1) n ⟨Nat.lt_succ_self _, ⟨built_wide hb, hs⟩, hr⟩ he).read (make n.kind) (blank_for (built_wide hb)) (make_kind _)
  refine ⟨n', by rw [hx]; exact e1, e2, ?_, e4, e5⟩
  rw [hx, ← e3]
  exact (write_whole n' e4 e5).1 (by rw [e2]; exact he)

end Mx.Content
