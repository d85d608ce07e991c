import Verif.Model.WholeNotesThrough
import Verif.Spec.WholeNotesThrough
import Verif.Proofs.WholeNoteSaid

/-! Lemmas for `Verif/Props/WholeNotesThroughProps.lean`. -/
namespace Mx
open _root_.Spec Measure

theorem whole_note_times (cs : List NoteContext) (x : WholeNote) (a : WholeNoteSaid) (hs : WholeNoteSays x a) (hk : WholeNoteKept x a) :
    ∃ y b, wholeNoteThroughTimes cs x = some y ∧ WholeNoteSays y b ∧ SameWholeNote b (withExtraTies cs.length a) := by
  induction cs generalizing x a with
  | nil => exact ⟨x, a, rfl, hs, ⟨a.note.beams, .refl _, rfl⟩, ⟨.refl _, fun _ => rfl⟩, ⟨.refl _, rfl, rfl⟩, .refl _, fun _ => rfl⟩
  | cons c cs ih =>
    obtain ⟨y, b, h1, h2, h3, h4⟩ := whole_note c hs hk
    obtain ⟨z, d, g1, g2, g3⟩ := ih y b h2 h3
    exact ⟨z, d, by rw [wholeNoteThroughTimes, h1]; exact g1, g2, sameWholeNote_again cs.length h4 g3⟩

theorem wholePasses_keep {k : Nat} {x y : WholeNote} {a : WholeNoteSaid} (hs : WholeNoteSays x a) (hk : WholeNoteKept x a) (h : WholeNotePasses k x y) :
    ∃ b, WholeNoteSays y b ∧ SameWholeNote b (withExtraTies k a) := by
  obtain ⟨cs, rfl, h⟩ := h
  obtain ⟨z, b, h1, h2, h3⟩ := whole_note_times cs x a hs hk
  rw [h] at h1
  cases h1
  exact ⟨b, h2, h3⟩

theorem wholePasses_exist {x : WholeNote} (h : KeptWhole x) (k : Nat) : ∃ y, WholeNotePasses k x y := by
  obtain ⟨a, hs, hk⟩ := h
  obtain ⟨y, b, h1, _⟩ := whole_note_times (List.replicate k { readTicks := 1, duration := 0, tick := 0, writtenTicks := 1, siblings := [], index := 0 }) x a hs hk
  exact ⟨y, _, List.length_replicate, h1⟩

variable {Q : Type}

/-- The same clock: only the contents of notes differ. -/
theorem whole_elemPasses_step {k : Nat} {e e' : Elem (WholeNote ⊕ Q)} (h : WholeElemPasses k e e') (c : Clock) : c.step e' = c.step e := by
  cases h <;> rfl

theorem whole_elemPasses_divisions {k : Nat} {m m' : List (Elem (WholeNote ⊕ Q))} (h : List.Forall₂ (WholeElemPasses k) m m') : ∀ d : Int, divisionsAfter d m' = divisionsAfter d m := by
  induction h with
  | nil => exact fun _ => rfl
  | cons h _ ih =>
    intro d
    cases h <;> exact ih _

/-- A note that was loaded and saved. -/
def WholePlacedPasses (k : Nat) (p q : Placed (WholeNote ⊕ Q)) : Prop :=
  q.onset = p.onset ∧ q.length = p.length ∧ q.staff = p.staff ∧ ∃ x y, p.content = .inl x ∧ q.content = .inl y ∧ WholeNotePasses k x y

theorem whole_elemPasses_placed {k : Nat} {m m' : List (Elem (WholeNote ⊕ Q))} (h : List.Forall₂ (WholeElemPasses k) m m') : ∀ c : Clock, List.Forall₂ (WholePlacedPasses k) (placedNotes c m) (placedNotes c m') := by
  induction h with
  | nil => exact fun _ => .nil
  | cons h _ ih =>
    intro c
    cases h with
    | note n x y h1 h2 => exact .cons ⟨rfl, rfl, rfl, x, y, h1, rfl, h2⟩ (ih _)
    | backup d => exact ih _
    | forward d => exact ih _
    | direction s o c' => exact ih _
    | attributes a => exact ih _
    | barline l c' => exact ih _
    | other => exact ih _

theorem whole_partPasses_placed {k : Nat} {ms ms' : List (List (Elem (WholeNote ⊕ Q)))} (h : List.Forall₂ (List.Forall₂ (WholeElemPasses k)) ms ms') :
    ∀ d : Int, List.Forall₂ (List.Forall₂ (WholePlacedPasses k)) (partPlaced d ms) (partPlaced d ms') := by
  induction h with
  | nil => exact fun _ => .nil
  | cons h _ ih =>
    intro d
    refine .cons (whole_elemPasses_placed h _) ?_
    rw [whole_elemPasses_divisions h d]
    exact ih _

/-- Measures: what is written sounds like the file, and its notes went through the program. -/
theorem whole_sounds_then_passes {k : Nat} {a b c : List (Placed (WholeNote ⊕ Q))} (ha : ∀ p ∈ a, ∃ x, p.content = .inl x ∧ KeptWhole x) (h : SoundsLike a b) (hp : List.Forall₂ (WholePlacedPasses k) b c) : SameWholeNotes k a c := by
  have h1 : List.Forall₂ (fun p q => p.heard = q) a (a.map Placed.heard) := by
    rw [List.forall₂_map_right_iff]
    exact List.forall₂_same.mpr (fun _ _ => rfl)
  have h2 : List.Forall₂ (fun (q : ℚ × ℚ × Int × (WholeNote ⊕ Q)) (p : Placed (WholeNote ⊕ Q)) => p.heard = q) (b.map Placed.heard) b := by
    rw [List.forall₂_map_left_iff]
    exact List.forall₂_same.mpr (fun _ _ => rfl)
  -- the permutation comes last
  have h3 : ((List.Perm : List _ → List _ → Prop) |> fun r => Relation.Comp r (List.Forall₂ (fun (q : ℚ × ℚ × Int × (WholeNote ⊕ Q)) (p : Placed (WholeNote ⊕ Q)) => p.heard = q))) (a.map Placed.heard) b := ⟨_, h, h2⟩
  have h4 : Relation.Comp (List.Forall₂ (fun (q : ℚ × ℚ × Int × (WholeNote ⊕ Q)) (p : Placed (WholeNote ⊕ Q)) => p.heard = q)) List.Perm (a.map Placed.heard) b := by
    rw [List.forall₂_comp_perm_eq_perm_comp_forall₂]; exact h3
  obtain ⟨b', h5, h6⟩ := h4
  have h7 : Relation.Comp List.Perm (List.Forall₂ (WholePlacedPasses k)) b' c := ⟨b, h6, hp⟩
  rw [← List.forall₂_comp_perm_eq_perm_comp_forall₂] at h7
  obtain ⟨c', h8, h9⟩ := h7
  refine ⟨c', h9, ?_⟩
  rw [List.forall₂_map_left_iff] at h5
  have hlen := h5.length_eq
  refine List.forall₂_iff_get.mpr ⟨h5.length_eq.trans h8.length_eq, ?_⟩
  intro i hi hi'
  have hib : i < b'.length := by rw [← hlen]; exact hi
  have e := h5.get hi hib
  obtain ⟨e1, e2, e3, x, y, e4, e5, e6⟩ := h8.get hib hi'
  obtain ⟨x', g1, s, g2, g3⟩ := ha _ (List.get_mem a ⟨i, hi⟩)
  unfold Placed.heard at e
  simp only [Prod.mk.injEq] at e
  obtain ⟨f1, f2, f3, f4⟩ := e
  rw [g1] at f4
  rw [e4] at f4
  cases f4
  obtain ⟨s', k1, k2⟩ := wholePasses_keep g2 g3 e6
  refine ⟨by rw [e1, f1], by rw [e2, f2], ?_, x, y, g1, e5, s, s', g2, k1, k2⟩
  rw [← f3]
  unfold Placed.staffIndex
  rw [e3]

theorem whole_elemPasses_exists (k : Nat) (e : Elem (WholeNote ⊕ Q)) (h : ∀ n, e = .note n → ∃ x, n.content = .inl x ∧ KeptWhole x) : ∃ e', WholeElemPasses k e e' := by
  cases e with
  | note n =>
    obtain ⟨x, h1, h2⟩ := h n rfl
    obtain ⟨y, h3⟩ := wholePasses_exist h2 k
    exact ⟨_, .note n x y h1 h3⟩
  | backup d => exact ⟨_, .backup d⟩
  | forward d => exact ⟨_, .forward d⟩
  | direction s o c => exact ⟨_, .direction s o c⟩
  | attributes a => exact ⟨_, .attributes a⟩
  | barline l c => exact ⟨_, .barline l c⟩
  | other => exact ⟨_, .other⟩

theorem whole_parts_pass_exists (k : Nat) (ps : List (Str × List (List (Elem (WholeNote ⊕ Q))))) (h : ∀ p ∈ ps, ∀ m ∈ p.2, AllWholeKept m) : ∃ qs, WholePartsPass k ps qs := by
  refine forall₂_exists ps ?_
  intro p hp
  obtain ⟨ms, hms⟩ := forall₂_exists (R := List.Forall₂ (WholeElemPasses k)) p.2 (fun m hm => forall₂_exists m (fun e he => whole_elemPasses_exists k e (fun n hn => h p hp m hm n (hn ▸ he))))
  exact ⟨(p.1, ms), rfl, hms⟩

/-- Contents of the parts. -/
theorem whole_partPlaced_kept : ∀ {ms : List (List (Elem (WholeNote ⊕ Q)))} {d : Int}, (∀ m ∈ ms, AllWholeKept m) → ∀ l ∈ partPlaced d ms, ∀ p ∈ l, ∃ x, p.content = .inl x ∧ KeptWhole x
  | m :: ms, d, h, l, hl, p, hp => by
    rcases List.mem_cons.mp hl with rfl | hl
    · obtain ⟨n, h1, h2⟩ := placed_content hp
      rw [← h2]
      exact h m List.mem_cons_self n h1
    · exact whole_partPlaced_kept (fun m' hm' => h m' (List.mem_cons_of_mem _ hm')) l hl p hp

theorem whole_kept_of_placed : ∀ {ms : List (List (Elem (WholeNote ⊕ Q)))} {d : Int}, (∀ l ∈ partPlaced d ms, ∀ p ∈ l, ∃ x, p.content = .inl x ∧ KeptWhole x) → ∀ m ∈ ms, AllWholeKept m
  | m :: ms, d, h, m', hm' => by
    rcases List.mem_cons.mp hm' with rfl | hm'
    · intro n hn
      obtain ⟨p, h1, h2⟩ := content_placed (Clock.init d) hn
      rw [← h2]
      exact h _ List.mem_cons_self p h1
    · exact whole_kept_of_placed (fun l hl => h l (List.mem_cons_of_mem _ hl)) m' hm'

/-- Files: what is written sounds like the file. -/
theorem whole_file_passes {P' : Type} {k : Nat} {file : List (P' × List (List (Elem (WholeNote ⊕ Q))))} {written : List (Str × List (List (Elem (WholeNote ⊕ Q))))}
    (hk : ∀ p ∈ file, ∀ m ∈ p.2, AllWholeKept m) (h : List.Forall₂ (fun p q => List.Forall₂ SoundsLike (partPlaced 1 p.2) (partPlaced 1 q.2)) file written) :
    (∃ saved, WholePartsPass k written saved) ∧ ∀ saved, WholePartsPass k written saved → List.Forall₂ (fun p q => List.Forall₂ (SameWholeNotes k) (partPlaced 1 p.2) (partPlaced 1 q.2)) file saved := by
  constructor
  · apply whole_parts_pass_exists
    intro q hq
    obtain ⟨i, hi⟩ := List.getElem?_of_mem hq
    have hlt := (List.getElem?_eq_some_iff.mp hi).1
    have hlt' : i < file.length := by rw [h.length_eq]; exact hlt
    have hs := h.get hlt' hlt
    rw [show written.get ⟨i, hlt⟩ = q from (List.getElem?_eq_some_iff.mp hi).2] at hs
    have hf := whole_partPlaced_kept (d := 1) (hk _ (List.get_mem file ⟨i, hlt'⟩))
    refine whole_kept_of_placed (d := 1) ?_
    intro l hl p hp
    obtain ⟨j, hj⟩ := List.getElem?_of_mem hl
    have jlt := (List.getElem?_eq_some_iff.mp hj).1
    have jlt' := hs.length_eq ▸ jlt
    have hm := hs.get jlt' jlt
    rw [show (partPlaced 1 q.2).get ⟨j, jlt⟩ = l from (List.getElem?_eq_some_iff.mp hj).2] at hm
    obtain ⟨p', h1, h2⟩ := soundsLike_content hm hp
    rw [← h2]
    exact hf _ (List.get_mem _ ⟨j, jlt'⟩) p' h1
  · intro saved hs
    refine List.forall₂_iff_get.mpr ⟨h.length_eq.trans hs.length_eq, ?_⟩
    intro i hi hi'
    have hw : i < written.length := by rw [← h.length_eq]; exact hi
    have e1 := h.get hi hw
    obtain ⟨-, e2⟩ := hs.get hw hi'
    have e3 := whole_partPasses_placed e2 1
    have hf := whole_partPlaced_kept (d := 1) (hk _ (List.get_mem file ⟨i, hi⟩))
    refine List.forall₂_iff_get.mpr ⟨e1.length_eq.trans e3.length_eq, ?_⟩
    intro j hj hj'
    have hjw := e1.length_eq ▸ hj
    exact whole_sounds_then_passes (hf _ (List.get_mem _ ⟨j, hj⟩)) (e1.get hj hjw) (e3.get hjw hj')

end Mx
