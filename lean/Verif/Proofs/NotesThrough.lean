import Verif.Model.NotesThrough
import Verif.Spec.NotesThrough
import Verif.Proofs.NoteKept
import Mathlib.Data.List.Perm.Basic

/-! Lemmas for `Verif/Props/NotesThroughProps.lean`. -/
namespace Mx
open _root_.Spec Measure

theorem writeBeamsFrom_numbers : ∀ (bs : List Api.Beam) (i : Nat) (set : List BeamXml), (∀ b ∈ set, b.number ≠ none) → ∀ b ∈ writeBeamsFrom i set bs, b.number ≠ none
  | [], _, _, h => h
  | _ :: bs, i, set, h => by
    intro b hb
    rw [writeBeamsFrom] at hb
    refine writeBeamsFrom_numbers bs _ _ ?_ b hb
    intro c hc
    split at hc
    · rcases List.mem_append.mp hc with hc | hc
      · exact h c hc
      · rw [List.mem_singleton.mp hc]; simp
    · exact h c hc

theorem writeNote_beams {shown : Option (Api.DurationName × Nat)} {n : NoteDetails} {y : NoteXml} (h : writeNote shown n = some y) : ∀ b ∈ y.beams, b.number ≠ none := by
  unfold writeNote at h
  obtain ⟨s, -, rfl⟩ := Option.map_eq_some_iff.mp h
  exact writeBeamsFrom_numbers _ _ _ (by simp)

theorem keptWithBeams {a : NoteSaid} {bs : List (Nat × Core.BeamValue)} (h : FileNoteKept a) (hp : bs.Perm a.beams) : FileNoteKept { a with beams := bs } :=
  { sound := h.sound, cue := h.cue, type := h.type, accidental := h.accidental, actualNotes := h.actualNotes, normalNotes := h.normalNotes, notehead := h.notehead
    beams := ⟨by show (bs.map (·.1)).Perm (List.range' 1 bs.length); rw [hp.length_eq]; exact (hp.map _).trans h.beams.1, by show bs.length ≤ 8; rw [hp.length_eq]; exact h.beams.2⟩ }

/-- One pass keeps what a note says. -/
theorem notePass_keeps {x y : NoteXml} {a : NoteSaid} (hs : NoteSays x a) (hk : FileNoteKept a) (hb : ∀ b ∈ x.beams, b.number = none → x.beams.length = 1) (h : NotePass x y) :
    (∃ bs, bs.Perm a.beams ∧ NoteSays y { a with beams := bs }) ∧ ∀ b ∈ y.beams, b.number = none → y.beams.length = 1 := by
  obtain ⟨G, dv, shown, n, h1, h2⟩ := h
  obtain ⟨n', y', g1, g2, bs, g3, g4⟩ := note_kept G dv shown hs hk hb
  rw [h1] at g1; cases g1
  rw [h2] at g2; cases g2
  exact ⟨⟨bs, g3, g4⟩, fun b hb' e => absurd e (writeNote_beams h2 b hb')⟩

theorem notePasses_keeps {k : Nat} {x y : NoteXml} {a : NoteSaid} (hs : NoteSays x a) (hk : FileNoteKept a) (hb : ∀ b ∈ x.beams, b.number = none → x.beams.length = 1) (h : NotePasses k x y) :
    (∃ bs, bs.Perm a.beams ∧ NoteSays y { a with beams := bs }) ∧ ∀ b ∈ y.beams, b.number = none → y.beams.length = 1 := by
  induction h with
  | none x => exact ⟨⟨a.beams, List.Perm.refl _, hs⟩, hb⟩
  | more _ h ih =>
    obtain ⟨⟨bs, h1, h2⟩, h3⟩ := ih hs hb
    obtain ⟨⟨bs', g1, g2⟩, g3⟩ := notePass_keeps h2 (keptWithBeams hk h1) h3 h
    exact ⟨⟨bs', g1.trans h1, g2⟩, g3⟩

theorem notePass_exists {x : NoteXml} (h : KeptNote x) : ∃ y, NotePass x y ∧ KeptNote y := by
  obtain ⟨⟨a, hs, hk⟩, hb⟩ := h
  obtain ⟨n, y, g1, g2, bs, g3, g4⟩ := note_kept 1 0 none hs hk hb
  exact ⟨y, ⟨1, 0, none, n, g1, g2⟩, ⟨_, g4, keptWithBeams hk g3⟩, fun b hb' e => absurd e (writeNote_beams g2 b hb')⟩

theorem notePasses_exists {x : NoteXml} (h : KeptNote x) : ∀ k, ∃ y, NotePasses k x y ∧ KeptNote y
  | 0 => ⟨x, .none x, h⟩
  | k + 1 => by
    obtain ⟨y, h1, h2⟩ := notePasses_exists h k
    obtain ⟨z, g1, g2⟩ := notePass_exists h2
    exact ⟨z, .more h1 g1, g2⟩

variable {Q : Type}

/-- The same clock: only the contents of notes differ. -/
theorem elemPasses_step {k : Nat} {e e' : Elem (NoteXml ⊕ Q)} (h : ElemPasses k e e') (c : Clock) : c.step e' = c.step e := by
  cases h <;> rfl

theorem elemPasses_divisions {k : Nat} {m m' : List (Elem (NoteXml ⊕ Q))} (h : List.Forall₂ (ElemPasses k) m m') : ∀ d : Int, divisionsAfter d m' = divisionsAfter d m := by
  induction h with
  | nil => exact fun _ => rfl
  | cons h _ ih =>
    intro d
    cases h <;> exact ih _

/-- A note that was loaded and saved. -/
def PlacedPasses (k : Nat) (p q : Placed (NoteXml ⊕ Q)) : Prop :=
  q.onset = p.onset ∧ q.length = p.length ∧ q.staff = p.staff ∧ ∃ x y, p.content = .inl x ∧ q.content = .inl y ∧ NotePasses k x y

theorem elemPasses_placed {k : Nat} {m m' : List (Elem (NoteXml ⊕ Q))} (h : List.Forall₂ (ElemPasses k) m m') : ∀ c : Clock, List.Forall₂ (PlacedPasses k) (placedNotes c m) (placedNotes c m') := by
  induction h with
  | nil => exact fun _ => .nil
  | cons h _ ih =>
    intro c
    cases h with
    | note n x y h1 h2 => exact .cons ⟨rfl, rfl, rfl, x, y, h1, rfl, h2⟩ (ih _)
    | backup d => exact ih _
    | forward d => exact ih _
    | direction s o c' => exact ih _
    | attributes a => exact ih _
    | barline l c' => exact ih _
    | other => exact ih _

theorem partPasses_placed {k : Nat} {ms ms' : List (List (Elem (NoteXml ⊕ Q)))} (h : List.Forall₂ (List.Forall₂ (ElemPasses k)) ms ms') :
    ∀ d : Int, List.Forall₂ (List.Forall₂ (PlacedPasses k)) (partPlaced d ms) (partPlaced d ms') := by
  induction h with
  | nil => exact fun _ => .nil
  | cons h _ ih =>
    intro d
    refine .cons (elemPasses_placed h _) ?_
    rw [elemPasses_divisions h d]
    exact ih _

/-- The notes of a measure with their times have the contents of the measure. -/
theorem placed_content {P : Type} : ∀ {m : List (Elem P)} {c : Clock} {p : Placed P}, p ∈ placedNotes c m → ∃ n, Elem.note n ∈ m ∧ n.content = p.content
  | e :: m, c, p, h => by
    have go : ∀ {c}, p ∈ placedNotes c m → ∃ n, Elem.note n ∈ e :: m ∧ n.content = p.content := by
      intro c h
      obtain ⟨n, h1, h2⟩ := placed_content h
      exact ⟨n, List.mem_cons_of_mem _ h1, h2⟩
    cases e with
    | note n =>
      rcases List.mem_cons.mp h with rfl | h
      · exact ⟨n, List.mem_cons_self, rfl⟩
      · exact go h
    | backup d => exact go h
    | forward d => exact go h
    | direction s o c' => exact go h
    | attributes a => exact go h
    | barline l c' => exact go h
    | other => exact go h

/-- and the other way round -/
theorem content_placed {P : Type} {m : List (Elem P)} {n : NoteElem P} : ∀ c : Clock, Elem.note n ∈ m → ∃ p ∈ placedNotes c m, p.content = n.content := by
  induction m with
  | nil => exact fun _ h => nomatch h
  | cons e m ih =>
    intro c h
    rcases List.mem_cons.mp h with rfl | h'
    · exact ⟨_, List.mem_cons_self, rfl⟩
    · cases e with
      | note n' =>
        obtain ⟨p, h1, h2⟩ := ih (c.step (.note n')) h'
        exact ⟨p, List.mem_cons_of_mem _ h1, h2⟩
      | backup d => exact ih _ h'
      | forward d => exact ih _ h'
      | direction s o c' => exact ih _ h'
      | attributes a => exact ih _ h'
      | barline l c' => exact ih _ h'
      | other => exact ih _ h'

/-- The contents of notes that sound like others are contents of those. -/
theorem soundsLike_content {P : Type} {a b : List (Placed P)} (h : SoundsLike a b) {q : Placed P} (hq : q ∈ b) : ∃ p ∈ a, p.content = q.content := by
  have : q.heard ∈ a.map Placed.heard := h.mem_iff.mpr (List.mem_map_of_mem hq)
  obtain ⟨p, h1, h2⟩ := List.mem_map.mp this
  exact ⟨p, h1, congrArg (fun t => t.2.2.2) h2⟩

/-- Measures: what is written sounds like the file, and its notes went through the program. -/
theorem sounds_then_passes {k : Nat} {a b c : List (Placed (NoteXml ⊕ Q))} (ha : ∀ p ∈ a, ∃ x, p.content = .inl x ∧ KeptNote x) (h : SoundsLike a b) (hp : List.Forall₂ (PlacedPasses k) b c) : SameNotes a c := by
  have h1 : List.Forall₂ (fun p q => p.heard = q) a (a.map Placed.heard) := by
    rw [List.forall₂_map_right_iff]
    exact List.forall₂_same.mpr (fun _ _ => rfl)
  have h2 : List.Forall₂ (fun (q : ℚ × ℚ × Int × (NoteXml ⊕ Q)) (p : Placed (NoteXml ⊕ Q)) => p.heard = q) (b.map Placed.heard) b := by
    rw [List.forall₂_map_left_iff]
    exact List.forall₂_same.mpr (fun _ _ => rfl)
  -- the permutation comes last
  have h3 : ((List.Perm : List _ → List _ → Prop) |> fun r => Relation.Comp r (List.Forall₂ (fun (q : ℚ × ℚ × Int × (NoteXml ⊕ Q)) (p : Placed (NoteXml ⊕ Q)) => p.heard = q))) (a.map Placed.heard) b := ⟨_, h, h2⟩
  have h4 : Relation.Comp (List.Forall₂ (fun (q : ℚ × ℚ × Int × (NoteXml ⊕ Q)) (p : Placed (NoteXml ⊕ Q)) => p.heard = q)) List.Perm (a.map Placed.heard) b := by
    rw [List.forall₂_comp_perm_eq_perm_comp_forall₂]; exact h3
  obtain ⟨b', h5, h6⟩ := h4
  have h7 : Relation.Comp List.Perm (List.Forall₂ (PlacedPasses k)) b' c := ⟨b, h6, hp⟩
  rw [← List.forall₂_comp_perm_eq_perm_comp_forall₂] at h7
  obtain ⟨c', h8, h9⟩ := h7
  refine ⟨c', h9, ?_⟩
  rw [List.forall₂_map_left_iff] at h5
  have hlen := h5.length_eq
  refine List.forall₂_iff_get.mpr ⟨h5.length_eq.trans h8.length_eq, ?_⟩
  intro i hi hi'
  have hib : i < b'.length := by rw [← hlen]; exact hi
  have e := h5.get hi hib
  obtain ⟨e1, e2, e3, x, y, e4, e5, e6⟩ := h8.get hib hi'
  obtain ⟨x', g1, ⟨s, g2, g3⟩, g4⟩ := ha _ (List.get_mem a ⟨i, hi⟩)
  unfold Placed.heard at e
  simp only [Prod.mk.injEq] at e
  obtain ⟨f1, f2, f3, f4⟩ := e
  rw [g1] at f4
  rw [e4] at f4
  cases f4
  obtain ⟨⟨bs, k1, k2⟩, -⟩ := notePasses_keeps g2 g3 g4 e6
  refine ⟨by rw [e1, f1], by rw [e2, f2], ?_, x, y, g1, e5, s, bs, g2, k1, k2⟩
  rw [← f3]
  unfold Placed.staffIndex
  rw [e3]

theorem elemPasses_exists (k : Nat) (e : Elem (NoteXml ⊕ Q)) (h : ∀ n, e = .note n → ∃ x, n.content = .inl x ∧ KeptNote x) : ∃ e', ElemPasses k e e' := by
  cases e with
  | note n =>
    obtain ⟨x, h1, h2⟩ := h n rfl
    obtain ⟨y, h3, -⟩ := notePasses_exists h2 k
    exact ⟨_, .note n x y h1 h3⟩
  | backup d => exact ⟨_, .backup d⟩
  | forward d => exact ⟨_, .forward d⟩
  | direction s o c => exact ⟨_, .direction s o c⟩
  | attributes a => exact ⟨_, .attributes a⟩
  | barline l c => exact ⟨_, .barline l c⟩
  | other => exact ⟨_, .other⟩

theorem forall₂_exists {α β : Type} {R : α → β → Prop} : ∀ (l : List α), (∀ a ∈ l, ∃ b, R a b) → ∃ l', List.Forall₂ R l l'
  | [], _ => ⟨[], .nil⟩
  | a :: l, h => by
    obtain ⟨b, hb⟩ := h a List.mem_cons_self
    obtain ⟨l', hl⟩ := forall₂_exists l (fun x hx => h x (List.mem_cons_of_mem _ hx))
    exact ⟨b :: l', .cons hb hl⟩

theorem parts_pass_exists (k : Nat) (ps : List (Str × List (List (Elem (NoteXml ⊕ Q))))) (h : ∀ p ∈ ps, ∀ m ∈ p.2, AllKept m) : ∃ qs, PartsPass k ps qs := by
  refine forall₂_exists ps ?_
  intro p hp
  obtain ⟨ms, hms⟩ := forall₂_exists (R := List.Forall₂ (ElemPasses k)) p.2 (fun m hm => forall₂_exists m (fun e he => elemPasses_exists k e (fun n hn => h p hp m hm n (hn ▸ he))))
  exact ⟨(p.1, ms), rfl, hms⟩

/-- Contents of the parts. -/
theorem partPlaced_kept : ∀ {ms : List (List (Elem (NoteXml ⊕ Q)))} {d : Int}, (∀ m ∈ ms, AllKept m) → ∀ l ∈ partPlaced d ms, ∀ p ∈ l, ∃ x, p.content = .inl x ∧ KeptNote x
  | m :: ms, d, h, l, hl, p, hp => by
    rcases List.mem_cons.mp hl with rfl | hl
    · obtain ⟨n, h1, h2⟩ := placed_content hp
      rw [← h2]
      exact h m List.mem_cons_self n h1
    · exact partPlaced_kept (fun m' hm' => h m' (List.mem_cons_of_mem _ hm')) l hl p hp

theorem kept_of_placed : ∀ {ms : List (List (Elem (NoteXml ⊕ Q)))} {d : Int}, (∀ l ∈ partPlaced d ms, ∀ p ∈ l, ∃ x, p.content = .inl x ∧ KeptNote x) → ∀ m ∈ ms, AllKept m
  | m :: ms, d, h, m', hm' => by
    rcases List.mem_cons.mp hm' with rfl | hm'
    · intro n hn
      obtain ⟨p, h1, h2⟩ := content_placed (Clock.init d) hn
      rw [← h2]
      exact h _ List.mem_cons_self p h1
    · exact kept_of_placed (fun l hl => h l (List.mem_cons_of_mem _ hl)) m' hm'

/-- Files: what is written sounds like the file. -/
theorem file_passes {P' : Type} {k : Nat} {file : List (P' × List (List (Elem (NoteXml ⊕ Q))))} {written : List (Str × List (List (Elem (NoteXml ⊕ Q))))}
    (hk : ∀ p ∈ file, ∀ m ∈ p.2, AllKept m) (h : List.Forall₂ (fun p q => List.Forall₂ SoundsLike (partPlaced 1 p.2) (partPlaced 1 q.2)) file written) :
    (∃ saved, PartsPass k written saved) ∧ ∀ saved, PartsPass k written saved → List.Forall₂ (fun p q => List.Forall₂ SameNotes (partPlaced 1 p.2) (partPlaced 1 q.2)) file saved := by
  constructor
  · apply parts_pass_exists
    intro q hq
    obtain ⟨i, hi⟩ := List.getElem?_of_mem hq
    have hlt := (List.getElem?_eq_some_iff.mp hi).1
    have hlt' : i < file.length := by rw [h.length_eq]; exact hlt
    have hs := h.get hlt' hlt
    rw [show written.get ⟨i, hlt⟩ = q from (List.getElem?_eq_some_iff.mp hi).2] at hs
    have hf := partPlaced_kept (d := 1) (hk _ (List.get_mem file ⟨i, hlt'⟩))
    refine kept_of_placed (d := 1) ?_
    intro l hl p hp
    obtain ⟨j, hj⟩ := List.getElem?_of_mem hl
    have jlt := (List.getElem?_eq_some_iff.mp hj).1
    have jlt' := hs.length_eq ▸ jlt
    have hm := hs.get jlt' jlt
    rw [show (partPlaced 1 q.2).get ⟨j, jlt⟩ = l from (List.getElem?_eq_some_iff.mp hj).2] at hm
    obtain ⟨p', h1, h2⟩ := soundsLike_content hm hp
    rw [← h2]
    exact hf _ (List.get_mem _ ⟨j, jlt'⟩) p' h1
  · intro saved hs
    refine List.forall₂_iff_get.mpr ⟨h.length_eq.trans hs.length_eq, ?_⟩
    intro i hi hi'
    have hw : i < written.length := by rw [← h.length_eq]; exact hi
    have e1 := h.get hi hw
    obtain ⟨-, e2⟩ := hs.get hw hi'
    have e3 := partPasses_placed e2 1
    have hf := partPlaced_kept (d := 1) (hk _ (List.get_mem file ⟨i, hi⟩))
    refine List.forall₂_iff_get.mpr ⟨e1.length_eq.trans e3.length_eq, ?_⟩
    intro j hj hj'
    have hjw := e1.length_eq ▸ hj
    exact sounds_then_passes (hf _ (List.get_mem _ ⟨j, hj⟩)) (e1.get hj hjw) (e3.get hjw hj')

end Mx
