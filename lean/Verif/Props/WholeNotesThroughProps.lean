import Verif.Proofs.WholeNotesThrough
import Verif.Props.WholeNoteProps
import Verif.Props.PassThroughProps

/-!
# Property C114: a file that goes through the program keeps its notes with all their notations
Specification: `Verif/Spec/WholeNotesThrough.lean`, with `Verif/Spec/WholeNoteSaid.lean` and MusicXML's time in `Verif/Spec/MusicXMLClock.lean`.
-/
namespace Mx.Props
open _root_.Spec Mx.Measure

variable {Q : Type}

theorem whole_kept_parts {file : List (Str × List (List (Child (WholeNote ⊕ Q))))} {written : List (Str × List (List (Elem (WholeNote ⊕ Q))))} {k : Nat} (hk : ∀ p ∈ file, ∀ m ∈ partElems p.2, AllWholeKept m)
    (h : List.Forall₂ (fun p q => List.Forall₂ SoundsLike (partPlaced 1 (partElems p.2)) (partPlaced 1 q.2)) file written) :
    (∃ saved, WholePartsPass k written saved) ∧
    ∀ saved, WholePartsPass k written saved → List.Forall₂ (fun p q => List.Forall₂ (SameWholeNotes k) (partPlaced 1 (partElems p.2)) (partPlaced 1 q.2)) file saved := by
  have h' : List.Forall₂ (fun (p q : Str × List (List (Elem (WholeNote ⊕ Q)))) => List.Forall₂ SoundsLike (partPlaced 1 p.2) (partPlaced 1 q.2)) (file.map (fun p => (p.1, partElems p.2))) written := by
    rw [List.forall₂_map_left_iff]; exact h
  have hk' : ∀ p ∈ file.map (fun p => (p.1, partElems p.2)), ∀ m ∈ p.2, AllWholeKept m := by
    intro p hp
    obtain ⟨q, hq, rfl⟩ := List.mem_map.mp hp
    exact hk q hq
  obtain ⟨h1, h2⟩ := whole_file_passes (k := k) hk' h'
  refine ⟨h1, fun saved hs => ?_⟩
  have := h2 saved hs
  rw [List.forall₂_map_left_iff] at this
  exact this

/-- **C114 (partial)** A file is loaded, and what was loaded is saved.  Then it can be written, and part by part and measure by measure it has exactly the same notes at exactly the same times, equally long and on the same staves, and each of
them says the same with all its slurs, tuplets and marks, and with its ties apart from those of `extraTies`, which are added once.

Missing, because the code does not do it: the conditions of C92 (`PlainPart`) and of C113 (`WholeNoteKept`), and that no ties are added. -/
theorem C114_whole_notes_partial (file : List (Str × List (List (Child (WholeNote ⊕ Q))))) (s : Score (WholeNote ⊕ Q)) (hne : file ≠ []) (hids : (file.map (·.1)).Nodup) (hf : ∀ p ∈ file, PlainPart p.2)
    (hk : ∀ p ∈ file, ∀ m ∈ partElems p.2, AllWholeKept m)
    (hl : getScore (file.map (·.1)) file = some (s.ticksPerQuarter, s.parts.map (fun p => p.measures.map (·.2)))) (ht : 0 < s.ticksPerQuarter) :
    (∃ saved, WholePartsPass 1 (writeScore s.ticksPerQuarter s.parts).2 saved) ∧
    ∀ saved, WholePartsPass 1 (writeScore s.ticksPerQuarter s.parts).2 saved →
      List.Forall₂ (fun p q => List.Forall₂ (SameWholeNotes 1) (partPlaced 1 (partElems p.2)) (partPlaced 1 q.2)) file saved :=
  whole_kept_parts hk (C92_same_music_partial file s hne hids hf hl ht)

/-- **C114 (partial)** The same for ever: however many times what was loaded is saved and loaded, the notes of the file at the end are those of the file at the beginning, at the same times, and say the same with their notations; the ties of
`extraTies` are added once each time. -/
theorem C114_for_ever_partial (file : List (Str × List (List (Child (WholeNote ⊕ Q))))) (s : Score (WholeNote ⊕ Q)) (hne : file ≠ []) (hids : (file.map (fun p => xsID p.1)).Nodup) (hf : ∀ p ∈ file, PlainPart p.2)
    (hg : ∀ p ∈ file, ∀ m ∈ partElems p.2, NoGraceChords m) (hk : ∀ p ∈ file, ∀ m ∈ partElems p.2, AllWholeKept m)
    (hl : getScore (file.map (·.1)) file = some (s.ticksPerQuarter, s.parts.map (fun p => p.measures.map (·.2)))) (hi : s.parts.map (·.uniqueId) = file.map (·.1)) (ht : 0 < s.ticksPerQuarter) (k : Nat) :
    (∃ sk, AfterSaves k s sk) ∧ ∀ sk, AfterSaves k s sk →
      (∃ saved, WholePartsPass (k + 1) (writeScore sk.ticksPerQuarter sk.parts).2 saved) ∧
      ∀ saved, WholePartsPass (k + 1) (writeScore sk.ticksPerQuarter sk.parts).2 saved →
        List.Forall₂ (fun p q => List.Forall₂ (SameWholeNotes (k + 1)) (partPlaced 1 (partElems p.2)) (partPlaced 1 q.2)) file saved := by
  obtain ⟨h1, h2⟩ := C92_for_ever_partial file s hne hids hf hg hl hi ht k
  exact ⟨h1, fun sk hs => whole_kept_parts hk (h2 sk hs)⟩

theorem untied_whole {k : Nat} {a b : List (Placed (WholeNote ⊕ Q))} (ht : NoTies a) (h : SameWholeNotes k a b) : SameWholeNotes 0 a b := by
  obtain ⟨b', h1, h2⟩ := h
  refine ⟨b', h1, ?_⟩
  clear h1
  induction h2 with
  | nil => exact .nil
  | cons h _ ih =>
    refine .cons ?_ (ih (fun p hp => ht p (List.mem_cons_of_mem _ hp)))
    obtain ⟨e1, e2, e3, x, y, e4, e5, s, s', e6, e7, e8⟩ := h
    have hx := ht _ List.mem_cons_self x e4
    have t1 : s.note.tieStart = false := by
      have := e6.1.tieStart; rw [hx] at this; simpa using this
    have t2 : s.note.tieStop = false := by
      have := e6.1.tieStop; rw [hx] at this; simpa using this
    have he : extraTies s.note = [] := by unfold extraTies; rw [t1, t2]
    refine ⟨e1, e2, e3, x, y, e4, e5, s, s', e6, e7, ?_⟩
    have : withExtraTies k s = withExtraTies 0 s := by unfold withExtraTies; rw [he]; simp
    rw [← this]
    exact e8

/-- **C114 (partial)** In a file without ties all notes say the same for ever, with nothing added. -/
theorem C114_untied_partial (file : List (Str × List (List (Child (WholeNote ⊕ Q))))) (s : Score (WholeNote ⊕ Q)) (hne : file ≠ []) (hids : (file.map (fun p => xsID p.1)).Nodup) (hf : ∀ p ∈ file, PlainPart p.2)
    (hg : ∀ p ∈ file, ∀ m ∈ partElems p.2, NoGraceChords m) (hk : ∀ p ∈ file, ∀ m ∈ partElems p.2, AllWholeKept m) (hn : ∀ p ∈ file, ∀ m ∈ partPlaced 1 (partElems p.2), NoTies m)
    (hl : getScore (file.map (·.1)) file = some (s.ticksPerQuarter, s.parts.map (fun p => p.measures.map (·.2)))) (hi : s.parts.map (·.uniqueId) = file.map (·.1)) (ht : 0 < s.ticksPerQuarter) (k : Nat) (sk : Score (WholeNote ⊕ Q))
    (hs : AfterSaves k s sk) (saved : List (Str × List (List (Elem (WholeNote ⊕ Q))))) (hp : WholePartsPass (k + 1) (writeScore sk.ticksPerQuarter sk.parts).2 saved) :
    List.Forall₂ (fun p q => List.Forall₂ (SameWholeNotes 0) (partPlaced 1 (partElems p.2)) (partPlaced 1 q.2)) file saved := by
  have h := ((C114_for_ever_partial file s hne hids hf hg hk hl hi ht k).2 sk hs).2 saved hp
  refine List.forall₂_iff_get.mpr ⟨h.length_eq, fun i hi hi' => ?_⟩
  have h' := h.get hi hi'
  refine List.forall₂_iff_get.mpr ⟨h'.length_eq, fun j hj hj' => ?_⟩
  exact untied_whole (hn _ (List.get_mem file ⟨i, hi⟩) _ (List.get_mem _ ⟨j, hj⟩)) (h'.get hj hj')

/-! ### examples -/

/-- a note with the notations of the example of C112 -/
def exWholeNote (chord : Bool) (dur : Int) (voice : Option Int) : Child (WholeNote ⊕ Unit) := { elem := .note ⟨chord, .normal, dur * 1000000, none, voice, .inl ⟨mixedNote, mixedNotations⟩⟩ }

/-- Two voices: a chord of two notes, and a note that comes a quarter note later. -/
def twoMixedVoices : List (Str × List (List (Child (WholeNote ⊕ Unit)))) :=
  [(chars "P1", [[{ elem := .attributes { divisions := some 1000000 } }, exWholeNote false 1 (some 1), exWholeNote true 1 (some 1), { elem := .backup 1000000 }, { elem := .forward 1000000 }, exWholeNote false 1 (some 2)]])]

/-- The example meets the conditions. -/
example : twoMixedVoices ≠ [] ∧ (twoMixedVoices.map (·.1)).Nodup ∧ (∀ p ∈ twoMixedVoices, PlainPart p.2) ∧ (∀ p ∈ twoMixedVoices, ∀ m ∈ partElems p.2, NoGraceChords m) ∧ (∀ p ∈ twoMixedVoices, ∀ m ∈ partElems p.2, AllWholeKept m) ∧
    (getScore (twoMixedVoices.map (·.1)) twoMixedVoices).map (·.1) = some 1 := by
  refine ⟨by decide, by decide, ?_, by simp [twoMixedVoices, partElems, exWholeNote, NoGraceChords, nextIsChord], ?_, by decide +kernel⟩
  · intro p hp
    simp only [twoMixedVoices, List.mem_singleton] at hp
    subst hp
    refine ⟨by simp, by simp [partElems, declares], ⟨1, ⟨by decide, ?_, .inl rfl⟩, ?_⟩, ?_⟩
    · intro k hk
      simp [PartMentions, Mentions, exWholeNote] at hk
    · simp only [partElems, PartTimed, List.map_cons, List.map_nil, and_true]
      refine ⟨?_, ?_⟩
      · simp only [exWholeNote, WholeTimed, and_true]
        refine ⟨?_, ⟨1, rfl⟩, by decide, by simp, by simp, ⟨1, rfl⟩, by decide, by simp, by simp, ⟨1, rfl⟩, ?_, ⟨1, rfl⟩, by decide, ⟨1, rfl⟩, by decide, by simp, by simp⟩
        · intro d hd; exact ⟨1, by decide, by simpa using hd.symm⟩
        · simp [Clock.step, Clock.init, Clock.quarters]
      · exact ⟨by decide, by simp [exWholeNote], by simp [exWholeNote]⟩
    · simp [partElems, exWholeNote, PlainChords, nextIsChord]
  · intro p hp m hm n hn
    simp only [twoMixedVoices, List.mem_singleton] at hp
    subst hp
    simp only [partElems, List.map_cons, List.map_nil, List.mem_singleton, exWholeNote] at hm
    subst hm
    simp only [List.mem_cons, Elem.note.injEq, reduceCtorEq, List.not_mem_nil, or_false, false_or] at hn
    rcases hn with rfl | rfl | rfl
    · exact ⟨_, rfl, ⟨_, mixed_whole⟩⟩
    · exact ⟨_, rfl, ⟨_, mixed_whole⟩⟩
    · exact ⟨_, rfl, ⟨_, mixed_whole⟩⟩

/-- and has no ties -/
example : ∀ p ∈ twoMixedVoices, ∀ m ∈ partPlaced 1 (partElems p.2), NoTies m := by
  intro p hp m hm q hq x hx
  simp only [twoMixedVoices, List.mem_singleton] at hp
  subst hp
  simp only [partElems, List.map_cons, List.map_nil, partPlaced, List.mem_singleton] at hm
  subst hm
  obtain ⟨n, h1, h2⟩ := placed_content hq
  simp only [List.mem_cons, Elem.note.injEq, reduceCtorEq, exWholeNote, List.not_mem_nil, or_false, false_or] at h1
  rw [← h2] at hx
  rcases h1 with rfl | rfl | rfl <;> cases hx <;> rfl

end Mx.Props
