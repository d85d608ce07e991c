import Verif.Proofs.NotesThrough
import Verif.Props.PassThroughProps
import Verif.Props.NoteFileProps

/-!
# Property C98: a file that goes through the program keeps its notes, with what they say
Specification: `Verif/Spec/NotesThrough.lean`, with `Verif/Spec/NoteSaid.lean` and MusicXML's time in `Verif/Spec/MusicXMLClock.lean`.
-/
namespace Mx.Props
open _root_.Spec Mx.Measure

variable {Q : Type}

theorem kept_parts {file : List (Str × List (List (Child (NoteXml ⊕ Q))))} {written : List (Str × List (List (Elem (NoteXml ⊕ Q))))} {k : Nat} (hk : ∀ p ∈ file, ∀ m ∈ partElems p.2, AllKept m)
    (h : List.Forall₂ (fun p q => List.Forall₂ SoundsLike (partPlaced 1 (partElems p.2)) (partPlaced 1 q.2)) file written) :
    (∃ saved, PartsPass k written saved) ∧
    ∀ saved, PartsPass k written saved → List.Forall₂ (fun p q => List.Forall₂ SameNotes (partPlaced 1 (partElems p.2)) (partPlaced 1 q.2)) file saved := by
  have h' : List.Forall₂ (fun (p q : Str × List (List (Elem (NoteXml ⊕ Q)))) => List.Forall₂ SoundsLike (partPlaced 1 p.2) (partPlaced 1 q.2)) (file.map (fun p => (p.1, partElems p.2))) written := by
    rw [List.forall₂_map_left_iff]; exact h
  have hk' : ∀ p ∈ file.map (fun p => (p.1, partElems p.2)), ∀ m ∈ p.2, AllKept m := by
    intro p hp
    obtain ⟨q, hq, rfl⟩ := List.mem_map.mp hp
    exact hk q hq
  obtain ⟨h1, h2⟩ := file_passes (k := k) hk' h'
  refine ⟨h1, fun saved hs => ?_⟩
  have := h2 saved hs
  rw [List.forall₂_map_left_iff] at this
  exact this

/-- **C98 (partial)** A file is loaded, and what was loaded is saved.  Then it can be written, and part by part and measure by measure it has exactly the same notes at exactly the same times, equally long and on the same staves, and each of them
says the same: pitch, rest, ties, type, dots, accidental, time modification, stem, notehead and beams.

Missing, because the code does not do it: the conditions of C92 (`PlainPart`) and of C97 (`FileNoteKept`). -/
theorem C98_same_notes_partial (file : List (Str × List (List (Child (NoteXml ⊕ Q))))) (s : Score (NoteXml ⊕ Q)) (hne : file ≠ []) (hids : (file.map (·.1)).Nodup) (hf : ∀ p ∈ file, PlainPart p.2)
    (hk : ∀ p ∈ file, ∀ m ∈ partElems p.2, AllKept m)
    (hl : getScore (file.map (·.1)) file = some (s.ticksPerQuarter, s.parts.map (fun p => p.measures.map (·.2)))) (ht : 0 < s.ticksPerQuarter) :
    (∃ saved, PartsPass 1 (writeScore s.ticksPerQuarter s.parts).2 saved) ∧
    ∀ saved, PartsPass 1 (writeScore s.ticksPerQuarter s.parts).2 saved →
      List.Forall₂ (fun p q => List.Forall₂ SameNotes (partPlaced 1 (partElems p.2)) (partPlaced 1 q.2)) file saved :=
  kept_parts hk (C92_same_music_partial file s hne hids hf hl ht)

/-- **C98 (partial)** The same for ever: however many times what was loaded is saved and loaded, the notes of the file at the end are those of the file at the beginning, at the same times, and say the same. -/
theorem C98_for_ever_partial (file : List (Str × List (List (Child (NoteXml ⊕ Q))))) (s : Score (NoteXml ⊕ Q)) (hne : file ≠ []) (hids : (file.map (fun p => xsID p.1)).Nodup) (hf : ∀ p ∈ file, PlainPart p.2)
    (hg : ∀ p ∈ file, ∀ m ∈ partElems p.2, NoGraceChords m) (hk : ∀ p ∈ file, ∀ m ∈ partElems p.2, AllKept m)
    (hl : getScore (file.map (·.1)) file = some (s.ticksPerQuarter, s.parts.map (fun p => p.measures.map (·.2)))) (hi : s.parts.map (·.uniqueId) = file.map (·.1)) (ht : 0 < s.ticksPerQuarter) (k : Nat) :
    (∃ sk, AfterSaves k s sk) ∧ ∀ sk, AfterSaves k s sk →
      (∃ saved, PartsPass (k + 1) (writeScore sk.ticksPerQuarter sk.parts).2 saved) ∧
      ∀ saved, PartsPass (k + 1) (writeScore sk.ticksPerQuarter sk.parts).2 saved →
        List.Forall₂ (fun p q => List.Forall₂ SameNotes (partPlaced 1 (partElems p.2)) (partPlaced 1 q.2)) file saved := by
  obtain ⟨h1, h2⟩ := C92_for_ever_partial file s hne hids hf hg hl hi ht k
  exact ⟨h1, fun sk hs => kept_parts hk (h2 sk hs)⟩

/-! ### examples -/

/-- a `<note>` of one of two kinds -/
def exThroughNote (chord : Bool) (dur : Int) (voice : Option Int) (x : NoteXml) : Child (NoteXml ⊕ Unit) := { elem := .note ⟨chord, .normal, dur * 1000000, none, voice, .inl x⟩ }

/-- A quarter note E4 of the same kind as `plainNote`. -/
def plainE : NoteXml := { plainNote with sound := .pitch (chars "E") none (chars "4") }

/-- Two voices: a chord of two notes, and a note that comes a quarter note later. -/
def twoVoices : List (Str × List (List (Child (NoteXml ⊕ Unit)))) :=
  [(chars "P1", [[{ elem := .attributes { divisions := some 1000000 } }, exThroughNote false 1 (some 1) plainNote, exThroughNote true 1 (some 1) plainE, { elem := .backup 1000000 }, { elem := .forward 1000000 }, exThroughNote false 1 (some 2) plainE]])]

theorem plainNote_kept : KeptNote plainNote := by
  refine ⟨⟨{ kind := .normal, tieStart := false, tieStop := false, sound := .pitch .c 0 4, type := some .quarter, dots := 0, accidental := none, actualNotes := 1, normalNotes := 1, stem := none, notehead := .normal, beams := [] }, ?_, ?_⟩,
    by simp [plainNote]⟩
  · refine ⟨rfl, by simp [plainNote], by simp [plainNote], by simp [plainNote], ⟨rfl, rfl, ?_⟩, rfl, rfl, trivial, ⟨rfl, rfl⟩, rfl, .inr ⟨rfl, rfl⟩, .nil⟩
    exact ⟨[], [], ['4'], [], rfl, by simp, by simp, by simp, by decide, .inr ⟨.inl rfl, by decide⟩⟩
  · exact ⟨⟨by decide, by decide, ⟨0, by norm_num⟩, by norm_num⟩, by decide, by simp, by simp, by decide, by decide, by decide, ⟨by decide, by decide⟩⟩

theorem plainE_kept : KeptNote plainE := by
  refine ⟨⟨{ kind := .normal, tieStart := false, tieStop := false, sound := .pitch .e 0 4, type := some .quarter, dots := 0, accidental := none, actualNotes := 1, normalNotes := 1, stem := none, notehead := .normal, beams := [] }, ?_, ?_⟩,
    by simp [plainE, plainNote]⟩
  · refine ⟨rfl, by simp [plainE, plainNote], by simp [plainE, plainNote], by simp [plainE, plainNote], ⟨rfl, rfl, ?_⟩, rfl, rfl, trivial, ⟨rfl, rfl⟩, rfl, .inr ⟨rfl, rfl⟩, .nil⟩
    exact ⟨[], [], ['4'], [], rfl, by simp, by simp, by simp, by decide, .inr ⟨.inl rfl, by decide⟩⟩
  · exact ⟨⟨by decide, by decide, ⟨0, by norm_num⟩, by norm_num⟩, by decide, by simp, by simp, by decide, by decide, by decide, ⟨by decide, by decide⟩⟩

/-- The example meets the conditions. -/
example : twoVoices ≠ [] ∧ (twoVoices.map (·.1)).Nodup ∧ (∀ p ∈ twoVoices, PlainPart p.2) ∧ (∀ p ∈ twoVoices, ∀ m ∈ partElems p.2, NoGraceChords m) ∧ (∀ p ∈ twoVoices, ∀ m ∈ partElems p.2, AllKept m) ∧
    (getScore (twoVoices.map (·.1)) twoVoices).map (·.1) = some 1 := by
  refine ⟨by decide, by decide, ?_, by simp [twoVoices, partElems, exThroughNote, NoGraceChords, nextIsChord], ?_, by decide +kernel⟩
  · intro p hp
    simp only [twoVoices, List.mem_singleton] at hp
    subst hp
    refine ⟨by simp, by simp [partElems, declares], ⟨1, ⟨by decide, ?_, .inl rfl⟩, ?_⟩, ?_⟩
    · intro k hk
      simp [PartMentions, Mentions, exThroughNote] at hk
    · simp only [partElems, PartTimed, List.map_cons, List.map_nil, and_true]
      refine ⟨?_, ?_⟩
      · simp only [exThroughNote, WholeTimed, and_true]
        refine ⟨?_, ⟨1, rfl⟩, by decide, by simp, by simp, ⟨1, rfl⟩, by decide, by simp, by simp, ⟨1, rfl⟩, ?_, ⟨1, rfl⟩, by decide, ⟨1, rfl⟩, by decide, by simp, by simp⟩
        · intro d hd; exact ⟨1, by decide, by simpa using hd.symm⟩
        · simp [Clock.step, Clock.init, Clock.quarters]
      · exact ⟨by decide, by simp [exThroughNote], by simp [exThroughNote]⟩
    · simp [partElems, exThroughNote, PlainChords, nextIsChord]
  · intro p hp m hm n hn
    simp only [twoVoices, List.mem_singleton] at hp
    subst hp
    simp only [partElems, List.map_cons, List.map_nil, List.mem_singleton, exThroughNote] at hm
    subst hm
    simp only [List.mem_cons, Elem.note.injEq, reduceCtorEq, List.not_mem_nil, or_false, false_or] at hn
    rcases hn with rfl | rfl | rfl
    · exact ⟨_, rfl, plainNote_kept⟩
    · exact ⟨_, rfl, plainE_kept⟩
    · exact ⟨_, rfl, plainE_kept⟩

end Mx.Props
