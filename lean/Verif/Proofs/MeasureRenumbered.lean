import Verif.Proofs.MeasureSettles
import Verif.Spec.MeasureSettles

/-! Notes with other voice numbers. -/
namespace Mx.Measure
open Spec

variable {P : Type}

theorem chordsComplete_numbered (k : Int) : ∀ (ns : List (NoteData P)) (prev : Option (NoteData P)), ChordsComplete prev ns →
    ChordsComplete (prev.map (numbered k)) (ns.map (numbered k)) := by
  intro ns
  induction ns with
  | nil => intro prev _; trivial
  | cons n rest ih =>
    intro prev h
    refine ⟨?_, ih (some n) h.2⟩
    intro hc
    rcases h.1 hc with ⟨p, h1, h2⟩ | ⟨q, h1, h2⟩
    · exact Or.inl ⟨numbered k p, by rw [Option.mem_def.mp h1]; simp, h2⟩
    · exact Or.inr ⟨numbered k q, by rw [List.head?_map, Option.mem_def.mp h1]; simp, h2⟩

theorem voiceStart_numbered (k : Int) (ns : List (NoteData P)) : voiceStart (ns.map (numbered k)) = voiceStart ns := by
  unfold voiceStart
  rw [List.head?_map]
  cases ns.head? <;> rfl

theorem voiceEnd_numbered (k : Int) (ns : List (NoteData P)) : voiceEnd (ns.map (numbered k)) = voiceEnd ns := by
  unfold voiceEnd
  rw [List.getLast?_map]
  cases ns.getLast? <;> rfl

/-- Voices that survive do so under other numbers of their notes. -/
theorem readable_expected {s s' : StaffData P} (h : StaffReadable s) (e : s'.voices = voicesExpected s) : StaffReadable s' := by
  have hmem : ∀ w ∈ s'.voices, ∃ v ∈ StaffData.sounding s, w = (v.1, v.2.map (numbered (v.1 + 1))) := by
    intro w hw
    rw [e] at hw
    obtain ⟨v, hv, e⟩ := List.mem_map.mp hw
    exact ⟨v, hv, e.symm⟩
  have hsub : ∀ v ∈ StaffData.sounding s, v ∈ s.voices := fun v hv => (List.mem_filter.mp hv).1
  refine ⟨?_, ?_, ?_, ?_, ?_⟩
  · intro w hw
    obtain ⟨v, hv, rfl⟩ := hmem w hw
    exact h.keys v (hsub v hv)
  · rw [e]
    unfold voicesExpected
    rw [List.pairwise_map]
    exact h.ascending.filter _
  · intro w hw
    obtain ⟨v, hv, rfl⟩ := hmem w hw
    exact (List.isChain_map _).mpr (h.noOverlap v (hsub v hv))
  · intro w hw
    obtain ⟨v, hv, rfl⟩ := hmem w hw
    exact chordsComplete_numbered _ _ none (h.chords v (hsub v hv))
  · have hs : StaffData.sounding s' = s'.voices := by
      unfold StaffData.sounding
      rw [List.filter_eq_self]
      intro w hw
      obtain ⟨v, hv, rfl⟩ := hmem w hw
      have := (List.mem_filter.mp hv).2
      simpa using this
    rw [hs, e]
    unfold voicesExpected
    rw [List.isChain_map]
    refine h.overlap.imp ?_
    intro a b hab
    show voiceStart (b.2.map (numbered _)) < voiceEnd (a.2.map (numbered _))
    rw [voiceStart_numbered, voiceEnd_numbered]
    exact hab

theorem voiceOk_expected {s s' : StaffData P} (h : ∀ v ∈ s.voices, VoiceKept v.2) (e : s'.voices = voicesExpected s) : ∀ v ∈ s'.voices, VoiceKept v.2 := by
  intro w hw
  rw [e] at hw
  obtain ⟨v, hv, rfl⟩ := List.mem_map.mp hw
  have hv := h v (List.mem_filter.mp hv).1
  refine ⟨?_, ?_⟩
  · intro n hn
    obtain ⟨x, hx, rfl⟩ := List.mem_map.mp hn
    exact hv.1 x hx
  · exact (List.isChain_map _).mpr hv.2

theorem expected_music (s : StaffData P) (hn : NoEmpty s.voices) :
    (voicesExpected s).map (fun v => (v.1, v.2.map (fun n => { n with userVoice := 0 }))) = s.voices.map (fun v => (v.1, v.2.map (fun n => { n with userVoice := 0 }))) := by
  have hs : StaffData.sounding s = s.voices := by
    unfold StaffData.sounding
    rw [List.filter_eq_self]
    intro w hw
    simpa using hn w hw
  unfold voicesExpected
  rw [hs]
  simp [List.map_map, Function.comp_def]

theorem expected_expected {s s' : StaffData P} (e : s'.voices = voicesExpected s) : voicesExpected s' = s'.voices := by
  have hs : StaffData.sounding s' = s'.voices := by
    unfold StaffData.sounding
    rw [List.filter_eq_self]
    intro w hw
    rw [e] at hw
    obtain ⟨v, hv, rfl⟩ := List.mem_map.mp hw
    have := (List.mem_filter.mp hv).2
    simpa using this
  unfold voicesExpected
  rw [hs, e]
  unfold voicesExpected
  simp [List.map_map, Function.comp_def]

theorem noEmpty_expected {s s' : StaffData P} (e : s'.voices = voicesExpected s) : NoEmpty s'.voices := by
  intro w hw
  rw [e] at hw
  obtain ⟨v, hv, rfl⟩ := List.mem_map.mp hw
  have := (List.mem_filter.mp hv).2
  simpa using this

end Mx.Measure
