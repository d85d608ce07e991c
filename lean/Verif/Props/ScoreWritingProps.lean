import Verif.Proofs.ScoreWriting
import Verif.Props.DirectionProps

/-
C89: exactly which scores can be written.
-/
namespace Mx.Props
open Mx.Spec Mx.Measure Mx.Writing
open Mx.Directions (getDirectionData ElementXml)

/-- **C89** Writing a score (in which no number overflows) ends with an exception exactly when one of its directions, in whatever part, measure and staff, has a tempo that is not a number of beats per
minute.  Whatever the times of notes, directions, clefs and keys, their order, the numbers of the voices, the chords and grace notes: nothing else stops the writer. -/
theorem C89_throws (G : Int) (parts : List (PartData Content)) (h : writePartsE G parts ≠ .error .undefined) :
    writePartsE G parts = .error .throws ↔ ∃ d, InScore d parts ∧ OtherTempoIn d := by
  rcases parts_written (G := G) (l := parts) with hu | ⟨h1, h2⟩
  · exact absurd hu h
  · refine ⟨fun ht => ?_, h1⟩
    by_contra hn
    rw [h2 hn] at ht
    cases ht

/-- **C89** If no direction has such a tempo, then every part and every measure is written, as the other properties of the writer (C04, C30, C48) describe it. -/
theorem C89_written (G : Int) (parts : List (PartData Content)) (h : writePartsE G parts ≠ .error .undefined) (hn : ∀ d, InScore d parts → ¬ OtherTempoIn d) :
    writePartsE G parts = .ok (parts.map (fun p => writePart G p.transposition p.measures)) := by
  rcases parts_written (G := G) (l := parts) with hu | ⟨_, h2⟩
  · exact absurd hu h
  · exact h2 (by rintro ⟨d, hd, hx⟩; exact hn d hd hx)

/-- **C89** A score that has been loaded cannot be written exactly when it has been loaded from a file with a metronome mark of two beat units or one whose number of beats is not an integer: `C62_read` says
which directions these are. -/
theorem C89_loaded (G : Int) (parts : List (PartData Content)) (h : writePartsE G parts ≠ .error .undefined) (origin : Mx.Directions.DirectionData → Int × ElementXml)
    (ho : ∀ d, InScore d parts → ∀ x, d.content = some x → getDirectionData (origin x).1 (origin x).2 = .ok x) :
    writePartsE G parts = .error .throws ↔
      ∃ d, InScore d parts ∧ ∃ x, d.content = some x ∧ ∃ y, (origin x).2 = .direction y ∧ ∃ z ∈ y.types, OtherTempo z := by
  rw [C89_throws G parts h]
  refine exists_congr fun d => and_congr_right fun hd => ?_
  unfold OtherTempoIn
  refine exists_congr fun x => and_congr_right fun hx => ?_
  have hr := ho d hd x hx
  cases hs : (origin x).2 with
  | direction y =>
    rw [hs] at hr
    rw [C62_read _ y x hr]
    exact ⟨fun hz => ⟨y, rfl, hz⟩, fun ⟨_, he, hz⟩ => by cases he; exact hz⟩
  | harmony y =>
    rw [hs] at hr
    obtain ⟨_, _, hr⟩ := bind_ok hr
    obtain ⟨_, _, hr⟩ := bind_ok hr
    obtain ⟨_, _, hr⟩ := bind_ok hr
    refine ⟨fun ⟨t, ht, _⟩ => ?_, fun ⟨_, he, _⟩ => by cases he⟩
    rw [← Except.ok.inj hr] at ht
    cases ht

/-- The part of the example: in the first measure two staves; the first with two voices, so that the writer goes back, notes before the beginning of the measure, a chord, a direction behind the
last note; the second with directions that are not in order. -/
def disorderly (tempo : Mx.Directions.TempoData) : PartData Content :=
  { uniqueId := chars "P1"
    measures :=
      [(⟨true, false, 1⟩,
        { staves :=
            [{ clefs := [⟨0, none⟩, ⟨-3, none⟩], keys := [⟨7, 0, true, none⟩]
               voices := [(0, [⟨-5, 4, false, .normal, -1, none⟩, ⟨4, 4, true, .normal, -1, none⟩, ⟨4, 4, true, .normal, -1, none⟩]), (-2, [⟨0, -8, false, .grace, -1, none⟩, ⟨0, 8, false, .normal, 3, none⟩])]
               directions := [⟨40, false, some { words := [{ text := chars "rit." }] }⟩] },
             { clefs := [], keys := [], voices := [(1, [⟨2, 4, false, .normal, -1, none⟩])]
               directions := [⟨6, true, some { marks := [{ markType := .mf, name := chars "mf" }] }⟩, ⟨-1, true, some { tempos := [tempo] }⟩] }]
          keys := [⟨0, -1, true, none⟩], barlines := [⟨9, .right, none⟩] }),
       (⟨false, false, 0⟩, { staves := [], keys := [], barlines := [] })] }

/-- a tempo of 90 quarter notes per minute -/
def ninety : Mx.Directions.TempoData := { tempoType := .beatsPerMinute, beatsPerMinute := { durationName := .quarter, dots := 0, beatsPerMinute := 90 } }

theorem disorderly_defined : writePartsE 4 [disorderly ninety, disorderly ninety] ≠ .error .undefined := by
  intro h
  have h2 : (writePartsE 4 [disorderly ninety, disorderly ninety]).isOk = true := by decide +kernel
  rw [h] at h2
  cases h2

/-- The example is written, sixteen elements in the first measure of each part. -/
example : writePartsE 4 [disorderly ninety, disorderly ninety] = .ok ([disorderly ninety, disorderly ninety].map (fun p => writePart 4 p.transposition p.measures)) := by
  refine C89_written 4 _ disorderly_defined ?_
  rintro d ⟨p, hp, x, hx, s, hs, hd⟩ ⟨c, hc, t, ht, hb⟩
  simp only [List.mem_cons, List.not_mem_nil, or_false, or_self] at hp
  subst hp
  simp only [disorderly, List.mem_cons, List.not_mem_nil, or_false] at hx
  rcases hx with rfl | rfl
  · simp only [List.mem_cons, List.not_mem_nil, or_false] at hs
    rcases hs with rfl | rfl
    · simp only [List.mem_cons, List.not_mem_nil, or_false] at hd
      subst hd
      cases hc
      cases ht
    · simp only [List.mem_cons, List.not_mem_nil, or_false] at hd
      rcases hd with rfl | rfl
      · cases hc
        cases ht
      · cases hc
        rw [List.mem_singleton.mp ht] at hb
        exact hb rfl
  · cases hs

example : (writePart 4 none (disorderly ninety).measures).map List.length = [16, 0] := by decide +kernel

/-- **C89** is not about all scores being written: a tempo that is a text, as `api::TempoData` offers it, on the second staff of the second part keeps the whole score from being written. -/
theorem C89_text_tempo : writePartsE 4 [disorderly ninety, disorderly { tempoType := .tempoText, tempoText := chars "Allegro" }] = .error .throws := by
  decide +kernel

/-- the metronome mark of a file: 90.5 quarter notes per minute -/
def fractional : ElementXml := .direction { types := [.metronome (.perMinute (chars "quarter") 0 (chars "90.5"))] }

/-- what it is in the data -/
def fractionalData : Mx.Directions.DirectionData :=
  { isStaffValueSpecified := false
    tempos := [{ tempoType := .tempoText, beatsPerMinute := { durationName := .quarter, dots := 0 }, tempoText := chars "90.5" }] }

/-- a part that has been loaded with it -/
def loadedPart : PartData Content :=
  { uniqueId := chars "P1"
    measures := [(⟨false, false, 0⟩, { staves := [{ clefs := [], keys := [], voices := [], directions := [⟨0, false, some fractionalData⟩] }], keys := [], barlines := [] })] }

/-- The hypotheses of `C89_loaded` for it: it comes from the file, and it cannot be written. -/
example : (∀ d, InScore d [loadedPart] → ∀ x, d.content = some x → getDirectionData 0 fractional = .ok x) ∧ writePartsE 1 [loadedPart] = .error .throws := by
  refine ⟨?_, by decide +kernel⟩
  rintro d ⟨p, hp, y, hy, s, hs, hd⟩ x hx
  rw [List.mem_singleton.mp hp] at hy
  rw [List.mem_singleton.mp hy] at hs
  rw [List.mem_singleton.mp hs] at hd
  rw [List.mem_singleton.mp hd] at hx
  cases hx
  decide +kernel

/-- A tempo that has just been made (`TempoData{}`) keeps the score from being written, too. -/
theorem C89_default_tempo : writePartsE 4 [disorderly {}] = .error .throws := by
  decide +kernel

end Mx.Props
