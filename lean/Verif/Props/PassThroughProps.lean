import Verif.Proofs.PassAgain
import Verif.Props.ScoreTimeProps
import Verif.Props.ScoreSettlesProps

/-!
# Property C92: a file that goes through the program keeps its music
Specification: `Verif/Spec/PassThrough.lean`, with MusicXML's time in `Verif/Spec/MusicXMLClock.lean`.
-/
namespace Mx.Props
open _root_.Spec Mx.Measure

variable {P : Type}

/-- A file that was loaded. -/
theorem file_loaded {file : List (Str × List (List (Child P)))} {G : Int} {o : List (List (MeasureData P))} (hids : (file.map (·.1)).Nodup) (hf : ∀ p ∈ file, PlainPart p.2)
    (h : getScore (file.map (·.1)) file = some (G, o)) (hG : 0 < G) : List.Forall₂ (Loaded G) (file.map (·.2)) o := by
  unfold getScore at h
  cases hm : findMaxDivisionsPerQuarter (file.map (fun p => partElems p.2)) with
  | error e => rw [hm] at h; cases h
  | ok G' =>
    rw [hm] at h
    simp only [Option.map_eq_some_iff, Prod.mk.injEq] at h
    obtain ⟨o', h1, rfl, rfl⟩ := h
    rw [reconcile_all file hids] at h1
    obtain ⟨o2, g1, g2⟩ := getParts_passing hG (file.map (·.2)) (-1) (by
      intro p hp
      obtain ⟨q, hq, rfl⟩ := List.mem_map.mp hp
      refine ⟨hf q hq, ?_⟩
      intro m hm' a ha k hk hx
      have := (C05_scale_is_least_common_multiple _ G' hm).1 (partElems q.2) (List.mem_map.mpr ⟨q, hq, rfl⟩) m hm' a ha _ hx
      have hr : roundMicro (k * 1000000) = k := roundMicro_mul k
      rw [hr] at this
      exact this hk)
    rw [h1] at g1
    cases g1
    exact g2

/-- What is saved of a score that was loaded sounds like the file. -/
theorem saved_sounds {file : List (Str × List (List (Child P)))} {s : Score P} (hne : file ≠ []) (ht : 0 < s.ticksPerQuarter)
    (h : List.Forall₂ (fun p (q : PartData P) => Loaded s.ticksPerQuarter p.2 (q.measures.map (·.2))) file s.parts) :
    List.Forall₂ (fun p q => List.Forall₂ SoundsLike (partPlaced 1 (partElems p.2)) (partPlaced 1 q.2)) file (writeScore s.ticksPerQuarter s.parts).2 := by
  have hp : s.parts ≠ [] := by
    intro e
    rw [e] at h
    cases h
    exact hne rfl
  obtain ⟨q, qs, hq⟩ := List.exists_cons_of_ne_nil hp
  have hw : (writeScore s.ticksPerQuarter s.parts).2 = s.parts.map (fun q => (xsID q.uniqueId, writePart s.ticksPerQuarter q.transposition q.measures)) := by
    rw [hq]; rfl
  rw [hw, List.forall₂_map_right_iff]
  exact h.imp (fun p q hpq => loaded_written ht hpq 1)

/-- **C92** A file goes through the program: it is loaded, and what was loaded is saved.  Then, part by part and measure by measure, exactly the same notes are heard at exactly the same times (in quarter notes since
the beginning of the measure), for the same time and on the same staves, whatever divisions the parts and measures of the file use, however its voices are arranged with backups and forwards, and whatever else is in it.

The conditions are in `PlainPart`: durations are whole numbers of divisions, a part declares its divisions before its first note, backups do not leave the measure, the notes of a chord are equally long, and a chord of grace notes is not
followed by a chord at once (this last one is no condition of MusicXML: see `C92_grace_chord`).  Voice numbers may change (C33). -/
theorem C92_same_music_partial (file : List (Str × List (List (Child P)))) (s : Score P) (hne : file ≠ []) (hids : (file.map (·.1)).Nodup) (hf : ∀ p ∈ file, PlainPart p.2)
    (hl : getScore (file.map (·.1)) file = some (s.ticksPerQuarter, s.parts.map (fun p => p.measures.map (·.2)))) (ht : 0 < s.ticksPerQuarter) :
    List.Forall₂ (fun p q => List.Forall₂ SoundsLike (partPlaced 1 (partElems p.2)) (partPlaced 1 q.2)) file (writeScore s.ticksPerQuarter s.parts).2 := by
  have h := file_loaded hids hf hl ht
  rw [List.forall₂_map_left_iff, List.forall₂_map_right_iff] at h
  exact saved_sounds hne ht h

/-- **C92** The same for ever: a file is loaded, and what was loaded is saved and loaded any number of times.  Every load succeeds, and in what is saved at last exactly the same notes are heard at the same times
and on the same staves as in the file at the beginning.

Besides the conditions of `C92_same_music_partial`, no grace notes are in chords, and the ids of the parts are different (also after characters that XML does not allow have been replaced, `xsID`). -/
theorem C92_for_ever_partial (file : List (Str × List (List (Child P)))) (s : Score P) (hne : file ≠ []) (hids : (file.map (fun p => xsID p.1)).Nodup) (hf : ∀ p ∈ file, PlainPart p.2)
    (hg : ∀ p ∈ file, ∀ m ∈ partElems p.2, NoGraceChords m)
    (hl : getScore (file.map (·.1)) file = some (s.ticksPerQuarter, s.parts.map (fun p => p.measures.map (·.2)))) (hi : s.parts.map (·.uniqueId) = file.map (·.1)) (ht : 0 < s.ticksPerQuarter) (k : Nat) :
    (∃ sk, AfterSaves k s sk) ∧ ∀ sk, AfterSaves k s sk →
      List.Forall₂ (fun p q => List.Forall₂ SoundsLike (partPlaced 1 (partElems p.2)) (partPlaced 1 q.2)) file (writeScore sk.ticksPerQuarter sk.parts).2 := by
  have hids' : (file.map (·.1)).Nodup := by
    have : file.map (fun p => xsID p.1) = (file.map (·.1)).map xsID := by rw [List.map_map]; rfl
    rw [this] at hids
    exact hids.of_map _
  have h := file_loaded hids' hf hl ht
  have hfirm : FirmScore file s := by
    have hl' := hl
    unfold getScore at hl'
    cases hG : findMaxDivisionsPerQuarter (file.map (fun p => partElems p.2)) with
    | error e => rw [hG] at hl'; cases hl'
    | ok G =>
      rw [hG] at hl'
      simp only [Option.map_eq_some_iff, Prod.mk.injEq] at hl'
      obtain ⟨o, ho, rfl, rfl⟩ := hl'
      rw [reconcile_all file hids'] at ho
      rw [List.forall₂_map_left_iff, List.forall₂_map_right_iff] at h
      have hok : ∀ ms ∈ s.parts.map (fun p => p.measures.map (·.2)), ∀ m ∈ ms, MeasureOk m := by
        intro ms hms m hm
        obtain ⟨q, hq, rfl⟩ := List.mem_map.mp hms
        obtain ⟨i, hi⟩ := List.getElem?_of_mem hq
        have hlt := (List.getElem?_eq_some_iff.mp hi).1
        have := h.get (i := i) (by rw [h.length_eq]; exact hlt) hlt
        rw [show s.parts.get ⟨i, hlt⟩ = q from (List.getElem?_eq_some_iff.mp hi).2] at this
        obtain ⟨N, _, _, h3, _⟩ := this
        exact (h3 m hm).2
      have hfm := getParts_firm (file.map (·.2)) (-1) _ (by
        intro p hp
        obtain ⟨q, hq, rfl⟩ := List.mem_map.mp hp
        exact hg q hq) ho hok
      refine ⟨⟨ht, lcmSet_small hG⟩, ?_, ?_, ?_⟩
      · intro e
        rw [e] at h
        cases h
        exact hne rfl
      · refine List.forall₂_iff_get.mpr ⟨h.length_eq, ?_⟩
        intro i hi hi'
        obtain ⟨N, h1, h2, h3, h4⟩ := h.get hi hi'
        exact ⟨N, h1, h2, fun m hm => ⟨(h3 m hm).1, (h3 m hm).2, hfm _ (List.mem_map_of_mem (List.getElem_mem hi')) m hm⟩, h4⟩
      · have : s.parts.map (fun q => xsID q.uniqueId) = file.map (fun p => xsID p.1) := by
          have := congrArg (List.map xsID) hi
          rw [List.map_map, List.map_map] at this
          exact this
        rw [this]
        exact hids
  constructor
  · induction k with
    | zero => exact ⟨s, .none s⟩
    | succ k ih =>
      obtain ⟨sk, hk⟩ := ih
      obtain ⟨s', h'⟩ := savedAndLoaded_goesOn (firm_after hk hfirm).loaded
      exact ⟨s', .more hk h'⟩
  · intro sk hk
    have hk := firm_after hk hfirm
    exact saved_sounds hne hk.scale.1 (hk.parts.imp (fun p q h => h.loaded))

/-! ### examples -/

/-- What is loaded from a file, with something for what is not modelled. -/
def loadFile (file : List (Str × List (List (Child String)))) : Option (Score String) :=
  (getScore (file.map (·.1)) file).map (fun r =>
    { ticksPerQuarter := r.1, parts := List.zipWith (fun i ms => { uniqueId := i, measures := ms.map (fun m => (exExtras, m)) }) (file.map (·.1)) r.2 })

/-- a `<note>` -/
def exN (chord : Bool) (kind : NoteKind) (dur : Int) (staff voice : Option Int) (x : String) : Child String := { elem := .note ⟨chord, kind, dur * 1000000, staff, voice, x⟩ }

/-- Two parts with different divisions; a chord, a backup, a second staff, a grace note, a measure that begins with a forward. -/
def throughFile : List (Str × List (List (Child String))) :=
  [(chars "P1", [[{ elem := .attributes { divisions := some 2000000, staves := some 2 } }, exN false .normal 2 (some 1) (some 1) "c", exN true .normal 2 (some 1) (some 1) "e", { elem := .backup 2000000 },
      exN false .normal 1 (some 2) (some 5) "g", exN false .grace 0 (some 2) (some 5) "x", exN false .normal 1 (some 2) (some 5) "h"],
     [{ elem := .forward 1000000 }, exN false .normal 3 none none "a"]]),
   (chars "P2", [[{ elem := .attributes { divisions := some 3000000 } }, exN false .normal 1 none (some 3) "d", exN false .normal 2 none (some 1) "f"]])]

/-- A chord of grace notes, then a chord, then a note. -/
def graceFile : List (Str × List (List (Child String))) :=
  [(chars "P1", [[{ elem := .attributes { divisions := some 1000000 } }, exN false .grace 0 none none "x", exN true .grace 0 none none "y", exN false .normal 1 none none "c", exN true .normal 1 none none "e",
     exN false .normal 1 none none "d"]])]

/-- The same with a backup of nothing before the chord: two voices. -/
def graceVoices : List (Str × List (List (Child String))) :=
  [(chars "P1", [[{ elem := .attributes { divisions := some 1000000 } }, exN false .grace 0 none none "x", exN true .grace 0 none none "y", { elem := .backup 0 }, exN false .normal 1 none none "c",
     exN true .normal 1 none none "e", exN false .normal 1 none none "d"]])]

/-- start, length, staff and content of the notes of a file -/
def musicOf (file : List (Str × List (List (Child String)))) : List (List (List (ℚ × ℚ × Int × String))) := file.map (fun p => (partPlaced 1 (partElems p.2)).map (·.map Placed.heard))

/-- the same for what is saved -/
def savedMusic (s : Score String) : List (List (List (ℚ × ℚ × Int × String))) := (writeScore s.ticksPerQuarter s.parts).2.map (fun p => (partPlaced 1 p.2).map (·.map Placed.heard))

instance : DecidableEq (ℚ × ℚ × Int × String) := inferInstance
instance : DecidableEq (List (List (List (ℚ × ℚ × Int × String)))) := inferInstance

/-- The example is loaded with six ticks per quarter note, and what is saved sounds the same. -/
example : (loadFile throughFile).map (·.ticksPerQuarter) = some 6 ∧ (loadFile throughFile).map savedMusic = some (musicOf throughFile) ∧
    musicOf throughFile = [[[(0, 1, 0, "c"), (0, 1, 0, "e"), (0, 1 / 2, 1, "g"), (1 / 2, 0, 1, "x"), (1 / 2, 1 / 2, 1, "h")], [(1 / 2, 3 / 2, 0, "a")]], [[(0, 1 / 3, 0, "d"), (1 / 3, 2 / 3, 0, "f")]]] := by
  decide +kernel

/-- The example meets the conditions. -/
example : throughFile ≠ [] ∧ (throughFile.map (·.1)).Nodup ∧ ∀ p ∈ throughFile, PlainPart p.2 := by
  refine ⟨by decide, by decide, ?_⟩
  intro p hp
  simp only [throughFile, List.mem_cons, List.not_mem_nil, or_false] at hp
  rcases hp with rfl | rfl
  · refine ⟨by simp, by simp [partElems, declares], ⟨2, ⟨by decide, ?_, .inr ⟨_, List.mem_cons_self, _, List.mem_cons_self, .inr (.inr (.inr ⟨_, rfl, rfl⟩))⟩⟩, ?_⟩, ?_⟩
    · intro k hk
      simp [PartMentions, Mentions, exN] at hk
      omega
    · simp only [partElems, PartTimed, List.map_cons, List.map_nil, and_true]
      refine ⟨?_, ?_, ?_, ?_⟩
      · simp only [exN, WholeTimed, and_true]
        refine ⟨?_, ⟨2, rfl⟩, by decide, by simp, by simp, ⟨2, rfl⟩, by decide, by simp, by simp, ⟨2, rfl⟩, ?_, ⟨1, rfl⟩, by decide, by simp, by simp, ⟨0, rfl⟩, by decide, by simp, by simp, ⟨1, rfl⟩, by decide, by simp, by simp⟩
        · intro d hd; exact ⟨2, by decide, by simpa using hd.symm⟩
        · simp [Clock.step, Clock.init, Clock.quarters]
      · exact ⟨by decide, by simp [exN], by simp [exN]⟩
      · simp only [exN, WholeTimed, and_true]
        exact ⟨⟨1, rfl⟩, by decide, ⟨3, rfl⟩, by decide, by simp, by simp⟩
      · exact ⟨by decide, by simp [exN], by simp [exN]⟩
    · simp [partElems, exN, PlainChords, nextIsChord]
  · refine ⟨by simp, by simp [partElems, declares], ⟨1, ⟨by decide, ?_, .inl rfl⟩, ?_⟩, ?_⟩
    · intro k hk
      simp [PartMentions, Mentions, exN] at hk
    · simp only [partElems, PartTimed, List.map_cons, List.map_nil, and_true]
      refine ⟨?_, ?_⟩
      · simp only [exN, WholeTimed, and_true]
        refine ⟨?_, ⟨1, rfl⟩, by decide, by simp, by simp, ⟨2, rfl⟩, by decide, by simp, by simp⟩
        intro d hd; exact ⟨3, by decide, by simpa using hd.symm⟩
      · exact ⟨by decide, by simp [exN], by simp [exN]⟩
    · simp [partElems, exN, PlainChords, nextIsChord]

/-- The example also meets the conditions for ever. -/
example : (throughFile.map (fun p => xsID p.1)).Nodup ∧ (∀ p ∈ throughFile, ∀ m ∈ partElems p.2, NoGraceChords m) ∧ (loadFile throughFile).map (fun s => s.parts.map (·.uniqueId)) = some (throughFile.map (·.1)) ∧
    ((((loadFile throughFile).bind loadAgain).bind loadAgain).bind loadAgain).map savedMusic = some (musicOf throughFile) := by
  refine ⟨by decide +kernel, ?_, by decide +kernel, by decide +kernel⟩
  simp [throughFile, partElems, exN, NoGraceChords, nextIsChord]

/-- **C92 fails for a chord that comes right after a chord of grace notes**: its notes are saved as notes of the grace chord, which takes no time, so that the next note comes one quarter note too early (at 0 instead of 1). -/
theorem C92_grace_chord :
    musicOf graceFile = [[[(0, 0, 0, "x"), (0, 0, 0, "y"), (0, 1, 0, "c"), (0, 1, 0, "e"), (1, 1, 0, "d")]]] ∧
    (loadFile graceFile).map savedMusic = some [[[(0, 0, 0, "x"), (0, 0, 0, "y"), (0, 1, 0, "c"), (0, 1, 0, "e"), (0, 1, 0, "d")]]] := by
  decide +kernel

/-- **C92 for ever fails with chords of grace notes**: a file with a chord of grace notes in one voice and a chord at the same time in the next voice (as `C92_same_music_partial` allows) keeps its music the first time; but
both voices have become one, and the second time the last note comes too early. -/
theorem C92_second_time :
    (loadFile graceVoices).map savedMusic = some (musicOf graceVoices) ∧
    musicOf graceVoices = [[[(0, 0, 0, "x"), (0, 0, 0, "y"), (0, 1, 0, "c"), (0, 1, 0, "e"), (1, 1, 0, "d")]]] ∧
    ((loadFile graceVoices).bind loadAgain).map savedMusic = some [[[(0, 0, 0, "x"), (0, 0, 0, "y"), (0, 1, 0, "c"), (0, 1, 0, "e"), (0, 1, 0, "d")]]] := by
  decide +kernel

end Mx.Props
