import Verif.Proofs.ScoreSettles

/-!
# Property C91: whole scores settle
Specification: `Verif/Spec/ScoreSettles.lean`.
-/
namespace Mx.Props
open _root_.Spec Mx.Measure

variable {P : Type}

theorem loaded_after {k : Nat} {s s' : Score P} (h : AfterSaves k s s') (hs : GoodScore s) : GoodScore s' := by
  induction h with
  | none => exact hs
  | more _ h ih => exact savedAndLoaded_good (ih hs).scale.1 (ih hs).scale.2 (ih hs).hasMeasure h

theorem settled_after {k : Nat} {s s' : Score P} (h : AfterSaves k s s') (hs : SettledScore s) : SettledScore s' ∧ scoreMusic s' = scoreMusic s := by
  induction h with
  | none => exact ⟨hs, rfl⟩
  | more _ h ih =>
    obtain ⟨h1, h2⟩ := ih hs
    exact ⟨savedAndLoaded_settled h1.good.toLoadedScore h, (settled_same h1 h).trans h2⟩

/-- **C91** A score is saved in a file that can be loaded, whatever its notes, directions and clefs are, if no measure of a part has more staves than the first measure of the part
(otherwise it may be impossible: `C91_late_clef_fails`). -/
theorem C91_first_load (s : Score P) (ht : 0 < s.ticksPerQuarter) (hm : s.ticksPerQuarter ≤ INT_MAX) (hh : HasMeasure s.parts) (hs : ∀ p ∈ s.parts, StavesFit p.measures) :
    ∃ s1, SavedAndLoaded s s1 := savedAndLoaded_of_parts ht hm hh (fun p hp => partAgain_first ht (hs p hp))

/-- **C91** A score that was saved and loaded once can be saved and loaded ever after. -/
theorem C91_loads_ever_after (s s1 : Score P) (ht : 0 < s.ticksPerQuarter) (hm : s.ticksPerQuarter ≤ INT_MAX) (hh : HasMeasure s.parts) (h1 : SavedAndLoaded s s1) (k : Nat) :
    (∃ sk, AfterSaves k s1 sk) ∧ ∀ sk, AfterSaves k s1 sk → ∃ s', SavedAndLoaded sk s' := by
  have hg := savedAndLoaded_good ht hm hh h1
  have hall : ∀ k sk, AfterSaves k s1 sk → ∃ s', SavedAndLoaded sk s' := fun k sk h => savedAndLoaded_goesOn (loaded_after h hg).toLoadedScore
  refine ⟨?_, hall k⟩
  induction k with
  | zero => exact ⟨s1, .none s1⟩
  | succ k ih =>
    obtain ⟨sk, hk⟩ := ih
    obtain ⟨s', h'⟩ := hall k sk hk
    exact ⟨s', .more hk h'⟩

/-- **C91** Every score settles after it was saved and loaded twice: let it have any parts with any ids, also equal ones or ones that XML does not allow, parts without measures, measures with different
numbers of staves, and any notes, directions and clefs in its measures; after two saves and loads, no further one changes the ticks per quarter, the number, the order or the ids of the parts, the number of
measures or staves, any voice, note, direction or clef of any measure, or the time of any note or direction.
(`HasMeasure` leaves out scores without any measure: there is no music in them.) -/
theorem C91_settles (s s1 s2 sk : Score P) (k : Nat) (ht : 0 < s.ticksPerQuarter) (hm : s.ticksPerQuarter ≤ INT_MAX) (hh : HasMeasure s.parts) (h1 : SavedAndLoaded s s1)
    (h2 : SavedAndLoaded s1 s2) (hk : AfterSaves k s2 sk) : scoreMusic sk = scoreMusic s2 :=
  (settled_after hk (savedAndLoaded_settled (savedAndLoaded_good ht hm hh h1).toLoadedScore h2)).2

/-- **C91** After three saves and loads not even the voice numbers that the notes carry change. -/
theorem C91_settles_numbers (s s1 s2 s3 sk : Score P) (k : Nat) (ht : 0 < s.ticksPerQuarter) (hm : s.ticksPerQuarter ≤ INT_MAX) (hh : HasMeasure s.parts) (h1 : SavedAndLoaded s s1)
    (h2 : SavedAndLoaded s1 s2) (h3 : SavedAndLoaded s2 s3) (hk : AfterSaves k s3 sk) : scoreVoices sk = scoreVoices s3 := by
  have hs2 := savedAndLoaded_settled (savedAndLoaded_good ht hm hh h1).toLoadedScore h2
  have hs3 := savedAndLoaded_settled hs2.good.toLoadedScore h3
  have hn := settled_numbers hs2 h3
  have : NumbersFollow sk ∧ scoreVoices sk = scoreVoices s3 := by
    induction hk with
    | none => exact ⟨hn, rfl⟩
    | more hk h ih =>
      obtain ⟨i1, i2⟩ := ih h3 hs3 hn
      have hset := (settled_after hk hs3).1
      exact ⟨settled_numbers hset h, (settled_voices_same hset i1 h).trans i2⟩
  exact this.2

/-- **C91** A file of any program: what is loaded from it can be saved and loaded, and after the first time nothing changes any more.  The file may have any parts, with any numbers of staves and any divisions, and
in its measures notes, chords, backups, forwards, directions and attributes in any order.  Only: durations are not negative, every part has a measure, and a chord note is on the staff of the note before it (for other files `C91_settles`
applies: two saves and loads). -/
theorem C91_any_file (ids : List Str) (file : List (Str × List (List (Child P)))) (s : Score P)
    (hl : getScore ids file = some (s.ticksPerQuarter, s.parts.map (fun p => p.measures.map (·.2)))) (ht : 0 < s.ticksPerQuarter) (hne : s.parts ≠ [])
    (hf : ∀ p ∈ file, p.2 ≠ [] ∧ ∀ m ∈ p.2, (∀ c ∈ m, TimesForward c.elem) ∧ ChordsOnOneStaff none (m.map (·.elem))) :
    (∃ s1, SavedAndLoaded s s1) ∧ ∀ s1, SavedAndLoaded s s1 → ∀ k sk, AfterSaves k s1 sk → scoreMusic sk = scoreMusic s1 := by
  have hg : LoadedScore s := by
    unfold getScore at hl
    cases hG : findMaxDivisionsPerQuarter (file.map (fun p => partElems p.2)) with
    | error e => rw [hG] at hl; cases hl
    | ok G =>
      rw [hG] at hl
      simp only [Option.map_eq_some_iff, Prod.mk.injEq] at hl
      obtain ⟨o, ho, rfl, rfl⟩ := hl
      refine ⟨⟨ht, lcmSet_small hG⟩, hne, ?_⟩
      intro p hp
      refine getParts_good (le_of_lt ht) ?_ ho _ (List.mem_map_of_mem hp)
      intro q hq
      obtain ⟨i, _, hi⟩ := List.mem_filterMap.mp hq
      obtain ⟨x, hx, rfl⟩ := Option.map_eq_some_iff.mp hi
      exact hf x (List.mem_of_find?_eq_some hx)
  exact ⟨savedAndLoaded_goesOn hg, fun s1 h1 k sk hk => (settled_after hk (savedAndLoaded_settled hg h1)).2⟩

/-- Two parts with equal ids, one without measures, one with measures of one and two staves. -/
def untidy : Score String :=
  { ticksPerQuarter := 4
    parts := [{ uniqueId := chars "a b", measures := [(exExtras, tangled), (⟨false, false, 1⟩, exOne "x")] }, { uniqueId := chars "a_b", measures := [(exExtras, exOne "y")] },
      { uniqueId := [], measures := [] }, { uniqueId := chars "G", measures := [(exExtras, graceWithLength)] }] }

/-- What is loaded, with something for what is not modelled. -/
def loadAgain (s : Score String) : Option (Score String) :=
  (rereadScore s.ticksPerQuarter s.parts).map (fun r =>
    { ticksPerQuarter := r.1, parts := List.zipWith (fun i ms => { uniqueId := i, measures := ms.map (fun m => (exExtras, m)) }) (writeScore s.ticksPerQuarter s.parts).1 r.2 })

/-- The example meets the conditions. -/
example : 0 < untidy.ticksPerQuarter ∧ untidy.ticksPerQuarter ≤ INT_MAX ∧ HasMeasure untidy.parts ∧ ∀ p ∈ untidy.parts, StavesFit p.measures := by
  refine ⟨by decide, by decide, ⟨_, List.mem_cons_self, .inl (by simp)⟩, ?_⟩
  intro p hp
  simp only [untidy, List.mem_cons, List.not_mem_nil, or_false] at hp
  rcases hp with rfl | rfl | rfl | rfl <;> intro x rest e y hy <;> cases e
  · simp only [List.mem_singleton] at hy; subst hy; decide
  · cases hy
  · cases hy

/-- notes with the numbers of their voices and their times -/
def heardAll (s : Option (Score String)) : Option (List (Str × List (List (List (Int × List (String × Int)))))) :=
  s.map (fun s => s.parts.map (fun p => (p.uniqueId, p.measures.map (fun x => x.2.staves.map (fun st => st.voices.map (fun v => (v.1, v.2.map (fun n => (n.content, n.tick)))))))))

instance : DecidableEq (Int × List (String × Int)) := inferInstance
instance : DecidableEq (List (List (List (Int × List (String × Int))))) := inferInstance
instance : DecidableEq (Str × List (List (List (Int × List (String × Int))))) := inferInstance

/-- The first save and load changes the example (the second part is replaced by the first, the part without measures gets one), the second one too (the last part). -/
example : heardAll (loadAgain untidy) =
      some [(chars "a_b", [[[(0, [("c", 4)]), (1, [("d", 2), ("x", 6)]), (2, [("e", 0), ("g", 0), ("a", 2)])], [(0, [("b", 6)]), (1, [("h", 6)])]], [[(0, [("x", 0)])], []]]),
        (chars "a_b", [[[(0, [("c", 4)]), (1, [("d", 2), ("x", 6)]), (2, [("e", 0), ("g", 0), ("a", 2)])], [(0, [("b", 6)]), (1, [("h", 6)])]], [[(0, [("x", 0)])], []]]),
        (chars "ID", [[[]]]), (chars "G", [[[(0, [("x", 0)]), (1, [("b", 0)])]]])] ∧
    heardAll ((loadAgain untidy).bind loadAgain) =
      some [(chars "a_b", [[[(0, [("c", 4)]), (1, [("d", 2), ("x", 6)]), (2, [("e", 0), ("g", 0), ("a", 2)])], [(0, [("b", 6)]), (1, [("h", 6)])]], [[(0, [("x", 0)])], []]]),
        (chars "a_b", [[[(0, [("c", 4)]), (1, [("d", 2), ("x", 6)]), (2, [("e", 0), ("g", 0), ("a", 2)])], [(0, [("b", 6)]), (1, [("h", 6)])]], [[(0, [("x", 0)])], []]]),
        (chars "ID", [[[]]]), (chars "G", [[[(0, [("x", 0), ("b", 0)])]]])] ∧
    heardAll (((loadAgain untidy).bind loadAgain).bind loadAgain) = heardAll ((loadAgain untidy).bind loadAgain) :=
  ⟨by decide +kernel, by decide +kernel, by decide +kernel⟩

/-- **C91** A score can be saved in a file that cannot be loaded: a clef on the second staff of the second measure, if the first measure has one staff and the second staff has nothing else. -/
theorem C91_late_clef_fails : ¬ ∃ s1, SavedAndLoaded (P := String)
    ⟨4, [{ uniqueId := chars "P1", measures := [(exExtras, exOne "a"), (⟨false, false, 0⟩, { staves := [⟨[], [], [(0, [exNote 0 4 false "b"])], []⟩, ⟨[⟨2, "bass"⟩], [], [], []⟩], keys := [], barlines := [] })] }]⟩ s1 := by
  rintro ⟨s1, h, _⟩
  have : (rereadScore (P := String) 4 [{ uniqueId := chars "P1", measures := [(exExtras, exOne "a"), (⟨false, false, 0⟩, { staves := [⟨[], [], [(0, [exNote 0 4 false "b"])], []⟩, ⟨[⟨2, "bass"⟩], [], [], []⟩], keys := [], barlines := [] })] }]).isSome = false := by
    decide +kernel
  rw [h] at this
  cases this

/-- a file with two parts, one of which has the divisions of the other -/
def twoPrograms : List (Str × List (List (Child String))) :=
  [(chars "P1", [foreign.map (fun e => { elem := e }), [{ elem := .attributes { divisions := some 2000000, clefs := [⟨some 2, "bass"⟩] } }, { elem := .note ⟨false, .normal, 1000000, none, some 4, "c"⟩ }]]),
   (chars "P2", [[{ elem := .note ⟨false, .normal, 4000000, none, none, "d"⟩ }, { elem := .backup 2000000 }, { elem := .note ⟨true, .normal, 2000000, none, none, "e"⟩ }]])]

/-- The file is loaded with six ticks per quarter and meets the conditions. -/
example : (getScore [chars "P1", chars "P2"] twoPrograms).map (fun r => (r.1, r.2.map (fun p => p.map (fun m => m.staves.length)))) = some (6, [[2, 2], [1]]) ∧
    ∀ p ∈ twoPrograms, p.2 ≠ [] ∧ ∀ m ∈ p.2, (∀ c ∈ m, TimesForward c.elem) ∧ ChordsOnOneStaff none (m.map (·.elem)) := by
  refine ⟨by decide +kernel, ?_⟩
  simp [twoPrograms, foreign, TimesForward, ChordsOnOneStaff, staffNumber]

end Mx.Props
