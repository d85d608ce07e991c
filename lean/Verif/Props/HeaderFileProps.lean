import Verif.Proofs.HeadersSaid

/-!
# C103, C104: measure headers and transpositions of a file

A part of a document, when the document is loaded and saved.
-/
namespace Mx.Props
open Mx _root_.Spec

/-! ### C103 -/

/-- The measures of a part say the same after any number of saves and loads. -/
theorem C103_measures_partial (n : Nat) (xs : List MeasureFile) (as : List MeasureSaid) (hs : List.Forall₂ MeasureSays xs as) (hk : ∀ a ∈ as, MeasureHeadKept a)
    (hl : (xs.length : Int) ≤ INT_MAX) : ∃ ys, measuresTimes n xs = some ys ∧ List.Forall₂ MeasureSays ys as := by
  induction n generalizing xs with
  | zero => exact ⟨xs, rfl, hs⟩
  | succ n ih =>
    obtain ⟨ys, e1, e2⟩ := measures_said hs hk 0 le_rfl (by omega)
    have hlen : ys.length = xs.length := by rw [e2.length_eq, hs.length_eq]
    obtain ⟨zs, f1, f2⟩ := ih ys e2 (by rw [hlen]; exact hl)
    exact ⟨zs, by rw [measuresTimes, e1]; exact f1, f2⟩

/-- A pickup measure and two others; the last has a number that is not its place. -/
def exMeasureFiles : List MeasureFile :=
  [{ head := ⟨chars "0", some (chars "198.50"), some (chars "yes")⟩ }, { head := ⟨chars " 2 ", none, none⟩ }, { head := ⟨chars "2  bis", none, some (chars "no")⟩ }]

example : List.Forall₂ MeasureSays exMeasureFiles
    [{ number := [chars "0"], width := some (397 / 2), implicit := some true }, { number := [chars "2"] }, { number := [chars "2", chars "bis"], implicit := some false }] := by
  refine .cons ⟨by decide +kernel, .inr ⟨_, _, rfl, rfl, ?_⟩, rfl, rfl, rfl⟩ (.cons ⟨by decide +kernel, .inl ⟨rfl, rfl⟩, rfl, rfl, rfl⟩ (.cons ⟨by decide +kernel, .inl ⟨rfl, rfl⟩, rfl, rfl, rfl⟩ .nil))
  exact ⟨[], [], ['1', '9', '8'], ['5', '0'], ['.'], [], [], rfl, by simp, by simp, by decide, by decide, by simp, .inl rfl, 0, .inl ⟨rfl, rfl⟩, .inr ⟨.inl rfl, by decide +kernel⟩⟩

example : measuresTimes 2 exMeasureFiles = some
    [{ head := ⟨chars "0", some (chars "198.5"), some (chars "yes")⟩ }, { head := ⟨chars "2", none, none⟩ }, { head := ⟨chars "2 bis", none, some (chars "no")⟩ }] := by decide +kernel

/-- An empty number becomes the place of the measure; a negative width, `non-controlling` and multi-measure rests are gone. -/
theorem C103_gone : measureThrough 4 { head := ⟨[], some (chars "-1"), none⟩, nonControlling := some (chars "yes"), multipleRests := [chars "8"] } = some { head := ⟨chars "5", none, none⟩ } := by
  decide +kernel

/-- The multi-measure rest is read (eight measures here, the last one counts), and no file that the program writes has one. -/
theorem C103_rests : readMultiRest [chars "4", chars "8"] = 8 ∧ readMultiRest [[]] = -1 ∧
    ∀ (i : Int) (x y : MeasureFile), measureThrough i x = some y → y.multipleRests = [] ∧ y.nonControlling = none := by
  refine ⟨by decide +kernel, by decide +kernel, fun i x y h => ?_⟩
  unfold measureThrough at h
  cases h1 : readMeasureHead i x.head with
  | none => simp [h1] at h
  | some m =>
    cases h2 : writeMeasureHead i m with
    | none => simp [h1, h2] at h
    | some w =>
      simp only [h1, h2, Option.bind_eq_bind, Option.bind_some] at h
      injection h with h
      subst h
      exact ⟨rfl, rfl⟩

/-! ### C104 -/

/-- The transposition of a part stays, any number of times. -/
theorem C104_transposition_partial (n : Nat) (ms : List (List (Int × List TransposeXml))) (said : List (Nat × Int × TransposeSaid)) (hs : TransposesSay ms said)
    (hk : TransposesKept said) : ∃ out, transposesTimes n ms = some out ∧ TransposesSay out said := by
  induction n generalizing ms with
  | zero => exact ⟨ms, rfl, hs⟩
  | succ n ih =>
    obtain ⟨ys, e1, e2⟩ := transposes_said hs hk
    obtain ⟨zs, f1, f2⟩ := ih ys e2
    exact ⟨zs, by rw [transposesThrough] at e1; rw [transposesTimes, transposesThrough, e1]; exact f1, f2⟩

/-- The bass clarinet in B flat: a major ninth down, written as a second and an octave; in the second `<attributes>` at the beginning of the first of two measures. -/
def exTransposes : List (List (Int × List TransposeXml)) := [[(0, []), (0, [⟨some (chars "-1"), chars "-2.0", some (chars "-1")⟩]), (4, [])], [(0, [])]]

example : TransposesSay exTransposes [(0, 0, ⟨-14, -8⟩)] ∧ TransposesKept [(0, 0, ⟨-14, -8⟩)] := by
  refine ⟨.cons ⟨rfl, rfl, -2, -1, by norm_num, by norm_num, ?_, .inr ⟨_, rfl, ?_⟩, rfl, .inr ⟨_, -1, rfl, by norm_num, ?_, rfl⟩⟩ .nil, .inr ⟨_, rfl, by norm_num, by norm_num, by decide, .inl (by decide)⟩⟩
  · exact ⟨[], ['-'], ['2'], ['0'], ['.'], [], [], rfl, by simp, by simp, by decide, by decide, by simp, .inl rfl, 0, .inl ⟨rfl, rfl⟩, .inl ⟨rfl, by decide +kernel⟩⟩
  · exact ⟨[], ['-'], ['1'], [], rfl, by simp, by simp, by simp, by decide, .inl ⟨rfl, by decide +kernel⟩⟩
  · exact ⟨[], ['-'], ['1'], [], rfl, by simp, by simp, by simp, by decide, .inl ⟨rfl, by decide +kernel⟩⟩

example : transposesTimes 3 exTransposes = some [[(0, [⟨some (chars "-1"), chars "-2", some (chars "-1")⟩])], []] := by decide +kernel

/-- Ten semitones down and an octave up: what is written are two semitones up and a step, which is the same. -/
example : transposesThrough [[(0, [⟨none, chars "-10", some (chars "1")⟩])]] = some [[(0, [⟨some (chars "1"), chars "2", none⟩])]] := by decide +kernel

/-- A semitone up on the same step (C sharp) loses its steps, and so is a minor second (D flat) then. -/
theorem C104_sharp : transposesThrough [[(0, [⟨some (chars "0"), chars "1", none⟩])]] = some [[(0, [⟨none, chars "1", none⟩])]] := by decide +kernel

/-- A quarter tone is cut off. -/
theorem C104_quarter_tone : transposesThrough [[(0, [⟨some (chars "1"), chars "1.5", none⟩])]] = some [[(0, [⟨some (chars "1"), chars "1", none⟩])]] := by decide +kernel

/-- Changes of instruments during the part are gone, and of two staves only the first keeps its transposition. -/
theorem C104_changes : transposesThrough [[(0, [⟨none, chars "-2", none⟩, ⟨none, chars "3", none⟩])], [(0, [⟨none, chars "-3", none⟩])]] = some [[(0, [⟨some (chars "-1"), chars "-2", none⟩])], []] := by
  decide +kernel

/-- The return to a transposition of nothing is not written. -/
theorem C104_nothing : transposesThrough [[(0, [⟨some (chars "0"), chars "0", none⟩])]] = some [[(0, [])]] := by decide +kernel

end Mx.Props
