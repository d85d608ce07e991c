import Verif.Proofs.TimesSaid

/-!
# C101: the time signatures of a file stay

The `<time>` elements of the measures of a part, when the document is loaded and saved.
-/
namespace Mx.Props
open Mx _root_.Spec

/-- After loading and saving every measure says the time signature that it said, and the measures without one still have none. -/
theorem C101_times_partial (ms : List (List (List TimeFile))) (said : List (List TimeSaid)) (hs : TimesSaid ms said) (hk : ∀ as ∈ said, TimesKept as) :
    ∃ ms', timesThrough ms = some ms' ∧ TimesSaid ms' said := by
  obtain ⟨ts, h1, h2⟩ := times_said_from hs hk 0 {}
  exact ⟨ts.map writtenTimes, by unfold timesThrough readTimes; rw [h1]; rfl, h2⟩

/-- The same for any number of times. -/
theorem C101_for_ever_partial (n : Nat) (ms : List (List (List TimeFile))) (said : List (List TimeSaid)) (hs : TimesSaid ms said) (hk : ∀ as ∈ said, TimesKept as) :
    ∃ ms', timesThroughN n ms = some ms' ∧ TimesSaid ms' said := by
  induction n generalizing ms with
  | zero => exact ⟨ms, rfl, hs⟩
  | succ n ih =>
    obtain ⟨m1, h1, h2⟩ := C101_times_partial ms said hs hk
    obtain ⟨m2, h3, h4⟩ := ih m1 h2
    exact ⟨m2, by rw [timesThroughN, h1]; exact h3, h4⟩

/-- 6/8, nothing, and an alla breve in the second `<attributes>` of the measure that is not shown. -/
def exTimes : List (List (List TimeFile)) :=
  [[[{ content := .signature (chars "6", chars "8") [] }]], [[]], [[], [{ symbol := some (chars "cut"), printObject := some (chars "no"), content := .signature (chars "2", chars "2") [] }]]]

example : TimesSaid exTimes [[{ meter := some [(6, 8)] }], [], [{ meter := some [(2, 2)], symbol := some .cut, shown := some false }]] := by
  refine .cons (.cons ⟨⟨_, rfl, .cons ⟨(canonical_iff _ _).mpr (by decide +kernel), (canonical_iff _ _).mpr (by decide +kernel)⟩ .nil⟩, rfl, rfl, rfl⟩ .nil) (.cons .nil (.cons (.cons ⟨⟨_, rfl, .cons ⟨(canonical_iff _ _).mpr
    (by decide +kernel), (canonical_iff _ _).mpr (by decide +kernel)⟩ .nil⟩, rfl, rfl, rfl⟩ .nil) .nil))

example : timesThrough exTimes = some [[[{ content := .signature (chars "6", chars "8") [] }]], [], [[{ symbol := some (chars "cut"), printObject := some (chars "no"), content := .signature (chars "2", chars "2") [] }]]] := by
  decide +kernel

/-! ### What is not kept -/

/-- 3/8 + 2/4 comes out as 3/8. -/
theorem C101_sum_of_meters : timesThrough [[[{ content := .signature (chars "3", chars "8") [(chars "2", chars "4")] }]]] = some [[[{ content := .signature (chars "3", chars "8") [] }]]] := by decide +kernel

/-- (3+2)/8, and a section without meter, are gone: the meter of before goes on. -/
theorem C101_gone : timesThrough [[[{ content := .signature (chars "3+2", chars "8") [] }]], [[{ content := .senzaMisura }]]] = some [[], []] := by decide +kernel

/-- Different meters for two staves: that of the first staff comes out for both. -/
theorem C101_two_staves : timesThrough [[[{ number := some (chars "1"), content := .signature (chars "3", chars "4") [] }, { number := some (chars "2"), content := .signature (chars "9", chars "8") [] }]]] =
    some [[[{ content := .signature (chars "3", chars "4") [] }]]] := by decide +kernel

/-- A change of meter behind the first one of the measure is gone. -/
theorem C101_second_change : timesThrough [[[{ content := .signature (chars "3", chars "4") [] }], [{ content := .signature (chars "2", chars "4") [] }]]] = some [[[{ content := .signature (chars "3", chars "4") [] }]]] := by decide +kernel

/-- Other symbols are lost. -/
theorem C101_symbol : timesThrough [[[{ symbol := some (chars "single-number"), content := .signature (chars "3", chars "4") [] }]]] = some [[[{ content := .signature (chars "3", chars "4") [] }]]] := by decide +kernel

end Mx.Props
