import Verif.Proofs.SignaturesSaid

/-!
# C102: the clefs and key signatures of a file keep what they say

One `<clef>` or `<key>` of a document, when the document is loaded and saved.  Where they are is the subject of C94 and C95.
-/
namespace Mx.Props
open Mx _root_.Spec

/-- A clef says the same any number of times. -/
theorem C102_clef_partial (n : Nat) (x y : ClefXml) (a : ClefSaid) (hs : ClefSays x a) (hk : ClefKept a) (h : ClefPasses n x y) : ClefSays y a := by
  induction h with
  | zero x => exact hs
  | succ t i h _ ih => exact ih (clef_said t hs hk h)

/-- It always gets through. -/
theorem C102_clef_written (tick staffIndex : Int) (x : ClefXml) (hi : staffIndex < INT_MAX) : ∃ y, clefThrough tick staffIndex x = some y := by
  unfold clefThrough writeClef staffNumberText
  by_cases h : staffIndex ≥ 0
  · rw [if_pos h, chk_eq (by unfold InInt INT_MIN INT_MAX at *; omega)]
    exact ⟨_, rfl⟩
  · rw [if_neg h]
    exact ⟨_, rfl⟩

/-- A key signature says the same any number of times. -/
theorem C102_key_partial (n : Nat) (x y : KeyXml) (a : KeySaid) (hs : KeySays x a) (hk : KeyKept a) (h : KeyPasses n x y) : KeySays y a := by
  induction h with
  | zero x => exact hs
  | succ t i h _ ih => exact ih (key_said hs hk h)

/-- A key signature of sharps or flats stays on its staff, or on all staves, any number of times, in a part with as many staves. -/
theorem C102_key_staff_partial (numStaves : Int) (hn : numStaves ≤ INT_MAX) (ticks : List Int) (x y : KeyXml) (staff : Option Int) (hs : KeyOnStaff x staff) (hv : ∀ v, staff = some v → 1 ≤ v ∧ v ≤ numStaves)
    (ht : Traditional x) (h : ticks.foldlM (fun x tick => keyThrough numStaves tick x) x = some y) : KeyOnStaff y staff := by
  induction ticks generalizing x with
  | nil => cases h; exact hs
  | cons t ts ih =>
    rw [List.foldlM_cons] at h
    obtain ⟨z, h1, h2⟩ := Option.bind_eq_some_iff.mp h
    obtain ⟨k1, k2⟩ := key_staff hn hs hv ht h1
    exact ih z k1 k2 h2

example : [0, 5, 0].foldlM (fun x tick => keyThrough 2 tick x) ⟨some (chars " 02"), .traditional none (chars "-3") none⟩ = some ⟨some (chars "2"), .traditional none (chars "-3") none⟩ := by decide +kernel

example : KeyOnStaff ⟨some (chars " 02"), .traditional none (chars "-3") none⟩ (some 2) :=
  .inr ⟨_, 2, rfl, ⟨[' '], [], ['0', '2'], [], rfl, by decide, by simp, by simp, by decide, .inr ⟨.inl rfl, by decide +kernel⟩⟩, rfl⟩

/-- A key signature for a staff that the part does not have comes out for all staves. -/
theorem C102_key_no_staff : keyThrough 2 0 ⟨some (chars "3"), .traditional none (chars "-3") none⟩ = some ⟨none, .traditional none (chars "-3") none⟩ := by decide +kernel

/-- The tenor clef of a choir: the treble clef on its standard line, an octave lower. -/
def exClefXml : ClefXml := { number := none, afterBarline := none, sign := chars "G", line := none, octaveChange := some (chars " -01") }

example : ClefSays exClefXml { sign := .g, line := some 2, octaveChange := -1 } ∧ ClefKept { sign := .g, line := some 2, octaveChange := -1 } :=
  ⟨⟨rfl, .inl ⟨rfl, rfl⟩, .inr ⟨_, rfl, [' '], ['-'], ['0', '1'], [], rfl, by decide, by simp, by simp, by decide, .inl ⟨rfl, by decide +kernel⟩⟩⟩, ⟨2, rfl, by decide, by decide⟩, by decide, by decide⟩

example : clefThrough 0 1 exClefXml = some { number := some (chars "2"), afterBarline := none, sign := chars "G", line := some (chars "2"), octaveChange := some (chars "-1") } := by decide +kernel

/-- A minor that cancels two flats, and a key with a quarter tone. -/
def exKeyXmls : List KeyXml :=
  [⟨none, .traditional (some (chars "-2")) (chars "0") (some (chars "minor"))⟩, ⟨none, .nonTraditional [⟨chars "F", chars "0.5", some (chars "quarter-sharp")⟩, ⟨chars "B", chars "-1", none⟩]⟩]

example : KeySays (exKeyXmls[1]) (.other [⟨.f, 1 / 2, some .quarterSharp⟩, ⟨.b, -1, none⟩]) := by
  refine .cons ⟨rfl, ?_, rfl⟩ (.cons ⟨rfl, ?_, rfl⟩ .nil)
  · exact ⟨[], [], ['0'], ['5'], ['.'], [], [], rfl, by simp, by simp, by decide, by decide, by simp, .inl rfl, 0, .inl ⟨rfl, rfl⟩, .inr ⟨.inl rfl, by decide +kernel⟩⟩
  · exact ⟨[], ['-'], ['1'], [], [], [], [], rfl, by simp, by simp, by decide, by decide, by simp, .inr ⟨rfl, rfl⟩, 0, .inl ⟨rfl, rfl⟩, .inl ⟨rfl, by decide +kernel⟩⟩

example : exKeyXmls.map (keyThrough 1 0) = exKeyXmls.map some := by decide +kernel

/-! ### What is not kept -/

/-- Tablature and percussion without a line get the lines 1 and 3. -/
theorem C102_line_invented : clefThrough 0 (-1) ⟨none, none, chars "TAB", none, none⟩ = some ⟨none, none, chars "TAB", some (chars "1"), none⟩ ∧
    clefThrough 0 (-1) ⟨none, none, chars "percussion", none, none⟩ = some ⟨none, none, chars "percussion", some (chars "3"), none⟩ := by decide +kernel

/-- A line below the staff is lost; the clef is on its standard line then. -/
theorem C102_line_below : clefThrough 0 (-1) ⟨none, none, chars "G", some (chars "-1"), none⟩ = some ⟨none, none, chars "G", none, none⟩ := by decide +kernel

/-- Other modes are lost. -/
theorem C102_dorian : keyThrough 1 0 ⟨none, .traditional none (chars "-1") (some (chars "dorian"))⟩ = some ⟨none, .traditional none (chars "-1") none⟩ := by decide +kernel

/-- A key signature without anything comes out as no sharps and flats; one of single accidentals for the second staff comes out for all staves. -/
theorem C102_custom : keyThrough 2 0 ⟨none, .nonTraditional []⟩ = some ⟨none, .traditional none (chars "0") none⟩ ∧
    keyThrough 2 0 ⟨some (chars "2"), .nonTraditional [⟨chars "F", chars "1", none⟩]⟩ = some ⟨none, .nonTraditional [⟨chars "F", chars "1", none⟩]⟩ := by decide +kernel

/-- The double sharp made of two sharps comes out without its sign. -/
theorem C102_sharp_sharp : keyThrough 1 0 ⟨none, .nonTraditional [⟨chars "F", chars "2", some (chars "sharp-sharp")⟩]⟩ = some ⟨none, .nonTraditional [⟨chars "F", chars "2", none⟩]⟩ := by decide +kernel

end Mx.Props
