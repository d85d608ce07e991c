import Verif.Proofs.ChordSaid

/-!
# C100: the chord symbols of a file keep what they say

A `<harmony>` of a document, when the document is loaded and saved.
-/
namespace Mx.Props
open Mx.Directions _root_.Spec

/-- It comes out as one `<harmony>` that says the same chords in the same order. -/
theorem C100_chords_partial (cursorTick : Int) (staffSaid : Bool) (staffIndex cursorTick' : Int) (x : HarmonyXml) (said : List ChordSaid) (hs : List.Forall₂ ChordSays x.chords said) (hn : said ≠ [])
    (hk : ∀ a ∈ said, ChordKept a) (l : List ElementXml) (h : harmonyThrough cursorTick staffSaid staffIndex cursorTick' x = .ok l) :
    ∃ y, l = [.harmony y] ∧ List.Forall₂ ChordSays y.chords said := harmony_said hs hn hk h

/-- The same for any number of times. -/
theorem C100_for_ever_partial (n : Nat) (x y : HarmonyXml) (said : List ChordSaid) (hs : List.Forall₂ ChordSays x.chords said) (hn : said ≠ []) (hk : ∀ a ∈ said, ChordKept a) (h : HarmonyPasses n x y) :
    List.Forall₂ ChordSays y.chords said := by
  induction h with
  | zero x => exact hs
  | succ c b s c' h _ ih =>
    obtain ⟨y, he, k⟩ := C100_chords_partial c b s c' _ said hs hn hk _ h
    cases he
    exact ih k

/-- F♯m7(♭5, no 3)/E with its own text, and C. -/
def exHarmony : HarmonyXml := {
  chords := [{ rootStep := chars "F", rootAlter := some (chars "+1.0"), kind := chars "minor-seventh", kindText := some (chars "m7 -5"), useSymbols := some (chars "no"), bass := some (chars "E", none)
               degrees := [{ value := chars "05", alter := chars "-1.00", type := chars "alter" }, { value := chars "3", alter := chars "0", type := chars "subtract" }] },
             { rootStep := chars "C", kind := chars "major" }] }

def exChords : List ChordSaid :=
  [{ root := .f, rootAlter := 1, kind := .minorSeventh, text := some (chars "m7 -5"), useSymbols := some false, bass := some (.e, 0), degrees := [(.alter, 5, -1), (.subtract, 3, 0)] }, { root := .c, kind := .major }]

example : ∀ a ∈ exChords, ChordKept a := by
  intro a ha
  simp only [exChords, List.mem_cons, List.not_mem_nil, or_false] at ha
  rcases ha with rfl | rfl
  · exact { rootAlter := ⟨by decide, by decide⟩, text := by rintro t ⟨⟩; exact ⟨by decide, by rw [← show xsToken (chars "m7 -5") = chars "m7 -5" by decide +kernel]; exact C25_token_normalised _⟩,
            bassAlter := by rintro b ⟨⟩; exact ⟨by decide, by decide⟩, degrees := by decide }
  · exact { rootAlter := ⟨by decide, by decide⟩, text := by rintro t ⟨⟩, bassAlter := by rintro b ⟨⟩, degrees := by decide }

theorem exDecimal (sign ip fp : Str) (hs : sign = [] ∨ sign = ['+']) (hd : ∀ c ∈ ip ++ fp, Digit c) (hn : ip ≠ []) (v : ℚ) (hv : v = decimalVal ip fp) : DecimalText (sign ++ ip ++ ['.'] ++ fp) v :=
  ⟨[], sign, ip, fp, ['.'], [], [], by simp, by simp, by simp, fun c h => hd c (List.mem_append_left _ h), fun c h => hd c (List.mem_append_right _ h), by simp [hn], .inl rfl, 0, .inl ⟨rfl, rfl⟩, .inr ⟨hs, by rw [hv]; simp⟩⟩

example : List.Forall₂ ChordSays exHarmony.chords exChords := by
  refine .cons { isRoot := rfl, root := rfl, rootAlter := ?_, kind := rfl, text := rfl, useSymbols := rfl, bass := ⟨rfl, rfl⟩, degrees := .cons ⟨rfl, ?_, ?_⟩ (.cons ⟨rfl, ?_, ?_⟩ .nil) }
    (.cons { isRoot := rfl, root := rfl, rootAlter := rfl, kind := rfl, text := rfl, useSymbols := rfl, bass := trivial, degrees := .nil } .nil)
  · exact exDecimal ['+'] ['1'] ['0'] (.inr rfl) (by decide) (by decide) _ (by decide +kernel)
  · exact ⟨[], [], ['0', '5'], [], rfl, by simp, by simp, by simp, by decide, .inr ⟨.inl rfl, by decide +kernel⟩⟩
  · exact ⟨[], ['-'], ['1'], ['0', '0'], ['.'], [], [], rfl, by simp, by simp, by decide, by decide, by simp, .inl rfl, 0, .inl ⟨rfl, rfl⟩, .inl ⟨rfl, by decide +kernel⟩⟩
  · exact ⟨[], [], ['3'], [], rfl, by simp, by simp, by simp, by decide, .inr ⟨.inl rfl, by decide +kernel⟩⟩
  · exact ⟨[], [], ['0'], [], [], [], [], rfl, by simp, by simp, by decide, by decide, by simp, .inr ⟨rfl, rfl⟩, 0, .inl ⟨rfl, rfl⟩, .inr ⟨.inl rfl, by decide +kernel⟩⟩

/-- Numbers come out in their usual spelling. -/
example : harmonyThrough 0 true 0 0 exHarmony = .ok [.harmony {
  staff := some (chars "1")
  chords := [{ rootStep := chars "F", rootAlter := some (chars "1"), kind := chars "minor-seventh", kindText := some (chars "m7 -5"), useSymbols := some (chars "no"), bass := some (chars "E", none)
               degrees := [{ value := chars "5", alter := chars "-1", type := chars "alter" }, { value := chars "3", alter := chars "0", type := chars "subtract" }] },
             { rootStep := chars "C", kind := chars "major" }] }] := by decide +kernel

/-! ### What is not kept -/

/-- Chords given by their function (Roman numerals) are gone. -/
theorem C100_functions : harmonyThrough 0 false 0 0 { chords := [{ isRoot := false, kind := chars "major" }] } = .ok [] := by decide +kernel

/-- Other degrees (the 10th) are dropped; an alteration by more than two semitones comes out as two; a degree that is not shown comes out shown. -/
theorem C100_degrees : harmonyThrough 0 false 0 0 { chords := [{ rootStep := chars "C", kind := chars "major", degrees := [{ value := chars "10", alter := chars "0", type := chars "add" },
      { value := chars "5", alter := chars "3", type := chars "alter" }, { value := chars "9", alter := chars "0", type := chars "add", printObject := some (chars "no") }] }] } =
    .ok [.harmony { chords := [{ rootStep := chars "C", kind := chars "major", degrees := [{ value := chars "5", alter := chars "2", type := chars "alter" }, { value := chars "9", alter := chars "0", type := chars "add" }] }] }] := by
  decide +kernel

/-- Alterations that are no whole semitones are rounded, the half down. -/
theorem C100_quarter_tones : harmonyThrough 0 false 0 0 { chords := [{ rootStep := chars "C", rootAlter := some (chars "0.5"), kind := chars "major" }, { rootStep := chars "C", rootAlter := some (chars "1.75"), kind := chars "major" }] } =
    .ok [.harmony { chords := [{ rootStep := chars "C", kind := chars "major" }, { rootStep := chars "C", rootAlter := some (chars "2"), kind := chars "major" }] }] := by decide +kernel

end Mx.Props
