import Verif.Proofs.ApiEquality

/-
C75: comparisons of api data.
-/
open Mx.Spec
namespace Mx.Props
open Mx.ApiEq

/-- **C75.** Two values of the api compare equal exactly if they agree throughout, at every depth, except in the members listed as ignored, and in the tolerant members up to 10⁻⁸.
Partial: the eight ignored members should be compared as well, see `C75_ignored`. -/
theorem C75_equal_iff_agree_partial (a b : Val) : equals a b = true ↔ Agree a b := equals_iff a b

/-- **C75.** `!=` is the opposite of `==`. -/
theorem C75_not_equal (a b : Val) : notEquals a b = true ↔ ¬ Agree a b := by
  rw [← equals_iff, notEquals]
  simp

/-- **C75.** The order of the two values does not matter. -/
theorem C75_symmetric (a b : Val) : equals a b = equals b a := by
  have h1 := equals_iff a b
  have h2 := equals_iff b a
  have h3 : Agree a b ↔ Agree b a := ⟨agree_symm, agree_symm⟩
  cases h : equals a b <;> cases h' : equals b a <;> simp_all

/-- **C75.** Every value of a type of the api without NaN is equal to itself. -/
theorem C75_reflexive {t : Ty} {v : Val} (h : Fits t v) : equals v v = true := equals_self t v h

/-- **C75.** One changed member that is neither ignored nor tolerant makes the values unequal if its values are. -/
theorem C75_change_seen {s : Struct} {l r : List Val} {m : Str} {f g : Val} (hm : (m, f, g) ∈ (s.members.map (·.1)).zip (l.zip r)) (hi : (s, m) ∉ ignored) (ht : (s, m) ∉ tolerant) (h : equals f g = false) :
    equals (.obj s l) (.obj s r) = false := by
  cases he : equals (.obj s l) (.obj s r) with
  | false => rfl
  | true =>
    cases (equals_iff _ _).mp he with
    | obj _ _ _ h4 =>
      have := (equals_iff f g).mpr (h4 _ hm hi ht)
      rw [h] at this
      exact this.symm

/-- The members that are compared are members, and no member is compared twice. -/
theorem C75_tables : ∀ s : Struct, (s.compared.map (·.1)).Nodup ∧ (s.members.map (·.1)).Nodup ∧ ∀ m ∈ s.compared, m.1 ∈ s.members.map (·.1) := by
  have h : ∀ s ∈ Struct.all, (s.compared.map (·.1)).Nodup ∧ (s.members.map (·.1)).Nodup ∧ ∀ m ∈ s.compared, m.1 ∈ s.members.map (·.1) := by decide +kernel
  exact fun s => h s (mem_all s)

/-! ### Values -/

def int (n : Int) : Val := .plain (.int n)
def text (s : Str) : Val := .plain (.text s)
def zero : Val := .real (.fin 0)

/-- A position with the given x. -/
def positionVal (x : Dbl) : Val := .obj .PositionData [.real x, int 1, zero, int 0, zero, int 0, zero, int 0, int 0, int 0, int 0]
def fontVal (family : List Val) : Val := .obj .FontData [int 0, zero, int 0, int 0, int 0, .vec family, int 0, int 0, int 0]
def colorVal : Val := .obj .ColorData [int 0, int 0, int 0, int 0, int 255]
def wordsVal (t : Str) (family : List Val) : Val := .obj .WordsData [text t, positionVal (.fin 3), fontVal family, int 0, colorVal]

/-- A direction with words, chords and rehearsal marks. -/
def directionVal (words chords rehearsals : List Val) : Val :=
  .obj .DirectionData [int 0, int 0, int 0, int 0, .vec [], .vec [], .vec [], .vec [], .vec [], .vec [], .vec [], .vec [], .vec words, .vec chords, .vec [], .vec [], .vec rehearsals]

/-- A voice with a rest at the given time and with the given notehead. -/
def staffVal (time : Int) (words : List Val) : Val :=
  .obj .StaffData [.vec [], .vec [], .vec [directionVal words [] []], .intMap [0, 3] [.obj .VoiceData [.vec []], .obj .VoiceData [.vec [.obj .NoteData [int 1, int 0, int 0, int 0, int 0, int 0, int 0, int 0, int 2,
    .obj .PitchData [int 0, int 0, zero, int 0, int 0, int 0, int 0, int 0, int 4], int 0, int 0, int time, .obj .DurationData [int 4, int 0, int 4, int 0, int 1, int 1, int 0, int 0], .vec [], positionVal (.fin 0),
    .obj .PrintData [int 0, fontVal [], int 0, colorVal], .obj .NoteAttachmentData [.vec [], .vec [], .vec [], .vec [], .vec [], .vec []], .vec []]]]]]

example : Fits (.of .StaffData) (staffVal 5 [wordsVal (chars "dolce") [text (chars "Times")]]) := by
  simp [Fits, FitsAll, FitsEach, Struct.members, staffVal, directionVal, wordsVal, positionVal, fontVal, colorVal, int, text, zero]

example : equals (staffVal 5 [wordsVal (chars "dolce") [text (chars "Times")]]) (staffVal 6 [wordsVal (chars "dolce") [text (chars "Times")]]) = false := by decide +kernel
example : equals (staffVal 5 [wordsVal (chars "dolce") [text (chars "Times")]]) (staffVal 5 [wordsVal (chars "dolce") [text (chars "Arial")]]) = false := by decide +kernel
example : equals (positionVal (.fin 1)) (positionVal (.fin (1 + 1 / 1000000000))) = true := by decide +kernel

/-! ### Where comparisons fail -/

/-- **C75** fails for eight members: whatever values they have, the objects compare equal. -/
theorem C75_ignored {s : Struct} {m : Str} (hm : (s, m) ∈ ignored) (l : List Val) (hl : FitsAll (s.members.map (·.2)) l) (i : Nat) (hi : (s.members.map (·.1))[i]? = some m) (v : Val) :
    equals (.obj s l) (.obj s (l.set i v)) = true := by
  have hself := (equals_iff _ _).mp (equals_self (.of s) (.obj s l) ⟨rfl, hl⟩)
  rw [equals_iff]
  cases hself with
  | obj h1 h2 h3 h4 =>
    have key : ∀ p ∈ (s.members.map (·.1)).zip (l.zip (l.set i v)), (s, p.1) ∉ ignored → p ∈ (s.members.map (·.1)).zip (l.zip l) := by
      intro p hp hn
      rw [List.mem_iff_getElem?] at hp ⊢
      obtain ⟨k, hk⟩ := hp
      refine ⟨k, ?_⟩
      rw [List.getElem?_zip_eq_some] at hk ⊢
      obtain ⟨hk1, hk2⟩ := hk
      refine ⟨hk1, ?_⟩
      rw [List.getElem?_zip_eq_some] at hk2 ⊢
      refine ⟨hk2.1, ?_⟩
      by_cases hik : i = k
      · subst hik
        rw [hi, Option.some.injEq] at hk1
        exact absurd (hk1 ▸ hm) hn
      · rw [List.getElem?_set_ne hik] at hk2
        exact hk2.2
    exact .obj h1 (by simpa using h2) (fun p hp ha hb => h3 p (key p hp ha) ha hb) (fun p hp ha hb => h4 p (key p hp ha) ha hb)

/-- Two staves that differ only in the text of a direction compare equal. -/
theorem C75_words_ignored : equals (staffVal 5 [wordsVal (chars "arco") []]) (staffVal 5 [wordsVal (chars "pizz.") []]) = true := by decide +kernel

/-- Comparisons are not transitive: small differences add up. -/
theorem C75_not_transitive : ∃ a b c : Val, Fits (.of .PositionData) a ∧ Fits (.of .PositionData) b ∧ Fits (.of .PositionData) c ∧ equals a b = true ∧ equals b c = true ∧ equals a c = false := by
  refine ⟨positionVal (.fin 0), positionVal (.fin (3 / 400000000)), positionVal (.fin (3 / 200000000)), ?_, ?_, ?_, by decide +kernel, by decide +kernel, by decide +kernel⟩ <;>
    simp [Fits, FitsAll, Struct.members, positionVal, int, zero]

/-- A position that is not a number compares equal to every other one, a size that is not a number is not even equal to itself. -/
theorem C75_nan (x : Dbl) : equals (positionVal .nan) (positionVal x) = true ∧ equals (.obj .SizeData [.real .nan, zero]) (.obj .SizeData [.real .nan, zero]) = false := by
  refine ⟨?_, by decide +kernel⟩
  rw [equals_iff]
  refine .obj rfl rfl ?_ ?_
  · simp [Struct.members, ignored, tolerant]
    exact ⟨.nanLeft, .fin (by decide +kernel) (by decide +kernel)⟩
  · simp [Struct.members, ignored, tolerant, int]
    exact ⟨.plain, .plain⟩

/-- **C75** fails for the test whether a direction is empty: directions with nothing but chord symbols and rehearsal marks pass for empty. -/
theorem C75_empty_direction (chords rehearsals : List Val) : directionEmpty (directionVal [] chords rehearsals) = true := by rfl

example : directionEmpty (directionVal [wordsVal (chars "arco") []] [] []) = false := by decide +kernel

end Mx.Props
