import Verif.Proofs.Integers

/-!
# Properties C16, C17: bounded integers and their text
Specification: `Verif/Spec/Text.lean`.
-/
namespace Mx.Props
open Spec Mx

/-- The documented range of each bounded integer type (private/mx/core/Integers.h comments,
MusicXML schema). -/
def documentedRange : IntKind → Int × Int
  | .AccordionMiddleValue => (0, 3) | .BeamLevel => (1, 8) | .Byte => (0, 255)
  | .FifthsValue => (-2147483648, 2147483647) | .Midi128 => (1, 128) | .Midi16 => (1, 16)
  | .Midi16384 => (1, 16384) | .NonNegativeInteger => (0, 2147483647) | .NumberLevel => (1, 6)
  | .NumberOfLines => (0, 3) | .OctaveValue => (0, 9) | .PositiveInteger => (1, 2147483647)
  | .StaffLine => (-2147483648, 2147483647) | .StaffNumber => (1, 2147483647)
  | .StringNumber => (1, 2147483647) | .TremoloMarks => (0, 8)

/-- **C16** After construction with any value and any history of assignments and parses, the value of a
bounded integer lies in the documented range of its type. -/
theorem C16_int_range_invariant (k : IntKind) (v : Int) (ops : List IntRange.Op) :
    let r := ops.foldl IntRange.step (IntRange.ofKind k v)
    (documentedRange k).1 ≤ r.value ∧ r.value ≤ (documentedRange k).2 := by
  have clampB : ∀ lo hi v : Int, lo ≤ hi → lo ≤ clampInt lo hi v ∧ clampInt lo hi v ≤ hi := by
    intro lo hi v h; unfold clampInt; split
    · omega
    · split <;> omega
  have hk : k.bounds.1 = (documentedRange k).1 ∧ k.bounds.2 = (documentedRange k).2 ∧ k.bounds.1 ≤ k.bounds.2 := by
    cases k <;> decide
  have inv : ∀ (ops : List IntRange.Op) (r : IntRange), r.min = k.bounds.1 → r.max = k.bounds.2 →
      r.min ≤ r.value ∧ r.value ≤ r.max →
      k.bounds.1 ≤ (ops.foldl IntRange.step r).value ∧ (ops.foldl IntRange.step r).value ≤ k.bounds.2 := by
    intro ops
    induction ops with
    | nil => intro r h1 h2 h3; rw [← h1, ← h2]; exact h3
    | cons o os ih =>
      intro r h1 h2 h3
      have hset : ∀ w, (r.setValue w).min = k.bounds.1 ∧ (r.setValue w).max = k.bounds.2 ∧
          ((r.setValue w).min ≤ (r.setValue w).value ∧ (r.setValue w).value ≤ (r.setValue w).max) := by
        intro w; exact ⟨h1, h2, clampB r.min r.max w (by rw [h1, h2]; exact hk.2.2)⟩
      simp only [List.foldl_cons]
      cases o with
      | setValue w => exact ih _ (hset w).1 (hset w).2.1 (hset w).2.2
      | parse s =>
        simp only [IntRange.step, IntRange.parse]
        split
        · exact ih r h1 h2 h3
        · exact ih _ (hset _).1 (hset _).2.1 (hset _).2.2
  have := inv ops (IntRange.ofKind k v) rfl rfl (clampB _ _ _ hk.2.2)
  rw [hk.1, hk.2.1] at this
  exact this

example : (([.setValue 500, .parse "x".toList, .parse " -7 ".toList] : List IntRange.Op).foldl IntRange.step
    (IntRange.ofKind .Midi16 3)).value = 1 := by decide

/-- **C16** Values in the range are stored unchanged; other values become the nearest bound
(the stored value is at least as close as any other value of the range). -/
theorem C16_int_clamp_nearest (k : IntKind) (v old : Int) :
    let lo := (documentedRange k).1
    let hi := (documentedRange k).2
    let stored := ((IntRange.ofKind k old).setValue v).value
    (lo ≤ v → v ≤ hi → stored = v) ∧ (v < lo → stored = lo) ∧ (hi < v → stored = hi) := by
  have hk : k.bounds.1 = (documentedRange k).1 ∧ k.bounds.2 = (documentedRange k).2 ∧ k.bounds.1 ≤ k.bounds.2 := by
    cases k <;> decide
  simp only [IntRange.setValue, IntRange.ofKind, IntRange.make, ← hk.1, ← hk.2.1]
  unfold clampInt
  refine ⟨?_, ?_, ?_⟩
  · intro a b; rw [if_neg (by omega), if_neg (by omega)]
  · intro a; rw [if_pos a]
  · intro a; rw [if_neg (by omega), if_pos a]

/-- **C16** The same for construction, and for the default constructor (0, moved into the range). -/
theorem C16_int_construct (k : IntKind) (v : Int) :
    (IntRange.ofKind k v).value = max (documentedRange k).1 (min v (documentedRange k).2) ∧
    (IntRange.default k).value = max (documentedRange k).1 (min 0 (documentedRange k).2) := by
  have key : ∀ lo hi v : Int, lo ≤ hi → clampInt lo hi v = max lo (min v hi) := by
    intro lo hi v h; unfold clampInt; split
    · omega
    · split <;> omega
  have hk : k.bounds.1 = (documentedRange k).1 ∧ k.bounds.2 = (documentedRange k).2 ∧ k.bounds.1 ≤ k.bounds.2 := by
    cases k <;> decide
  simp only [IntRange.default, IntRange.ofKind, IntRange.make, ← hk.1, ← hk.2.1, key _ _ _ hk.2.2, and_self]

example : (IntRange.default .Midi16).value = 1 ∧ (IntRange.ofKind .Midi16 99).value = 16 := by decide

/-- **C17** `parse` succeeds exactly for an integer with optional sign and surrounding white space that
fits an `int`; the value stored is that integer moved into the range.  Otherwise it returns false and the object is
unchanged. -/
theorem C17_int_parse (r : IntRange) (s : Str) :
    (∃ v, IntegerText s v ∧ InInt v ∧ r.parse s = (true, r.setValue v)) ∨
    ((¬ ∃ v, IntegerText s v ∧ InInt v) ∧ r.parse s = (false, r)) := by
  have hc := readInt_complete s (readInt 0 s).value 0
  by_cases h : (readInt 0 s).fail = false ∧ skipWs (readInt 0 s).rest = []
  · left
    obtain ⟨h1, h2⟩ := hc.mp ⟨h.1, h.2, rfl⟩
    refine ⟨_, h1, h2, ?_⟩
    unfold IntRange.parse
    simp only
    rw [if_neg (by simp [h.1, h.2])]
  · right
    constructor
    · rintro ⟨v, hv, hi⟩
      have := (readInt_complete s v 0).mpr ⟨hv, hi⟩
      exact h ⟨this.1, this.2.1⟩
    · unfold IntRange.parse
      simp only
      rw [if_pos]
      by_cases hf : (readInt 0 s).fail = true
      · exact .inl hf
      · right; intro hh; exact h ⟨by simpa using hf, hh⟩

/-- the success case is inhabited -/
example : IntegerText " +042\n".toList 42 ∧ (IntRange.default .Midi128).parse " +042\n".toList = (true, ⟨1, 128, 42⟩) :=
  ⟨⟨" ".toList, "+".toList, "042".toList, "\n".toList, by decide, by decide, by decide, by decide, by decide,
    .inr ⟨.inr rfl, by decide⟩⟩, by decide⟩

/-- **C17** Text round trip: the text of a value in the range is read back by any object of the same type. -/
theorem C17_int_round_trip (k : IntKind) (v w : Int) (hv : InInt v) :
    (IntRange.ofKind k w).parse (IntRange.ofKind k v).toStr = (true, IntRange.ofKind k v) := by
  have hk : InInt k.bounds.1 ∧ InInt k.bounds.2 ∧ k.bounds.1 ≤ k.bounds.2 := by cases k <;> decide
  have hin : InInt (clampInt k.bounds.1 k.bounds.2 v) := by
    unfold clampInt; split
    · exact hk.1
    · split
      · exact hk.2.1
      · exact hv
  have hr := readInt_showInt (old := 0) (x := clampInt k.bounds.1 k.bounds.2 v) (r := []) hin (by simp)
  rw [List.append_nil] at hr
  have idem : clampInt k.bounds.1 k.bounds.2 (clampInt k.bounds.1 k.bounds.2 v) = clampInt k.bounds.1 k.bounds.2 v := by
    have := hk.2.2
    generalize k.bounds.1 = a at *
    generalize k.bounds.2 = b at *
    unfold clampInt
    split
    · split
      · rfl
      · split <;> omega
    · split
      · split
        · omega
        · split <;> omega
      · rfl
  unfold IntRange.parse IntRange.toStr
  simp only [IntRange.ofKind, IntRange.make, hr]
  simp [IntRange.setValue, idem, skipWs]

/-- **C17** The same for the unbounded `Integer`. -/
theorem C17_integer_round_trip (v : Int) (old : Integer) (hv : InInt v) :
    old.parse (Integer.toStr ⟨v⟩) = (true, ⟨v⟩) := by
  have hr := readInt_showInt (old := 0) (x := v) (r := []) hv (by simp)
  rw [List.append_nil] at hr
  simp [Integer.parse, Integer.toStr, hr, skipWs]

example : (IntRange.ofKind .FifthsValue (-2147483648)).toStr = "-2147483648".toList ∧ InInt (-2147483648) := by decide

#print axioms C16_int_range_invariant
#print axioms C16_int_clamp_nearest
#print axioms C16_int_construct
#print axioms C17_int_parse
#print axioms C17_int_round_trip
#print axioms C17_integer_round_trip
end Mx.Props
