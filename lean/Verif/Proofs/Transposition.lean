import Verif.Proofs.Properties

open Spec
namespace Mx

theorem octave_eq (c : Int) : transposeOctave c = c.tdiv 12 := by
  unfold transposeOctave
  split
  · rfl
  · rename_i h; push Not at h; rw [h]; rfl

theorem octave_pos {c : Int} (h : 0 ≤ c) : c.tdiv 12 = c / 12 ∧ c.tmod 12 = c % 12 :=
  ⟨Int.tdiv_eq_ediv_of_nonneg h, Int.tmod_eq_emod_of_nonneg h⟩

theorem octave_neg {c : Int} (h : c < 0) : c.tdiv 12 = -(-c / 12) ∧ c.tmod 12 = -(-c % 12) := by
  have h1 := octave_pos (c := -c) (by omega)
  rw [Int.neg_tdiv, Int.neg_tmod] at h1
  omega

theorem chromatic_eq {c : Int} (hc : InInt c) (hm : c ≠ INT_MIN) : transposeChromatic c = some (c.tmod 12) := by
  unfold transposeChromatic
  split
  · have hin : InInt (c.natAbs : Int) := by
      unfold InInt INT_MIN INT_MAX at *
      omega
    rw [chk_eq hin]
    show some _ = _
    congr 1
    split
    · rename_i h
      rw [show ((c.natAbs : Nat) : Int) = -c by omega]
      show -1 * (-c).tmod 12 = _
      rw [Int.neg_tmod]
      omega
    · rename_i h
      rw [show ((c.natAbs : Nat) : Int) = c by omega]
  · rename_i h; push Not at h; rw [h]; rfl

theorem octave_bounds {c : Int} (hc : InInt c) : -178956970 ≤ c.tdiv 12 ∧ c.tdiv 12 ≤ 178956970 ∧ -11 ≤ c.tmod 12 ∧ c.tmod 12 ≤ 11 ∧
    c.tmod 12 + c.tdiv 12 * 12 = c := by
  unfold InInt INT_MIN INT_MAX at hc
  rcases lt_or_ge c 0 with h | h
  · have := octave_neg h; omega
  · have := octave_pos h; omega

/-- The guess of the reader is the usual number of scale steps. -/
theorem figureOut_usual (c : Int) : figureOutDiatonic (c.tmod 12) + 7 * c.tdiv 12 = usualDiatonic c := by
  have key : ∀ n : Nat, n < 12 → figureOutDiatonic n = usualSteps.getD n 0 ∧ figureOutDiatonic (-n) = - usualSteps.getD n 0 := by decide
  rcases lt_or_ge c 0 with h | h
  · obtain ⟨h1, h2⟩ := octave_neg h
    rw [usualDiatonic, if_neg (by omega), h1, h2]
    have := (key (-c % 12).toNat (by omega)).2
    rw [show (((-c % 12).toNat : Nat) : Int) = -c % 12 by omega] at this
    rw [this]
    ring
  · obtain ⟨h1, h2⟩ := octave_pos h
    rw [usualDiatonic, if_pos h, h1, h2]
    have := (key (c % 12).toNat (by omega)).1
    rw [show (((c % 12).toNat : Nat) : Int) = c % 12 by omega] at this
    rw [this]
    ring

theorem usual_near {c : Int} (hc : InInt c) : -6 ≤ usualDiatonic c - 7 * c.tdiv 12 ∧ usualDiatonic c - 7 * c.tdiv 12 ≤ 6 := by
  have h1 := octave_bounds hc
  have key : ∀ n : Nat, n < 12 → -6 ≤ figureOutDiatonic n ∧ figureOutDiatonic n ≤ 6 ∧ -6 ≤ figureOutDiatonic (-n) ∧ figureOutDiatonic (-n) ≤ 6 := by decide
  have h2 : -6 ≤ figureOutDiatonic (c.tmod 12) ∧ figureOutDiatonic (c.tmod 12) ≤ 6 := by
    have := key (c.tmod 12).natAbs (by omega)
    rcases lt_or_ge (c.tmod 12) 0 with h | h
    · rw [show -(((c.tmod 12).natAbs : Nat) : Int) = c.tmod 12 by omega] at this; exact this.2.2
    · rw [show (((c.tmod 12).natAbs : Nat) : Int) = c.tmod 12 by omega] at this; exact ⟨this.1, this.2.1⟩
  have := figureOut_usual c
  omega

theorem usual_bounds {c : Int} (hc : InInt c) : -1252698796 ≤ usualDiatonic c ∧ usualDiatonic c ≤ 1252698796 := by
  have h1 := octave_bounds hc
  have h2 := usual_near hc
  omega

/-- What is written for the diatonic value. -/
theorem diatonic_eq {o d : Int} (ho : InInt (o * -7)) (hd : InInt (d - 7 * o)) :
    transposeDiatonic o d = some (if d ≠ 0 ∧ d ≠ 7 * o then some (d - 7 * o) else none) := by
  unfold transposeDiatonic
  by_cases h0 : d = 0
  · rw [if_neg (by simpa using h0), if_neg (by tauto)]
  · rw [if_pos h0]
    have e : (if o ≠ 0 then (chk (o * -7)).bind (fun x => chk (d + x)) else some d) = some (d - 7 * o) := by
      split
      · rw [chk_eq ho]
        show chk (d + o * -7) = _
        rw [show d + o * -7 = d - 7 * o by ring, chk_eq hd]
      · rename_i h; push Not at h; rw [h]; simp
    rw [e]
    show some (if d - 7 * o ≠ 0 then some (d - 7 * o) else none) = _
    congr 1
    by_cases h1 : d = 7 * o
    · rw [if_neg (by omega), if_neg (by tauto)]
    · rw [if_pos (by omega), if_pos ⟨h0, h1⟩]

/-- What a written transposition is read as. -/
theorem transposition_back {c d : Int} (hc : InInt c) (hm : c ≠ INT_MIN) (hd : InInt d) (hh : InInt (d - 7 * c.tdiv 12)) :
    ∃ x, convertToTranspose ⟨c, d⟩ = some x ∧
      convertToTransposeData x = some ⟨c, if d ≠ 0 ∧ d ≠ 7 * c.tdiv 12 then d else usualDiatonic c⟩ := by
  obtain ⟨b1, b2, b3, b4, b5⟩ := octave_bounds hc
  have hu := usual_bounds hc
  have hg := figureOut_usual c
  have hr : InInt (c.tmod 12) := by unfold InInt INT_MIN INT_MAX; omega
  have ho : InInt (c.tdiv 12) := by unfold InInt INT_MIN INT_MAX; omega
  have ho7 : InInt (c.tdiv 12 * -7) ∧ InInt (c.tdiv 12 * 7) ∧ InInt (c.tdiv 12 * 12) := by unfold InInt INT_MIN INT_MAX; omega
  obtain ⟨s, hs1, hs2⟩ := semitones_text (hasDecimals_int 6 (c.tmod 12)) (abs_int_le hr)
  refine ⟨⟨(if d ≠ 0 ∧ d ≠ 7 * c.tdiv 12 then some (d - 7 * c.tdiv 12) else none).map showInt, s,
    if transposeOctave c ≠ 0 then some (showInt (transposeOctave c)) else none⟩, ?_, ?_⟩
  · unfold convertToTranspose
    simp only [chromatic_eq hc hm, octave_eq, diatonic_eq ho7.1 hh]
    show (semitonesText _).bind _ = _
    rw [hs1]
    rfl
  · unfold convertToTransposeData
    have hoct : ((if transposeOctave c ≠ 0 then some (showInt (transposeOctave c)) else none).map parseInteger).getD 0 = c.tdiv 12 := by
      rw [octave_eq]
      split
      · show parseInteger _ = _
        exact parseInteger_showInt ho
      · rename_i h; push Not at h; rw [h]; rfl
    have hdia : readDiatonic (c.tmod 12) (((if d ≠ 0 ∧ d ≠ 7 * c.tdiv 12 then some (d - 7 * c.tdiv 12) else none).map showInt).map parseInteger) =
        some (if d ≠ 0 ∧ d ≠ 7 * c.tdiv 12 then d - 7 * c.tdiv 12 else figureOutDiatonic (c.tmod 12)) := by
      by_cases h : d ≠ 0 ∧ d ≠ 7 * c.tdiv 12
      · rw [if_pos h, if_pos h]
        show some (parseInteger _) = _
        rw [parseInteger_showInt hh]
      · rw [if_neg h, if_neg h]
        show (if c.tmod 12 ≥ -11 ∧ c.tmod 12 ≤ 11 then _ else _) = _
        rw [if_pos ⟨b3, b4⟩]
    have hin : InInt ((if d ≠ 0 ∧ d ≠ 7 * c.tdiv 12 then d - 7 * c.tdiv 12 else figureOutDiatonic (c.tmod 12)) + c.tdiv 12 * 7) := by
      split
      · rw [show d - 7 * c.tdiv 12 + c.tdiv 12 * 7 = d by ring]; exact hd
      · unfold InInt INT_MIN INT_MAX; omega
    simp only [hs2, castInt_int hr, hdia, hoct, Option.bind_eq_bind, Option.bind_some, chk_eq ho7.2.1, chk_eq hin, chk_eq ho7.2.2]
    rw [b5, chk_eq hc]
    show some _ = _
    congr 2
    split
    · ring
    · omega

/-- Every numeral for a whole number of semitones is read as that number. -/
theorem parseSemitones_numeral {s : Str} {c : Int} (h : DecimalText s (c : ℚ)) (hc : InInt c) : parseSemitones s = some (c : ℚ) := by
  have hle := abs_int_le hc
  obtain ⟨d0, h0⟩ : ∃ d0, DecimalRange.make .Semitones 0 = some d0 := Option.isSome_iff_exists.mp (by decide +kernel)
  have h64 : |(c : ℚ)| < 2 ^ 16384 := lt_of_le_of_lt hle (lt_of_lt_of_le (by norm_num : (9999999999999999999 : ℚ) < 2 ^ 64) (pow_le_pow_right₀ (by norm_num) (by norm_num)))
  obtain ⟨d', e1, e2⟩ := Props.C18_kept .Semitones 0 (c : ℚ) [] d0 d0 h0 rfl trivial (lt_of_le_of_lt hle (by norm_num)) (c * 10 ^ 6) (by push_cast; ring)
  rw [parseSemitones, h0]
  show ((d0.parse s).map _) = _
  rw [(Props.C51_parse_accepts_numerals d0 s).1 _ h h64, e1]
  show some d'.getValue = _
  rw [e2]

theorem parseInteger_text {s : Str} {v : Int} (h : IntegerText s v) (hv : InInt v) : parseInteger s = v := by
  obtain ⟨h1, h2, h3⟩ := (readInt_complete s v 0).mpr ⟨h, hv⟩
  rw [parseInteger, Integer.parse]
  simp [h1, h2, h3]

end Mx
