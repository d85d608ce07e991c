import Verif.Spec.Properties
import Verif.Props.IntegerProps
import Verif.Props.DecimalProps
import Verif.Props.StringProps
import Verif.Props.EnumProps
import Mathlib.Tactic.Linarith
import Mathlib.Tactic.Positivity
import Mathlib.Tactic.FieldSimp
import Mathlib.Data.Rat.Floor

open Spec
namespace Mx

theorem parseInteger_showInt {v : Int} (h : InInt v) : parseInteger (showInt v) = v := by
  have := Props.C17_integer_round_trip v ⟨0⟩ h
  rw [Integer.toStr] at this
  rw [parseInteger, this]

theorem parseBounded_text {k : IntKind} {v : Int} (h : InInt v) (hk : k.bounds.1 ≤ v ∧ v ≤ k.bounds.2) :
    parseBounded k (IntRange.ofKind k v).toStr = v := by
  rw [parseBounded, IntRange.default, Props.C17_int_round_trip k v 0 h]
  show clampInt _ _ _ = _
  unfold clampInt
  rw [if_neg (not_lt.mpr hk.1), if_neg (not_lt.mpr hk.2)]

/-- A decimal of a class without bounds with at most six decimals is written and read back. -/
theorem decimal_text_at {k : DecimalKind} {v : ℚ} (hk : InRange k v) (h : HasDecimals 6 v) (hv : |v| ≤ 9999999999999999999) :
    ∃ d0, DecimalRange.make k 0 = some d0 ∧ ∃ s, (DecimalRange.make k v).map DecimalRange.toStr = some s ∧
      (d0.parse s).map (fun r => r.2.getValue) = some v := by
  have hlt : |v| < 10 ^ 19 := lt_of_le_of_lt hv (by norm_num)
  obtain ⟨d0, h0⟩ : ∃ d0, DecimalRange.make k 0 = some d0 := Option.isSome_iff_exists.mp (by cases k <;> decide +kernel)
  obtain ⟨c, hc⟩ := h
  have hclamp : k.minClamp (k.maxClamp v) = v := (Props.clamp_eq k v).1 hk
  obtain ⟨p, g1, _, _, _, _, _, _, g8⟩ := PreciseDecimal.setValue_near
    { isNegative := decide (v < 0), integer := 0, decimal := 0, maxIntegerDigits := 19, maxDecimalDigits := 6 } v (le_refl 19) hlt
  have hm : DecimalRange.make k v = some ⟨k, p⟩ := by
    unfold DecimalRange.make PreciseDecimal.make
    rw [hclamp]
    show Option.map _ (PreciseDecimal.setValue _ v) = _
    rw [show (PreciseDecimal.clampDigits 19) = 19 from rfl, show (PreciseDecimal.clampDigits 6) = 6 from rfl, g1]
    rfl
  have hval : (DecimalRange.mk k p).getValue = v := g8 c hc
  obtain ⟨d', e1, e2, _⟩ := Props.C19_parse_back k v 0 [] _ d0 d0 hm (by rw [hclamp]; exact hv) (by rw [hval]; exact hk) h0 rfl
  refine ⟨d0, h0, _, by rw [hm]; rfl, ?_⟩
  rw [e1]
  show some d'.getValue = _
  rw [e2, hval]

theorem decimal_text {k : DecimalKind} (hk : ∀ v, InRange k v) {v : ℚ} (h : HasDecimals 6 v) (hv : |v| ≤ 9999999999999999999) :
    ∃ d0, DecimalRange.make k 0 = some d0 ∧ ∃ s, (DecimalRange.make k v).map DecimalRange.toStr = some s ∧
      (d0.parse s).map (fun r => r.2.getValue) = some v := decimal_text_at (hk v) h hv

theorem semitones_text {v : ℚ} (h : HasDecimals 6 v) (hv : |v| ≤ 9999999999999999999) :
    ∃ s, semitonesText v = some s ∧ parseSemitones s = some v := by
  obtain ⟨d0, h0, s, h1, h2⟩ := decimal_text (k := .Semitones) (fun _ => trivial) h hv
  refine ⟨s, h1, ?_⟩
  rw [parseSemitones, h0]
  exact h2

theorem tenths_text {v : ℚ} (h : HasDecimals 6 v) (hv : |v| ≤ 9999999999999999999) :
    ∃ s, tenthsText v = some s ∧ parseTenths s = some v := by
  obtain ⟨d0, h0, s, h1, h2⟩ := decimal_text (k := .TenthsValue) (fun _ => trivial) h hv
  refine ⟨s, h1, ?_⟩
  rw [parseTenths, h0]
  exact h2

theorem hasDecimals_int (n : Nat) (c : Int) : HasDecimals n (c : ℚ) := ⟨c * 10 ^ n, by push_cast; ring⟩

theorem abs_int_le {c : Int} (h : InInt c) : |(c : ℚ)| ≤ 9999999999999999999 := by
  have h1 : (c : ℚ) ≤ 2147483647 := by have := h.2; unfold INT_MAX at this; exact_mod_cast this
  have h2 : (-2147483648 : ℚ) ≤ c := by have := h.1; unfold INT_MIN at this; exact_mod_cast this
  rw [abs_le]
  constructor <;> linarith

theorem chk_eq {x : Int} (h : InInt x) : chk x = some x := by rw [chk, if_pos h]

theorem castInt_int {c : Int} (h : InInt c) : castInt (c : ℚ) = some c := by
  rw [castInt]
  simp only [Rat.num_intCast, Rat.den_intCast, Nat.cast_one, Int.tdiv_one]
  exact chk_eq h

/-- Truncation toward zero. -/
theorem tdiv_eq_of_le {q : ℚ} {c : Int} (h0 : 0 ≤ c) (h1 : (c : ℚ) ≤ q) (h2 : q < c + 1) : q.num.tdiv q.den = c := by
  have hq : 0 ≤ q := le_trans (by exact_mod_cast h0) h1
  have hn : 0 ≤ q.num := Rat.num_nonneg.mpr hq
  rw [Int.tdiv_eq_ediv_of_nonneg hn]
  have : ⌊q⌋ = c := Int.floor_eq_iff.mpr ⟨h1, h2⟩
  rw [← this, Rat.floor_def']

theorem castInt_fraction {c : Int} {f : ℚ} (hc : InInt c) (hf : |f| < 1) (hs : 0 ≤ (c : ℚ) * f) : castInt ((c : ℚ) + f) = some c := by
  have key : ((c : ℚ) + f).num.tdiv ((c : ℚ) + f).den = c := by
    rw [abs_lt] at hf
    rcases lt_trichotomy c 0 with h | h | h
    · have hc0 : (c : ℚ) < 0 := by exact_mod_cast h
      have hf0 : f ≤ 0 := by
        by_contra hn
        have := mul_neg_of_neg_of_pos hc0 (not_le.mp hn)
        linarith
      have := tdiv_eq_of_le (q := -((c : ℚ) + f)) (c := -c) (by omega) (by push_cast; linarith) (by push_cast; linarith)
      rw [Rat.neg_num, Rat.neg_den, Int.neg_tdiv] at this
      omega
    · subst h
      push_cast
      rw [zero_add]
      rcases le_total 0 f with h0 | h0
      · exact tdiv_eq_of_le (le_refl 0) (by simpa using h0) (by push_cast; linarith [hf.2])
      · have := tdiv_eq_of_le (q := -f) (c := 0) (le_refl 0) (by push_cast; linarith) (by push_cast; linarith [hf.1])
        rw [Rat.neg_num, Rat.neg_den, Int.neg_tdiv] at this
        omega
    · have hc0 : (0 : ℚ) < c := by exact_mod_cast h
      have hf0 : 0 ≤ f := by
        by_contra hn
        have := mul_neg_of_pos_of_neg hc0 (not_le.mp hn)
        linarith
      exact tdiv_eq_of_le (by omega) (by linarith) (by linarith [hf.2])
  rw [castInt, key, chk_eq hc]

theorem convertToAlter_eq (a : Int) (c : ℚ) : convertToAlter a c = (a : ℚ) + c / 100 := by
  unfold convertToAlter
  split
  · split
    · rfl
    · rename_i h; push Not at h; rw [h]; norm_num
  · rename_i h
    push Not at h
    rw [h.1, h.2]; norm_num

/-- Alteration and cents are recovered from their sum. -/
theorem semitonesAndCents_back {a : Int} {c : ℚ} (ha : InInt a) (hc : CentsFit a c) :
    convertToSemitonesAndCents (convertToAlter a c) = some (a, c) := by
  obtain ⟨h1, h2, n, hn⟩ := hc
  rw [convertToAlter_eq, convertToSemitonesAndCents, castInt_fraction ha (by rw [abs_div, abs_of_pos (by norm_num : (0 : ℚ) < 100)]; linarith)
    (by rw [mul_div_assoc']; positivity)]
  show some (a, _) = _
  congr 2
  rw [add_sub_cancel_left]
  by_cases h0 : c = 0
  · subst h0; simp
  · rw [if_pos]
    · ring
    · have hn0 : n ≠ 0 := by
        rintro rfl
        apply h0
        have h4 : c * 10 ^ 4 = 0 := by rw [hn]; norm_num
        rcases mul_eq_zero.mp h4 with h | h
        · exact h
        · norm_num at h
      have hn1 : (1 : ℚ) ≤ |(n : ℚ)| := by
        have : (1 : Int) ≤ |n| := Int.one_le_abs hn0
        exact_mod_cast this
      have hc1 : |c| * 10 ^ 4 = |(n : ℚ)| := by rw [← hn, abs_mul, abs_of_pos (by norm_num : (0 : ℚ) < 10 ^ 4)]
      rw [abs_div, abs_of_pos (by norm_num : (0 : ℚ) < 100)]
      show 1 / 1000000000000 ≤ _
      rw [le_div_iff₀ (by norm_num)]
      linarith

/-- The alteration as text. -/
theorem alter_text {a : Int} {c : ℚ} (ha : InInt a) (hc : CentsFit a c) :
    ∃ s, semitonesText (convertToAlter a c) = some s ∧ parseSemitones s = some (convertToAlter a c) ∧
      convertToSemitonesAndCents (convertToAlter a c) = some (a, c) := by
  have hback := semitonesAndCents_back ha hc
  obtain ⟨h1, _, n, hn⟩ := hc
  obtain ⟨s, hs, hp⟩ := semitones_text (v := convertToAlter a c)
    ⟨a * 10 ^ 6 + n, by rw [convertToAlter_eq]; push_cast; rw [← hn]; ring⟩
    (by
      rw [convertToAlter_eq]
      have h3 : (a : ℚ) ≤ 2147483647 := by have := ha.2; unfold INT_MAX at this; exact_mod_cast this
      have h4 : (-2147483648 : ℚ) ≤ a := by have := ha.1; unfold INT_MIN at this; exact_mod_cast this
      rw [abs_lt] at h1
      rw [abs_le]
      constructor <;> linarith [h1.1, h1.2])
  exact ⟨s, hs, hp, hback⟩

theorem convertToAlter_zero {a : Int} {c : ℚ} (ha : InInt a) (hc : CentsFit a c) (h : convertToAlter a c = 0) : a = 0 ∧ c = 0 := by
  have hb := semitonesAndCents_back ha hc
  rw [h] at hb
  have h0 : convertToSemitonesAndCents 0 = some (0, 0) := by decide +kernel
  rw [h0] at hb
  injection hb with hb
  injection hb with h1 h2
  exact ⟨h1.symm, h2.symm⟩

theorem mapM_length {α β : Type} {f : α → Option β} : ∀ {l : List α} {r : List β}, l.mapM f = some r → r.length = l.length
  | [], r, h => by simp at h; simp [h]
  | x :: l, r, h => by
    rw [List.mapM_cons] at h
    cases hx : f x with
    | none => simp [hx] at h
    | some y =>
      cases hl : l.mapM f with
      | none => simp [hx, hl] at h
      | some ys =>
        simp [hx, hl] at h
        subst h
        simp [mapM_length hl]

theorem lastExplicit_append (l : List (Option TimeSignatureData)) (t : Option TimeSignatureData) :
    lastExplicit (l ++ [t]) = match t with | some t => some t | none => lastExplicit l := by
  unfold lastExplicit
  cases t <;> simp

/-- The time signature computed for a measure, from those stated before. -/
theorem readMeasureTime_eq {pre fs : List (Option TimeSignatureData)} {f : Option TimeSignatureData} {x : Option TimeXml} {prev : TimeSignatureData}
    (hprev : pre ≠ [] → { prev with isImplicit := true } = { (lastExplicit pre).getD {} with isImplicit := true }) (hx : timeFound x = some f) :
    readMeasureTime pre.length prev x = some (timeAt (pre ++ f :: fs) pre.length) := by
  have htake : (pre ++ f :: fs).take (pre.length + 1) = pre ++ [f] := by
    rw [List.take_append, List.take_of_length_le (by omega)]
    simp
  have hget : (pre ++ f :: fs)[pre.length]? = some f := by simp
  unfold readMeasureTime timeAt
  rw [hx, htake, hget, lastExplicit_append]
  cases f with
  | some t => rfl
  | none =>
    show some _ = some _
    congr 1
    by_cases hp : pre = []
    · subst hp; rfl
    · rw [if_pos (List.length_pos_iff.mpr hp)]
      exact hprev hp

theorem readTimesFrom_eq (pre : List (Option TimeSignatureData)) (xs : List (Option TimeXml)) (found : List (Option TimeSignatureData)) (prev : TimeSignatureData)
    (hprev : pre ≠ [] → { prev with isImplicit := true } = { (lastExplicit pre).getD {} with isImplicit := true }) (h : xs.mapM timeFound = some found) :
    readTimesFrom pre.length prev xs = some ((List.range found.length).map (fun i => timeAt (pre ++ found) (pre.length + i))) := by
  induction xs generalizing pre found prev with
  | nil => simp at h; subst h; rfl
  | cons x xs ih =>
    rw [List.mapM_cons] at h
    cases hx : timeFound x with
    | none => simp [hx] at h
    | some f =>
      cases hl : xs.mapM timeFound with
      | none => simp [hx, hl] at h
      | some fs =>
        simp [hx, hl] at h
        subst h
        have h1 := readMeasureTime_eq (fs := fs) hprev hx
        have h2 := ih (pre ++ [f]) fs (timeAt (pre ++ f :: fs) pre.length) (by
          intro _
          have htake : (pre ++ f :: fs).take (pre.length + 1) = pre ++ [f] := by
            rw [List.take_append, List.take_of_length_le (by omega)]
            simp
          unfold timeAt
          rw [htake]) hl
        rw [List.length_append, List.append_assoc] at h2
        unfold readTimesFrom
        rw [h1]
        show (readTimesFrom _ _ _).bind _ = _
        simp only [List.length_singleton, List.singleton_append] at h2
        rw [h2]
        show some (_ :: _) = some _
        congr 1
        rw [List.length_cons, List.range_succ_eq_map, List.map_cons, List.map_map]
        refine congrArg₂ List.cons rfl (List.map_congr_left ?_)
        intro i _
        show timeAt _ _ = timeAt _ _
        congr 1
        simp only [Nat.succ_eq_add_one]
        omega

theorem stringToInt_showInt {v old : Int} (h : InInt v) : stringToInt (showInt v) old = some (true, v) :=
  ((Props.C36_canonical_partial (showInt v) old).1 v).mpr ⟨(canonical_iff _ _).mpr rfl, h⟩

theorem timeFound_write (t : TimeSignatureData) (h : InInt t.beats ∧ InInt t.beatType) :
    timeFound (writeMeasureTime t) = some (if t.isImplicit then none else some t) := by
  obtain ⟨sy, b, bt, im, di⟩ := t
  cases im with
  | true => rfl
  | false =>
    unfold writeMeasureTime timeFound writeTime parseTime
    simp only [Bool.false_eq_true, if_false, stringToInt_showInt h.1, stringToInt_showInt h.2]
    show some (some _) = some (some _)
    congr 2
    cases sy <;> cases di <;> rfl

theorem showInt_not_white (v : Int) : ∀ c ∈ showInt v, ¬ White c := by
  intro c hc hw
  unfold showInt at hc
  have hd : ∀ c ∈ Nat.toDigits 10 v.natAbs, ¬ White c := by
    intro c hc hw
    have := isWs_of_isDigit (toDigits_isDigit c hc)
    rw [isWs_iff.mpr hw] at this
    cases this
  split at hc
  · rcases List.mem_cons.mp hc with rfl | hc
    · revert hw; decide
    · exact hd c hc hw
  · exact hd c hc hw

theorem showInt_normalised (v : Int) : Normalised (showInt v) := by
  have h := showInt_not_white v
  have hs : ' ' ∉ showInt v := fun hm => h _ hm (by decide)
  refine ⟨fun c hc hw => absurd hw (h c hc), fun a b e => hs (by rw [e]; simp), fun e => hs (List.mem_of_head? e), fun e => hs (List.mem_of_getLast? e)⟩

end Mx
