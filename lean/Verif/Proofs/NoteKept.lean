import Verif.Spec.NoteSaid
import Verif.Proofs.NoteDetails
import Verif.Proofs.Transposition

/-
Lemmas for C97: what a note says is what it says after it was read and written.
-/
open Spec
namespace Mx
open Measure (NoteKind)

theorem parseBounded_numeral {k : IntKind} {s : Str} {v : Int} (h : IntegerText s v) (hv : InInt v) (hk : k.bounds.1 ≤ v ∧ v ≤ k.bounds.2) : parseBounded k s = v := by
  obtain ⟨h1, h2, h3⟩ := (readInt_complete s v 0).mpr ⟨h, hv⟩
  unfold parseBounded IntRange.parse
  simp only [h1, h2, h3, IntRange.default]
  simp only [Bool.false_eq_true, not_true_eq_false, or_self, if_false]
  show clampInt k.bounds.1 k.bounds.2 v = _
  unfold clampInt
  rw [if_neg (not_lt.mpr hk.1), if_neg (not_lt.mpr hk.2)]

theorem bounded_says {k : IntKind} {v : Int} (hk : k.bounds.1 ≤ v ∧ v ≤ k.bounds.2) : IntegerText (IntRange.ofKind k v).toStr v := by
  have : (IntRange.ofKind k v).value = v := by
    show clampInt _ _ _ = _
    unfold clampInt
    rw [if_neg (not_lt.mpr hk.1), if_neg (not_lt.mpr hk.2)]
  rw [IntRange.toStr, this]
  exact showInt_text v

/-! ### alterations -/

theorem castInt_any {v : ℚ} (h : |v| ≤ 2147483647) : ∃ i : Int, castInt v = some i := by
  refine ⟨v.num.tdiv v.den, ?_⟩
  rw [castInt]
  apply chk_eq
  have hd : (0 : Int) < v.den := by exact_mod_cast v.den_pos
  have hq : |(v.num : ℚ)| ≤ 2147483647 * (v.den : ℚ) := by
    rw [← Rat.mul_den_eq_num v, abs_mul, abs_of_nonneg (by positivity : (0 : ℚ) ≤ (v.den : ℚ))]
    exact mul_le_mul_of_nonneg_right h (by positivity)
  have hz : |v.num| ≤ 2147483647 * (v.den : Int) := by exact_mod_cast hq
  have hn : v.num.natAbs ≤ 2147483647 * v.den := by
    rw [Int.abs_eq_natAbs] at hz
    exact_mod_cast hz
  have h2 : (v.num.tdiv v.den).natAbs ≤ 2147483647 := by
    rw [Int.natAbs_tdiv, Int.natAbs_natCast]
    exact Nat.div_le_of_le_mul (by rw [Nat.mul_comm]; exact hn)
  unfold InInt INT_MIN INT_MAX
  omega

theorem alter_split {v : ℚ} (h6 : HasDecimals 6 v) (h : |v| ≤ 2147483647) : ∃ i c, convertToSemitonesAndCents v = some (i, c) ∧ (i : ℚ) + c / 100 = v := by
  obtain ⟨i, hi⟩ := castInt_any h
  refine ⟨i, _, by rw [convertToSemitonesAndCents, hi]; rfl, ?_⟩
  by_cases hm : |v - (i : ℚ)| ≥ 1 / 1000000000000
  · rw [if_pos hm]; ring
  · rw [if_neg hm]
    obtain ⟨n, hn⟩ := h6
    have hz : n - i * 10 ^ 6 = 0 := by
      by_contra hne
      have h1 : (1 : Int) ≤ |n - i * 10 ^ 6| := Int.one_le_abs hne
      have h2 : (1 : ℚ) ≤ |(v - (i : ℚ)) * 10 ^ 6| := by
        have : (v - (i : ℚ)) * 10 ^ 6 = ((n - i * 10 ^ 6 : Int) : ℚ) := by rw [sub_mul, hn]; push_cast; ring
        rw [this]
        exact_mod_cast h1
      rw [abs_mul, abs_of_pos (by norm_num : (0 : ℚ) < 10 ^ 6)] at h2
      push Not at hm
      have : |v - (i : ℚ)| * 10 ^ 6 < 1 / 1000000000000 * 10 ^ 6 := mul_lt_mul_of_pos_right hm (by norm_num)
      norm_num at this h2
      linarith
    have : v * 10 ^ 6 = (i : ℚ) * 10 ^ 6 := by rw [hn]; have : n = i * 10 ^ 6 := by omega
                                               rw [this]; push_cast; ring
    have : v = i := by
      have h10 : (10 : ℚ) ^ 6 ≠ 0 := by norm_num
      exact mul_right_cancel₀ h10 this
    rw [this]; norm_num

theorem semitones_says {v : ℚ} (h6 : HasDecimals 6 v) (hv : |v| ≤ 2147483647) : ∃ s, semitonesText v = some s ∧ DecimalText s v := by
  have hlt : |v| < 10 ^ PreciseDecimal.clampDigits 19 := lt_of_le_of_lt hv (by show (2147483647 : ℚ) < 10 ^ 19; norm_num)
  obtain ⟨p, w, h1, h2, _, _, h3⟩ := Props.C19_text_is_nearest 19 6 v hlt
  obtain ⟨n, hn⟩ := h6
  have hw := h3 n (by show v * 10 ^ 6 = n; exact hn)
  refine ⟨p.toStr, ?_, by rw [← hw]; exact CanonicalDecimal.text h2⟩
  unfold semitonesText DecimalRange.make
  rw [show DecimalKind.minClamp .Semitones (DecimalKind.maxClamp .Semitones v) = v from (Props.clamp_eq .Semitones v).1 trivial, h1]
  rfl

theorem parseSemitones_decimal {s : Str} {v : ℚ} (h : DecimalText s v) (h6 : HasDecimals 6 v) (hv : |v| ≤ 2147483647) : parseSemitones s = some v := by
  obtain ⟨d0, h0⟩ : ∃ d0, DecimalRange.make .Semitones 0 = some d0 := Option.isSome_iff_exists.mp (by decide +kernel)
  have h64 : |v| < 2 ^ 16384 := lt_of_le_of_lt hv (lt_of_lt_of_le (by norm_num : (2147483647 : ℚ) < 2 ^ 64) (pow_le_pow_right₀ (by norm_num) (by norm_num)))
  obtain ⟨n, hn⟩ := h6
  obtain ⟨d', e1, e2⟩ := Props.C18_kept .Semitones 0 v [] d0 d0 h0 rfl trivial (lt_of_le_of_lt hv (by norm_num)) n hn
  rw [parseSemitones, h0]
  show ((d0.parse s).map _) = _
  rw [(Props.C51_parse_accepts_numerals d0 s).1 _ h h64, e1]
  show some d'.getValue = _
  rw [e2]

/-- What `<alter>` says. -/
def alterSays (a : Option Str) (v : ℚ) : Prop := match a with | none => v = 0 | some t => DecimalText t v

theorem alter_kept {a : Option Str} {v : ℚ} (h : alterSays a v) (h6 : HasDecimals 6 v) (hv : |v| ≤ 2147483647) :
    ∃ i c, readAlter a = some (i, c) ∧ ∀ p : PitchData, p.alter = i → p.cents = c → ∃ b, writeAlter p = some b ∧ alterSays b v := by
  have hr : ∃ i c, readAlter a = some (i, c) ∧ (i : ℚ) + c / 100 = v := by
    cases a with
    | none => exact ⟨0, 0, rfl, by have h : v = 0 := h; rw [h]; norm_num⟩
    | some t =>
      obtain ⟨i, c, e1, e2⟩ := alter_split h6 hv
      exact ⟨i, c, by show (parseSemitones t).bind _ = _; rw [parseSemitones_decimal h h6 hv]; exact e1, e2⟩
  obtain ⟨i, c, e1, e2⟩ := hr
  refine ⟨i, c, e1, ?_⟩
  intro p hp1 hp2
  unfold writeAlter
  by_cases hz : p.alter ≠ 0 ∨ p.cents ≠ 0
  · obtain ⟨s, g1, g2⟩ := semitones_says h6 hv
    rw [if_pos hz, convertToAlter_eq, hp1, hp2, e2, g1]
    exact ⟨some s, rfl, g2⟩
  · rw [if_neg hz]
    push Not at hz
    refine ⟨none, rfl, ?_⟩
    show v = 0
    rw [← e2, ← hp1, ← hp2, hz.1, hz.2]; norm_num

/-! ### values of enumerations -/

theorem step_kept (s : Core.StepEnum) : StringEnum.toStr (MapName.stepMap.toCore (MapName.stepMap.toApi (parseEnum (StringEnum.toStr s) : Core.StepEnum) : Api.Step) : Core.StepEnum) = StringEnum.toStr s := by
  cases s <;> rfl

theorem type_kept (s : Core.NoteTypeValue) : StringEnum.toStr (MapName.durationMap.toCore (MapName.durationMap.toApi (parseEnum (StringEnum.toStr s) : Core.NoteTypeValue) : Api.DurationName) : Core.NoteTypeValue) = StringEnum.toStr s := by
  cases s <;> rfl

theorem stem_kept (s : Option Core.StemValue) : (if (((s.map StringEnum.toStr).map (fun t => (MapName.stemMap.toApi (parseEnum t : Core.StemValue) : Api.Stem))).getD .unspecified) = .unspecified then none
    else some (StringEnum.toStr (MapName.stemMap.toCore (((s.map StringEnum.toStr).map (fun t => (MapName.stemMap.toApi (parseEnum t : Core.StemValue) : Api.Stem))).getD .unspecified) : Core.StemValue))) =
    s.map StringEnum.toStr := by
  cases s with
  | none => rfl
  | some s => cases s <;> rfl

theorem notehead_kept {x : Option Str} {v : Core.NoteheadValue} (h : x = some (StringEnum.toStr v) ∨ (x = none ∧ v = .normal)) (hf : v ≠ .faUp) (w : Api.Notehead)
    (hw : w = MapName.noteheadMap.toApi ((x.map (fun t => (parseEnum t : Core.NoteheadValue))).getD .normal)) :
    ∀ y, y = (if w ≠ .normal then some (StringEnum.toStr (MapName.noteheadMap.toCore w : Core.NoteheadValue)) else none) → y = some (StringEnum.toStr v) ∨ (y = none ∧ v = .normal) := by
  have hw' : w = MapName.noteheadMap.toApi v := by
    rw [hw]
    rcases h with h | ⟨h, e⟩
    · rw [h]; cases v <;> rfl
    · rw [h, e]; rfl
  subst hw'
  rintro y rfl
  cases v <;> first | exact absurd rfl hf | exact .inr ⟨rfl, rfl⟩ | exact .inl rfl

theorem accidental_kept {x : Option AccidentalXml} {a : Option (Core.AccidentalValue × Bool × Bool × Bool × Bool)} (h : AccidentalSays x a)
    (hk : ∀ v p c e b, a = some (v, p, c, e, b) → v ≠ .sharpSharp ∧ (p, c, e, b) = (false, false, false, false)) (p q : PitchData) (hp : p = readAccidental x q) :
    AccidentalSays (writeAccidental p) a := by
  subst hp
  cases x with
  | none =>
    cases a with
    | none => exact trivial
    | some a => exact absurd h (by simp [AccidentalSays])
  | some x =>
    cases a with
    | none => exact absurd h (by simp [AccidentalSays])
    | some a =>
      obtain ⟨v, m1, m2, m3, m4⟩ := a
      obtain ⟨k1, k2⟩ := hk v m1 m2 m3 m4 rfl
      cases k2
      obtain ⟨h1, _⟩ := h
      unfold writeAccidental readAccidental
      simp only [h1]
      cases v <;> first | exact absurd rfl k1 | exact ⟨rfl, .inr ⟨rfl, .inl rfl⟩, .inr ⟨rfl, .inl rfl⟩, .inr ⟨rfl, .inl rfl⟩, .inr ⟨rfl, .inl rfl⟩⟩

/-! ### beams -/

/-- Beams are read by the values of their numbers. -/
theorem readBeamsFrom_spelling : ∀ (xs : List BeamXml) (bs : List (Nat × Core.BeamValue)), List.Forall₂ BeamSays xs bs → (∀ x ∈ xs, x.number ≠ none) → (∀ b ∈ bs, 1 ≤ b.1 ∧ b.1 ≤ 8) →
    ∀ (start : Int) (m : List (Int × Core.BeamValue)),
    readBeamsFrom start m xs = readBeamsFrom start m (bs.map (fun x => { number := some (showInt x.1), value := StringEnum.toStr x.2 }))
  | [], _, h, _, _, _, _ => by cases h; rfl
  | x :: xs, _, h, hn, hb, start, m => by
    cases h with
    | @cons _ b _ bs h1 h2 =>
      obtain ⟨g1, g2⟩ := h1
      obtain ⟨b1, b8⟩ := hb b (by simp)
      rw [List.map_cons, readBeamsFrom, readBeamsFrom]
      have hidx : beamIndex start m x = beamIndex start m { number := some (showInt b.1), value := StringEnum.toStr b.2 } := by
        cases hx : x.number with
        | none => exact absurd hx (hn x (by simp))
        | some t =>
          rw [hx] at g2
          have hp : parseBounded .BeamLevel t = (b.1 : Int) :=
            parseBounded_numeral g2 (by unfold InInt INT_MIN INT_MAX; omega) (by constructor <;> simp only [IntKind.bounds] <;> omega)
          unfold beamIndex
          rw [hx]
          simp only [Option.map_some, hp, beamNumber_back b1 b8]
      rw [hidx, g1]
      exact readBeamsFrom_spelling xs bs h2 (fun y hy => hn y (by simp [hy])) (fun y hy => hb y (by simp [hy])) _ _

theorem beamXmls_says : ∀ (ys : List (Nat × Core.BeamValue)) (i : Nat), ys.map (·.1) = List.range' (i + 1) ys.length → i + ys.length ≤ 8 →
    List.Forall₂ BeamSays (beamXmls i (ys.map (fun y => (MapName.beamMap.toApi y.2 : Api.Beam)))) ys
  | [], _, _, _ => .nil
  | y :: ys, i, h, hl => by
    rw [List.map_cons, List.length_cons, List.range'_succ, List.cons.injEq] at h
    rw [List.map_cons, beamXmls]
    simp only [List.length_cons] at hl
    refine .cons ⟨?_, ?_⟩ (beamXmls_says ys (i + 1) h.2 (by omega))
    · obtain ⟨n, v⟩ := y
      cases v <;> rfl
    · simp only
      rw [h.1]
      have := @bounded_says .BeamLevel ((i : Int) + 1) (by constructor <;> simp only [IntKind.bounds] <;> omega)
      push_cast
      exact this

theorem beams_kept {xs : List BeamXml} {bs : List (Nat × Core.BeamValue)} (h : List.Forall₂ BeamSays xs bs) (hn : ∀ x ∈ xs, x.number = none → xs.length = 1)
    (hp : (bs.map (·.1)).Perm (List.range' 1 bs.length)) (hl : bs.length ≤ 8) : ∃ ys, ys.Perm bs ∧ List.Forall₂ BeamSays (writeBeams (readBeams xs)) ys := by
  have hb : ∀ b ∈ bs, 1 ≤ b.1 ∧ b.1 ≤ 8 := by
    intro b hb
    have := hp.mem_iff.mp (List.mem_map_of_mem (f := (·.1)) hb)
    rw [List.mem_range'_1] at this
    omega
  obtain ⟨ys, hy1, hy2⟩ : ∃ ys : List (Nat × Core.BeamValue), ys.Perm bs ∧ ys.map (·.1) = List.range' 1 bs.length := by
    refine ⟨bs.mergeSort (fun a b => decide (a.1 ≤ b.1)), List.mergeSort_perm _ _, ?_⟩
    have hs : (bs.mergeSort (fun a b => decide (a.1 ≤ b.1))).Pairwise (fun a b => a.1 ≤ b.1) := by
      have := List.pairwise_mergeSort (le := fun a b : Nat × Core.BeamValue => decide (a.1 ≤ b.1)) (fun a b c h1 h2 => by simp at *; omega) (fun a b => by simp; omega) bs
      exact this.imp (fun {a b} h => by simpa using h)
    refine List.Perm.eq_of_pairwise (le := fun a b : Nat => a ≤ b) (fun a b _ _ h1 h2 => Nat.le_antisymm h1 h2) (List.pairwise_map.mpr hs) ?_ (((List.mergeSort_perm _ _).map _).trans hp)
    exact (List.pairwise_lt_range' (s := 1) (n := bs.length)).imp (fun {a b} h => Nat.le_of_lt h)
  have hlen : ys.length = bs.length := hy1.length_eq
  refine ⟨ys, hy1, ?_⟩
  have hread : readBeams xs = ys.map (fun y => MapName.beamMap.toApi y.2) := by
    by_cases hall : ∀ x ∈ xs, x.number ≠ none
    · rw [readBeams, readBeamsFrom_spelling xs bs h hall hb, ← readBeams]
      refine readBeams_any_order hb ?_ hy1 ?_
      · exact hp.nodup_iff.mpr List.nodup_range'
      · have : (ys.map (·.1)).Pairwise (fun a b => a < b) := by rw [hy2]; exact List.pairwise_lt_range'
        exact List.pairwise_map.mp this
    · push Not at hall
      obtain ⟨x, hx, hx0⟩ := hall
      obtain ⟨z, rfl⟩ := List.length_eq_one_iff.mp (hn x hx hx0)
      rw [List.mem_singleton] at hx
      subst hx
      cases h with
      | @cons _ b _ _ h1 h2 =>
        cases h2
        have hys : ys = [b] := List.perm_singleton.mp hy1
        subst hys
        simp only [readBeams, readBeamsFrom, mapPut, List.map_cons, List.map_nil, h1.1, parseBeam_back]
  rw [hread, writeBeams_eq, List.take_of_length_le (by rw [List.length_map]; omega)]
  exact beamXmls_says ys 0 (by rw [hy2, hlen]) (by omega)

/-! ### the parts of a note -/

theorem yes_iff {t : Option Str} {b : Bool} (h : Marked t b) : isYes t = b := by
  rcases h with ⟨rfl, rfl⟩ | ⟨rfl, rfl | rfl⟩ <;> rfl

theorem sound_kept {x : SoundXml} {a : SoundSaid} (h : SoundSays x a) (hk : SoundKept a) :
    ∃ s, readSound x = some s ∧ ((s.1 = true ∧ s.2.1 = true) ↔ ∃ place, a = .rest true place) ∧
      ∀ n : NoteDetails, n.isRest = s.1 → n.isMeasureRest = s.2.1 → n.isUnpitched = s.2.2.1 → n.pitchData.step = s.2.2.2.2.step → n.pitchData.alter = s.2.2.2.2.alter →
        n.pitchData.cents = s.2.2.2.2.cents → n.pitchData.octave = s.2.2.2.2.octave → ∃ z, writeSound n = some z ∧ SoundSays z a := by
  cases x with
  | rest m d =>
    cases a with
    | rest w place =>
      obtain ⟨h1, h2⟩ := h
      have hk : place = none := hk
      subst hk
      refine ⟨_, rfl, ?_, ?_⟩
      · simp only [yes_iff h1, true_and]
        constructor
        · rintro rfl; exact ⟨none, rfl⟩
        · rintro ⟨p, e⟩; injection e
      · intro n e1 e2 _ _ _ _ _
        refine ⟨_, by rw [writeSound, if_pos e1], ?_⟩
        refine ⟨?_, trivial⟩
        have e2 : n.isMeasureRest = w := e2.trans (yes_iff h1)
        rw [e2]
        cases w
        · exact .inr ⟨rfl, .inl rfl⟩
        · exact .inl ⟨rfl, rfl⟩
    | unpitched place => exact absurd h (by simp [SoundSays])
    | pitch s al o => exact absurd h (by simp [SoundSays])
  | unpitched d =>
    cases a with
    | rest w place => exact absurd h (by simp [SoundSays])
    | unpitched place =>
      have hk : place = none := hk
      subst hk
      refine ⟨_, rfl, by simp, ?_⟩
      intro n e1 _ e3 _ _ _ _
      have e1 : n.isRest = false := e1
      refine ⟨.unpitched none, by rw [writeSound, e1, if_neg (by simp), if_pos e3], trivial⟩
    | pitch s al o => exact absurd h (by simp [SoundSays])
  | pitch st al oc =>
    cases a with
    | rest w place => exact absurd h (by simp [SoundSays])
    | unpitched place => exact absurd h (by simp [SoundSays])
    | pitch step alter octave =>
      obtain ⟨h1, h2, h3⟩ := h
      obtain ⟨k1, k2, k3, k4⟩ := hk
      obtain ⟨i, c, g1, g2⟩ := alter_kept (a := al) h2 k3 k4
      refine ⟨_, by rw [readSound, g1]; rfl, by simp, ?_⟩
      intro n e1 _ e3 e4 e5 e6 e7
      have e1 : n.isRest = false := e1
      have e3 : n.isUnpitched = false := e3
      obtain ⟨b, b1, b2⟩ := g2 n.pitchData e5 e6
      refine ⟨.pitch (StringEnum.toStr (MapName.stepMap.toCore n.pitchData.step : Core.StepEnum)) b (IntRange.ofKind .OctaveValue n.pitchData.octave).toStr,
        by rw [writeSound, e1, e3, if_neg (by simp), if_neg (by simp), b1]; rfl, ?_, b2, ?_⟩
      · rw [e4, h1]; exact step_kept step
      · have : n.pitchData.octave = octave := by
          rw [e7]
          exact parseBounded_numeral h3 (by unfold InInt INT_MIN INT_MAX; omega) ⟨k1, k2⟩
        rw [this]
        exact bounded_says ⟨k1, k2⟩

theorem hasTie_iff {t : Core.StartStop} {ties : List Str} (h : ∀ t ∈ ties, t = chars "start" ∨ t = chars "stop") : hasTie t ties = true ↔ StringEnum.toStr t ∈ ties := by
  unfold hasTie
  rw [List.any_eq_true]
  constructor
  · rintro ⟨s, hs, e⟩
    rw [decide_eq_true_eq] at e
    subst e
    rcases h s hs with rfl | rfl <;> exact hs
  · intro hs
    refine ⟨_, hs, ?_⟩
    cases t <;> rfl

theorem modification_kept {x : Option TimeModificationXml} {a n : Int} (h : ModificationSays x a n) (ha : 0 < a ∧ a ≤ INT_MAX) (hn : 0 < n ∧ n ≤ INT_MAX) (t : Core.NoteTypeValue) :
    (readTimeModification t x).1 = a ∧ (readTimeModification t x).2.1 = n ∧
    ∀ (shown : Option (Api.DurationName × Nat)) (d : DurationNames), d.actualNotes = a → d.normalNotes = n → ModificationSays (writeTimeModification shown d) a n := by
  have ia : InInt a := ⟨by have : INT_MIN = -2147483648 := rfl; omega, ha.2⟩
  have inn : InInt n := ⟨by have : INT_MIN = -2147483648 := rfl; omega, hn.2⟩
  have ba : IntKind.NonNegativeInteger.bounds.1 ≤ a ∧ a ≤ IntKind.NonNegativeInteger.bounds.2 := ⟨le_of_lt ha.1, ha.2⟩
  have bn : IntKind.NonNegativeInteger.bounds.1 ≤ n ∧ n ≤ IntKind.NonNegativeInteger.bounds.2 := ⟨le_of_lt hn.1, hn.2⟩
  refine ⟨?_, ?_, ?_⟩
  · cases x with
    | none => exact h.1.symm
    | some x => exact parseBounded_numeral h.1 ia ba
  · cases x with
    | none => exact h.2.symm
    | some x => exact parseBounded_numeral h.2 inn bn
  · rintro shown d rfl rfl
    unfold writeTimeModification
    by_cases hm : d.normalNotes > 0 ∧ d.actualNotes > 0 ∧ (d.normalNotes > 1 ∨ d.actualNotes > 1)
    · rw [if_pos hm]
      exact ⟨bounded_says ba, bounded_says bn⟩
    · rw [if_neg hm]
      show _ = _ ∧ _ = _
      omega

theorem note_kept (G : Int) (dv : ℚ) (shown : Option (Api.DurationName × Nat)) {x : NoteXml} {a : NoteSaid} (h : NoteSays x a) (hk : FileNoteKept a)
    (hb : ∀ b ∈ x.beams, b.number = none → x.beams.length = 1) :
    ∃ n y, readNote G dv x = some n ∧ writeNote shown n = some y ∧ ∃ bs, bs.Perm a.beams ∧ NoteSays y { a with beams := bs } := by
  obtain ⟨s, s1, s2, s3⟩ := sound_kept h.sound hk.sound
  obtain ⟨bs, b1, b2⟩ := beams_kept h.beams hb hk.beams.1 hk.beams.2
  obtain ⟨m1, m2, m3⟩ := modification_kept h.modification hk.actualNotes hk.normalNotes ((x.type.map (fun t => (parseEnum t : Core.NoteTypeValue))).getD .maxima)
  have hacc : ∀ q, (readAccidental x.accidental q).step = q.step ∧ (readAccidental x.accidental q).alter = q.alter ∧ (readAccidental x.accidental q).cents = q.cents ∧
      (readAccidental x.accidental q).octave = q.octave := by
    intro q; cases x.accidental <;> exact ⟨rfl, rfl, rfl, rfl⟩
  obtain ⟨n, hn⟩ : ∃ n, readNote G dv x = some n := by rw [readNote, s1]; exact ⟨_, rfl⟩
  have hn' := hn
  rw [readNote, s1, Option.map_some, Option.some.injEq] at hn'
  have f1 : n.isRest = s.1 := by rw [← hn']
  have f2 : n.isMeasureRest = s.2.1 := by rw [← hn']
  have f3 : n.isUnpitched = s.2.2.1 := by rw [← hn']
  have f4 : n.pitchData = readAccidental x.accidental s.2.2.2.2 := by rw [← hn']
  have f5 : n.noteType = a.kind := by rw [← hn']; exact h.kind
  have f6 : n.isTieStart = (if x.kind = .cue then false else hasTie .start x.ties) := by rw [← hn']
  have f7 : n.isTieStop = (if x.kind = .cue then false else hasTie .stop x.ties) := by rw [← hn']
  have f8 : n.notehead = MapName.noteheadMap.toApi ((x.notehead.map (fun t => (parseEnum t : Core.NoteheadValue))).getD .normal) := by rw [← hn']
  have f9 : n.stem = (x.stem.map (fun t => (MapName.stemMap.toApi (parseEnum t : Core.StemValue) : Api.Stem))).getD .unspecified := by rw [← hn']
  have f10 : n.beams = readBeams x.beams := by rw [← hn']
  have f11 : n.durationData = readDuration G dv x := by rw [← hn']
  clear hn'
  obtain ⟨z, z1, z2⟩ := s3 n f1 f2 f3 (by rw [f4]; exact (hacc _).1) (by rw [f4]; exact (hacc _).2.1) (by rw [f4]; exact (hacc _).2.2.1) (by rw [f4]; exact (hacc _).2.2.2)
  refine ⟨n, _, hn, by rw [writeNote, z1]; rfl, bs, b1, ?_⟩
  have hties : writeTies n = (if a.tieStop then [chars "stop"] else []) ++ (if a.tieStart then [chars "start"] else []) := by
    unfold writeTies
    rw [f5]
    by_cases hc : a.kind = .cue
    · rw [if_pos hc, (hk.cue hc).1, (hk.cue hc).2]; rfl
    · rw [if_neg hc, f6, f7, h.kind, if_neg hc, if_neg hc]
      have e1 : hasTie .start x.ties = a.tieStart := by
        rw [Bool.eq_iff_iff, hasTie_iff h.ties, h.tieStart]; exact Iff.rfl
      have e2 : hasTie .stop x.ties = a.tieStop := by
        rw [Bool.eq_iff_iff, hasTie_iff h.ties, h.tieStop]; exact Iff.rfl
      rw [e1, e2]; rfl
  constructor
  case kind => exact f5
  case ties =>
    show ∀ t ∈ writeTies n, _
    rw [hties]
    intro t ht
    rcases List.mem_append.mp ht with ht | ht
    · split at ht
      · exact .inr (List.mem_singleton.mp ht)
      · cases ht
    · split at ht
      · exact .inl (List.mem_singleton.mp ht)
      · cases ht
  case tieStart =>
    show a.tieStart = true ↔ _ ∈ writeTies n
    rw [hties]
    cases a.tieStop <;> cases a.tieStart <;> decide
  case tieStop =>
    show a.tieStop = true ↔ _ ∈ writeTies n
    rw [hties]
    cases a.tieStop <;> cases a.tieStart <;> decide
  case sound => exact z2
  case type =>
    show writeType n = a.type.map _
    unfold writeType
    by_cases hm : n.isRest = true ∧ n.isMeasureRest = true
    · rw [if_pos hm, hk.type.mpr (s2.mp (by rw [← f1, ← f2]; exact hm))]; rfl
    · rw [if_neg hm]
      have hne : a.type ≠ none := fun e => hm (by rw [f1, f2]; exact s2.mpr (hk.type.mp e))
      obtain ⟨t, ht⟩ := Option.ne_none_iff_exists'.mp hne
      have hx : x.type = some (StringEnum.toStr t) := by rw [h.type, ht]; rfl
      rw [ht, f11, readDuration, hx]
      exact congrArg some (type_kept t)
  case dots =>
    show n.durationData.durationDots.toNat = a.dots
    rw [f11, readDuration]
    show ((x.dots : Int)).toNat = _
    rw [h.dots]; rfl
  case accidental => exact accidental_kept h.accidental hk.accidental _ _ f4
  case modification => exact m3 shown n.durationData (by rw [f11]; exact m1) (by rw [f11]; exact m2)
  case stem =>
    show (if n.stem = .unspecified then none else _) = _
    rw [f9, h.stem]
    exact stem_kept a.stem
  case notehead => exact notehead_kept h.notehead hk.notehead n.notehead f8 _ rfl
  case beams =>
    show List.Forall₂ BeamSays (writeBeams n.beams) bs
    rw [f10]; exact b2

end Mx
