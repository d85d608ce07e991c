import Verif.Spec.HeadersSaid
import Verif.Proofs.NoteKept
import Verif.Proofs.Transposition
import Verif.Props.SignatureProps

namespace Mx
open _root_.Spec

/-! ### Measures -/

theorem tenths_says {v : ℚ} (h6 : HasDecimals 6 v) (hv : |v| ≤ 9999999999999999999) : ∃ s, tenthsText v = some s ∧ DecimalText s v := by
  have hlt : |v| < 10 ^ PreciseDecimal.clampDigits 19 := lt_of_le_of_lt hv (by show (9999999999999999999 : ℚ) < 10 ^ 19; norm_num)
  obtain ⟨p, w, h1, h2, _, _, h3⟩ := Props.C19_text_is_nearest 19 6 v hlt
  obtain ⟨n, hn⟩ := h6
  have hw := h3 n (by show v * 10 ^ 6 = n; exact hn)
  refine ⟨p.toStr, ?_, by rw [← hw]; exact CanonicalDecimal.text h2⟩
  unfold tenthsText DecimalRange.make
  rw [show DecimalKind.minClamp .TenthsValue (DecimalKind.maxClamp .TenthsValue v) = v from (Props.clamp_eq .TenthsValue v).1 trivial, h1]
  rfl

theorem parseTenths_decimal {s : Str} {v : ℚ} (h : DecimalText s v) (h6 : HasDecimals 6 v) (hv : |v| ≤ 9999999999999999999) : parseTenths s = some v := by
  obtain ⟨d0, h0⟩ : ∃ d0, DecimalRange.make .TenthsValue 0 = some d0 := Option.isSome_iff_exists.mp (by decide +kernel)
  have h64 : |v| < 2 ^ 16384 := lt_of_le_of_lt hv (lt_of_lt_of_le (by norm_num : (9999999999999999999 : ℚ) < 2 ^ 64) (pow_le_pow_right₀ (by norm_num) (by norm_num)))
  obtain ⟨n, hn⟩ := h6
  obtain ⟨d', e1, e2⟩ := Props.C18_kept .TenthsValue 0 v [] d0 d0 h0 rfl trivial (lt_of_le_of_lt hv (by norm_num)) n hn
  rw [parseTenths, h0]
  show ((d0.parse s).map _) = _
  rw [(Props.C51_parse_accepts_numerals d0 s).1 _ h h64, e1]
  show some d'.getValue = _
  rw [e2]

theorem words_nil : words [] = [] := rfl

theorem token_nil {s : Str} (h : xsToken s = []) : words s = [] := by
  rw [← Props.C25_words_preserved, h]; rfl

theorem measure_said {i : Int} {x : MeasureFile} {a : MeasureSaid} (hi : InInt (i + 1)) (hs : MeasureSays x a) (hk : MeasureHeadKept a) :
    ∃ y, measureThrough i x = some y ∧ MeasureSays y a := by
  obtain ⟨⟨n, w, im⟩, nc, mr⟩ := x
  obtain ⟨s1, s2, s3, s4, s5⟩ := hs
  obtain ⟨k1, k2, k3, k4⟩ := hk
  simp only at s1 s2 s3 s4 s5
  have hshow : xsToken (showInt (i + 1)) = showInt (i + 1) := Props.C25_normalised_kept _ (showInt_normalised _)
  have hne : xsToken n ≠ [] := fun e => k1 (s1 ▸ token_nil e)
  -- the number
  have hnum : (let m : Str := if xsToken n = showInt (i + 1) then [] else xsToken n
      if m.length > 0 then xsToken m else xsToken (showInt (i + 1))) = xsToken n := by
    by_cases h : xsToken n = showInt (i + 1)
    · simp only [if_pos h]
      show xsToken (showInt (i + 1)) = _
      rw [hshow, h]
    · simp only [if_neg h]
      rw [if_pos (List.length_pos_iff.mpr hne)]
      exact Props.C25_idempotent n
  -- the width
  have hwidth : ∃ v ws, (w.map parseTenths).getD (some (-1)) = some v ∧ measureWidthText v = some ws ∧
      ((ws = none ∧ a.width = none) ∨ ∃ t u, ws = some t ∧ a.width = some u ∧ DecimalText t u) := by
    rcases s2 with ⟨e1, e2⟩ | ⟨t, u, e1, e2, e3⟩
    · subst e1
      exact ⟨-1, none, rfl, by rw [measureWidthText, if_neg (by norm_num)], .inl ⟨rfl, e2⟩⟩
    · subst e1
      obtain ⟨b1, b2, b3⟩ := k2 u (by rw [e2]; rfl)
      have habs : |u| ≤ 9999999999999999999 := by rw [abs_of_nonneg b1]; exact b2
      obtain ⟨s, c1, c2⟩ := tenths_says b3 habs
      exact ⟨u, some s, parseTenths_decimal e3 b3 habs, by rw [measureWidthText, if_pos b1, c1]; rfl, .inr ⟨s, u, rfl, e2, c2⟩⟩
  -- implicit
  have him : (let b := (im.map (fun i => if (parseEnum i : Core.YesNo) = .yes then Api.Bool.yes else .no)).getD .unspecified
      if b ≠ .unspecified then some (StringEnum.toStr (MapName.boolMap.toCore b : Core.YesNo)) else none) = a.implicit.map yesNoText := by
    rw [s3]
    cases a.implicit with
    | none => rfl
    | some b => cases b <;> rfl
  obtain ⟨v, ws, w1, w2, w3⟩ := hwidth
  refine ⟨⟨⟨xsToken n, ws, a.implicit.map yesNoText⟩, none, []⟩, ?_, ?_, w3, rfl, ?_, ?_⟩
  · have hr : readMeasureHead i ⟨n, w, im⟩ = some ⟨if xsToken n = showInt (i + 1) then [] else xsToken n, v,
        (im.map (fun i => if (parseEnum i : Core.YesNo) = .yes then Api.Bool.yes else .no)).getD .unspecified⟩ := by
      unfold readMeasureHead
      simp only [w1, chk_eq hi, Option.bind_eq_bind, Option.bind_some]
      rfl
    unfold measureThrough
    simp only [hr, Option.bind_eq_bind, Option.bind_some]
    unfold writeMeasureHead
    simp only [w2, chk_eq hi, Option.bind_eq_bind, Option.bind_some]
    show some _ = _
    exact congrArg some (congrArg (fun h => MeasureFile.mk h none []) (congrArg₂ (fun p q => MeasureHeadXml.mk p ws q) hnum him))
  · show words (xsToken n) = _
    rw [Props.C25_words_preserved, s1]
  · rw [k3]; rfl
  · rw [k4]

theorem measures_said {xs : List MeasureFile} {as : List MeasureSaid} (hs : List.Forall₂ MeasureSays xs as) (hk : ∀ a ∈ as, MeasureHeadKept a) :
    ∀ i : Int, 0 ≤ i → i + xs.length ≤ INT_MAX → ∃ ys, measuresThroughFrom i xs = some ys ∧ List.Forall₂ MeasureSays ys as := by
  induction hs with
  | nil => intro i _ _; exact ⟨[], rfl, .nil⟩
  | @cons x a xs as h _ ih =>
    intro i h0 hi
    rw [List.length_cons] at hi
    obtain ⟨y, e1, e2⟩ := measure_said (i := i) (by unfold InInt INT_MIN INT_MAX at *; omega) h (hk a (List.mem_cons_self ..))
    obtain ⟨ys, f1, f2⟩ := ih (fun b hb => hk b (List.mem_cons_of_mem _ hb)) (i + 1) (by omega) (by push_cast at hi; omega)
    exact ⟨y :: ys, by rw [measuresThroughFrom, e1]; show (measuresThroughFrom (i + 1) xs).bind _ = _; rw [f1]; rfl, .cons e2 f2⟩

/-! ### Transposition -/

theorem figureOut_small {c : Int} (h1 : -11 ≤ c) (h2 : c ≤ 11) : figureOutDiatonic c = usualDiatonic c := by
  have := figureOut_usual c
  have e : c.tdiv 12 = 0 ∧ c.tmod 12 = c := by
    rcases lt_or_ge c 0 with h | h
    · have := octave_neg h; omega
    · have := octave_pos h; omega
  rw [e.1, e.2] at this
  omega

theorem readDiatonic_usual {c : Int} (hc : |c| ≤ 10 ^ 8) : readDiatonic c none = some (usualDiatonic c) := by
  have hc' : -100000000 ≤ c ∧ c ≤ 100000000 := by rw [abs_le] at hc; norm_num at hc; exact hc
  have hin : InInt c := by unfold InInt INT_MIN INT_MAX; omega
  show (if c ≥ -11 ∧ c ≤ 11 then _ else _) = _
  by_cases h : c ≥ -11 ∧ c ≤ 11
  · rw [if_pos h, figureOut_small h.1 h.2]
  · rw [if_neg h]
    have hn : InInt (c.natAbs : Int) := by unfold InInt INT_MIN INT_MAX; omega
    obtain ⟨b1, b2, b3, b4, b5⟩ := octave_bounds hin
    have hu := usual_bounds hin
    have hg := figureOut_usual c
    have hs : ((c.natAbs : Int)).tmod 12 * (if c < 0 then -1 else 1) = c.tmod 12 := by
      split
      · rename_i h
        rw [show ((c.natAbs : Nat) : Int) = -c by omega, Int.neg_tmod]
        omega
      · rw [show ((c.natAbs : Nat) : Int) = c by omega]
        omega
    have ho : InInt (c.tdiv 12 * 7) := by unfold InInt INT_MIN INT_MAX; omega
    have hr : InInt (figureOutDiatonic (c.tmod 12) + c.tdiv 12 * 7) := by unfold InInt INT_MIN INT_MAX; omega
    simp only [chk_eq hn, Option.bind_eq_bind, Option.bind_some, hs, chk_eq ho, chk_eq hr]
    congr 1
    omega

theorem transpose_read {x : TransposeXml} {a : TransposeSaid} (hs : TransposeSays x a) : convertToTransposeData x = some ⟨a.chromatic, a.diatonic⟩ := by
  obtain ⟨d, s, oc⟩ := x
  obtain ⟨c, o, hc, ho, h1, h2, h3, h4⟩ := hs
  simp only at h1 h2 h4
  have hc' : -100000000 ≤ c ∧ c ≤ 100000000 := by rw [abs_le] at hc; norm_num at hc; exact hc
  have ho' : -100000000 ≤ o ∧ o ≤ 100000000 := by rw [abs_le] at ho; norm_num at ho; exact ho
  have hci : InInt c := by unfold InInt INT_MIN INT_MAX; omega
  have hoct : (oc.map parseInteger).getD 0 = o := by
    rcases h2 with ⟨e1, e2⟩ | ⟨t, e1, e2⟩
    · rw [e1, e2]; rfl
    · rw [e1]; exact parseInteger_text e2 (by unfold InInt INT_MIN INT_MAX; omega)
  obtain ⟨r, r1, r2, r3⟩ : ∃ r, readDiatonic c (d.map parseInteger) = some r ∧ a.diatonic = r + 7 * o ∧ (-100000000 ≤ r ∧ r ≤ 100000000) := by
    rcases h4 with ⟨e1, e2⟩ | ⟨t, v, e1, e2, e3, e4⟩
    · refine ⟨usualDiatonic c, by rw [e1]; exact readDiatonic_usual hc, e2, ?_⟩
      have := usual_near hci
      have := octave_bounds hci
      have hd : -8333334 ≤ c.tdiv 12 ∧ c.tdiv 12 ≤ 8333334 := by omega
      omega
    · have he : -100000000 ≤ v ∧ v ≤ 100000000 := by rw [abs_le] at e2; norm_num at e2; exact e2
      refine ⟨v, ?_, e4, he⟩
      rw [e1]
      show some (parseInteger t) = _
      rw [parseInteger_text e3 (by unfold InInt INT_MIN INT_MAX; omega)]
  have i1 : InInt (o * 7) := by unfold InInt INT_MIN INT_MAX; omega
  have i2 : InInt (r + o * 7) := by unfold InInt INT_MIN INT_MAX; omega
  have i3 : InInt (o * 12) := by unfold InInt INT_MIN INT_MAX; omega
  have i4 : InInt (c + o * 12) := by unfold InInt INT_MIN INT_MAX; omega
  unfold convertToTransposeData
  simp only [parseSemitones_numeral h1 hci, castInt_int hci, r1, hoct, chk_eq i1, chk_eq i2, chk_eq i3, chk_eq i4, Option.bind_eq_bind, Option.bind_some]
  show some _ = _
  rw [h3, r2]
  congr 2 <;> ring

theorem transpose_written {a : TransposeSaid} (hk : TransposeKept a) : ∃ y, writeTransposition (some ⟨a.chromatic, a.diatonic⟩) = some (some y) ∧ TransposeSays y a := by
  obtain ⟨c, d⟩ := a
  obtain ⟨k1, k2, k3, k4⟩ := hk
  simp only at k1 k2 k3 k4
  have hc' : -1000000 ≤ c ∧ c ≤ 1000000 := by rw [abs_le] at k1; norm_num at k1; exact k1
  have hd' : -1000000 ≤ d ∧ d ≤ 1000000 := by rw [abs_le] at k2; norm_num at k2; exact k2
  have hc : InInt c := by unfold InInt INT_MIN INT_MAX; omega
  have hm : c ≠ INT_MIN := by unfold INT_MIN; omega
  obtain ⟨b1, b2, b3, b4, b5⟩ := octave_bounds hc
  have b6 : -100000 ≤ c.tdiv 12 ∧ c.tdiv 12 ≤ 100000 := by omega
  have hr : InInt (c.tmod 12) := by unfold InInt INT_MIN INT_MAX; omega
  have ho7 : InInt (c.tdiv 12 * -7) := by unfold InInt INT_MIN INT_MAX; omega
  have hh : InInt (d - 7 * c.tdiv 12) := by unfold InInt INT_MIN INT_MAX; omega
  have habs : |((c.tmod 12 : Int) : ℚ)| ≤ 2147483647 := by
    rw [abs_le]
    constructor
    · have : (-11 : ℚ) ≤ (c.tmod 12 : Int) := by exact_mod_cast b3
      linarith
    · have : ((c.tmod 12 : Int) : ℚ) ≤ 11 := by exact_mod_cast b4
      linarith
  obtain ⟨s, hs1, hs2⟩ := semitones_says (hasDecimals_int 6 (c.tmod 12)) habs
  refine ⟨⟨(if d ≠ 0 ∧ d ≠ 7 * c.tdiv 12 then some (d - 7 * c.tdiv 12) else none).map showInt, s,
    if transposeOctave c ≠ 0 then some (showInt (transposeOctave c)) else none⟩, ?_, c.tmod 12, c.tdiv 12, ?_, ?_, hs2, ?_, ?_, ?_⟩
  · show (if TransposeData.isUsed ⟨c, d⟩ then _ else _) = _
    rw [if_pos (by simp only [TransposeData.isUsed, decide_eq_true_eq]; exact k3)]
    unfold convertToTranspose
    simp only [chromatic_eq hc hm, octave_eq, diatonic_eq ho7 hh]
    show ((semitonesText _).bind _).map some = _
    rw [hs1]
    rfl
  · rw [abs_le]; norm_num; omega
  · rw [abs_le]; norm_num; omega
  · rw [octave_eq]
    by_cases h : c.tdiv 12 = 0
    · exact .inl ⟨if_neg (by simpa using h), h⟩
    · exact .inr ⟨_, if_pos h, showInt_text _⟩
  · show c = _
    omega
  · by_cases h : d ≠ 0 ∧ d ≠ 7 * c.tdiv 12
    · refine .inr ⟨showInt (d - 7 * c.tdiv 12), d - 7 * c.tdiv 12, by rw [if_pos h]; rfl, ?_, showInt_text _, ?_⟩
      · rw [abs_le]; norm_num; omega
      · show d = _
        omega
    · refine .inl ⟨by rw [if_neg h]; rfl, ?_⟩
      show d = _
      rw [k4.resolve_right h, ← figureOut_usual c, figureOut_small b3 b4]

/-! ### Where the elements are -/

theorem firstMeasure_none {i : Nat} {m : List (Int × List TransposeXml)} (h : (m.flatMap fun a => a.2.map fun x => (i, a.1, x)) = []) : readFirstMeasure m = some none := by
  induction m with
  | nil => rfl
  | cons a m ih =>
    obtain ⟨t, xs⟩ := a
    rw [List.flatMap_cons, List.append_eq_nil_iff, List.map_eq_nil_iff] at h
    obtain ⟨h1, h2⟩ := h
    simp only at h1
    subst h1
    rw [readFirstMeasure, ih h2]
    by_cases ht : t = 0
    · rw [if_pos ht]; rfl
    · rw [if_neg ht]; rfl

theorem firstMeasure_one {i : Nat} {m : List (Int × List TransposeXml)} {x : TransposeXml} (h : (m.flatMap fun a => a.2.map fun x => (i, a.1, x)) = [(i, 0, x)]) :
    readFirstMeasure m = readTransposition (some x) := by
  induction m with
  | nil => simp at h
  | cons a m ih =>
    obtain ⟨t, xs⟩ := a
    rw [List.flatMap_cons] at h
    cases xs with
    | nil =>
      have h : (m.flatMap fun a => a.2.map fun x => (i, a.1, x)) = [(i, 0, x)] := h
      rw [readFirstMeasure, ih h]
      by_cases ht : t = 0
      · rw [if_pos ht]
        show (readTransposition (some x)).bind (fun later => some (later.or none)) = _
        cases readTransposition (some x) with
        | none => rfl
        | some l => cases l <;> rfl
      · rw [if_neg ht]
        show (readTransposition (some x)).bind (fun later => some (later.or none)) = _
        cases readTransposition (some x) with
        | none => rfl
        | some l => cases l <;> rfl
    | cons y ys =>
      rw [List.map_cons, List.cons_append, List.cons.injEq, List.append_eq_nil_iff, List.map_eq_nil_iff, Prod.mk.injEq, Prod.mk.injEq] at h
      obtain ⟨⟨_, h2, h3⟩, h4, h5⟩ := h
      simp only at h2
      subst h2 h3 h4
      rw [readFirstMeasure, firstMeasure_none h5, if_pos rfl]
      show (readTransposition (some y)).bind (fun here => some (Option.or none here)) = _
      cases readTransposition (some y) with
      | none => rfl
      | some l => cases l <;> rfl

theorem all_cons (m : List (Int × List TransposeXml)) (ms : List (List (Int × List TransposeXml))) :
    allTransposes (m :: ms) = (m.flatMap fun a => a.2.map fun x => (0, a.1, x)) ++ (ms.zipIdx 1).flatMap fun m => m.1.flatMap fun a => a.2.map fun x => (m.2, a.1, x) := by
  unfold allTransposes
  rw [List.zipIdx_cons, List.flatMap_cons]

theorem rest_none {β : Type} (ms : List β) (k : Nat) :
    ((ms.map (fun _ => ([] : List (Int × List TransposeXml)))).zipIdx k).flatMap (fun m => m.1.flatMap fun a => a.2.map fun x => (m.2, a.1, x)) = [] := by
  induction ms generalizing k with
  | nil => rfl
  | cons m ms ih => rw [List.map_cons, List.zipIdx_cons, List.flatMap_cons, ih]; rfl

theorem written_all {β : Type} (ms : List β) (o : Option TransposeXml) :
    allTransposes ([(0, o.toList)] :: ms.map (fun _ => [])) = o.toList.map (fun x => (0, 0, x)) := by
  rw [all_cons, rest_none, List.append_nil]
  simp

/-- Elements that are behind the first measure have another index. -/
theorem rest_index {ms : List (List (Int × List TransposeXml))} {k : Nat} {e : Nat × Int × TransposeXml}
    (h : e ∈ (ms.zipIdx k).flatMap fun m => m.1.flatMap fun a => a.2.map fun x => (m.2, a.1, x)) : k ≤ e.1 := by
  rw [List.mem_flatMap] at h
  obtain ⟨m, hm, h⟩ := h
  rw [List.mem_flatMap] at h
  obtain ⟨a, _, h⟩ := h
  rw [List.mem_map] at h
  obtain ⟨x, _, rfl⟩ := h
  exact List.le_snd_of_mem_zipIdx hm

theorem part_none {ms : List (List (Int × List TransposeXml))} (h : allTransposes ms = []) : readPartTransposition ms = some none := by
  cases ms with
  | nil => rfl
  | cons m ms =>
    rw [all_cons, List.append_eq_nil_iff] at h
    exact firstMeasure_none h.1

theorem part_one {ms : List (List (Int × List TransposeXml))} {x : TransposeXml} (h : allTransposes ms = [(0, 0, x)]) : readPartTransposition ms = readTransposition (some x) := by
  cases ms with
  | nil => simp [allTransposes] at h
  | cons m ms =>
    rw [all_cons] at h
    rcases hf : (m.flatMap fun a => a.2.map fun x => (0, a.1, x)) with _ | ⟨e, es⟩
    · rw [hf, List.nil_append] at h
      have := rest_index (e := (0, 0, x)) (k := 1) (ms := ms) (by rw [h]; exact List.mem_singleton.mpr rfl)
      simp at this
    · rw [hf, List.cons_append, List.cons.injEq, List.append_eq_nil_iff] at h
      obtain ⟨h1, h2, _⟩ := h
      subst h1 h2
      exact firstMeasure_one hf

theorem transposes_said {ms : List (List (Int × List TransposeXml))} {said : List (Nat × Int × TransposeSaid)} (hs : TransposesSay ms said) (hk : TransposesKept said) :
    ∃ out, transposesThrough ms = some out ∧ TransposesSay out said := by
  unfold TransposesSay at *
  rcases hk with rfl | ⟨a, rfl, hk⟩
  · generalize hl : allTransposes ms = l at hs
    cases hs
    refine ⟨[(0, [])] :: ms.tail.map (fun _ => []), by rw [transposesThrough, part_none hl]; rfl, ?_⟩
    rw [show [((0 : Int), ([] : List TransposeXml))] = [(0, (none : Option TransposeXml).toList)] from rfl, written_all]
    exact .nil
  · generalize hl : allTransposes ms = l at hs
    cases hs with
    | @cons x _ l _ h h' =>
      cases h'
      obtain ⟨i, t, x⟩ := x
      obtain ⟨h1, h2, h3⟩ := h
      simp only at h1 h2 h3
      subst h1 h2
      obtain ⟨y, w1, w2⟩ := transpose_written hk
      refine ⟨[(0, [y])] :: ms.tail.map (fun _ => []), ?_, ?_⟩
      · rw [transposesThrough, part_one hl]
        show ((convertToTransposeData x).map some).bind _ = _
        rw [transpose_read h3]
        show (writeTransposition _).bind _ = _
        rw [w1]
        rfl
      · rw [show [((0 : Int), [y])] = [(0, (some y).toList)] from rfl, written_all]
        exact .cons ⟨rfl, rfl, w2⟩ .nil

end Mx
