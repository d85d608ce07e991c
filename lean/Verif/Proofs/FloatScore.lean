import Verif.Proofs.FloatTimes
import Verif.Proofs.ScoreTime

/-! The times of a whole score in floating point arithmetic. -/
namespace Mx.Measure
open Spec Fl

variable {P : Type}

theorem microF_int {p : Nat} (hp : 53 ≤ p) {k : Int} (hk : |k| ≤ 2 ^ 52) : microF p (k * 1000000) = k := by
  have hpos : 0 < p := by omega
  have hq : (((k * 1000000 : Int) : ℚ)) / 10 ^ 6 = k := by push_cast; ring
  have hm := micro_parts (k * 1000000)
  rw [hq] at hm
  have he : (k * 1000000).natAbs % 10 ^ 6 = 0 := by omega
  have hi : (k * 1000000).natAbs / 10 ^ 6 ≤ 2 ^ 52 := by
    have h1 : (k * 1000000).natAbs = k.natAbs * 1000000 := by rw [Int.natAbs_mul]; rfl
    have h2 : (k.natAbs : Int) ≤ 2 ^ 52 := by rw [Int.natCast_natAbs]; exact hk
    omega
  rw [he] at hm
  unfold microF PreciseDecimal.expressF
  simp only
  rw [he]
  generalize (k * 1000000).natAbs / 10 ^ 6 = i at *
  have big : (2 : Nat) ^ 53 ≤ 2 ^ p := Nat.pow_le_pow_right (by norm_num) hp
  have f1 : fl p ((0 : Nat) : ℚ) = 0 := by have := fl_nat (p := p) (n := 0) hpos (by omega); simpa using this
  have f2 : fl p ((i : Nat) : ℚ) = i := fl_nat hpos (by omega)
  have f0 : fl p (0 : ℚ) = 0 := by simpa using f1
  have hrep : Rep p (i : ℚ) := by
    have : Rep p ((i : Int) : ℚ) := Rep.int (by rw [abs_of_nonneg (by omega)]; have : i ≤ 2 ^ p := by omega
                                                exact_mod_cast this)
    exact_mod_cast this
  rw [f1, zero_div, f0, f2, add_zero, f2, hm]
  by_cases h : k * 1000000 < 0
  · rw [decide_eq_true h, if_pos rfl, if_pos h, mul_neg_one, fl_exact hpos hrep.neg]; push_cast; ring
  · rw [decide_eq_false h, if_neg (by simp), if_neg h]; push_cast; ring

theorem roundF_int {p : Nat} (hp : 53 ≤ p) {n : Int} (hn : |n| < 2 ^ 52) : roundF p n = n := by
  have hpos : 0 < p := by omega
  unfold roundF
  have hrep : Rep p ((n : ℚ) - 1 / 2) := by
    refine ⟨2 * n - 1, -1, ?_, by push_cast; rw [zpow_neg_one]; ring⟩
    have big : (2 : Int) ^ 53 ≤ 2 ^ p := pow_le_pow_right₀ (by norm_num) hp
    rw [abs_lt] at hn
    rw [abs_le]; constructor <;> omega
  rw [fl_exact hpos hrep, Int.ceil_eq_iff]
  constructor <;> linarith

theorem convertF_whole {p : Nat} (hp : 53 ≤ p) {C G k : Int} (hC : 0 < C) (hG : 0 < G) (hG' : G ≤ INT_MAX) (hd : C ∣ G) (hk : |k| * G < 2 ^ 52) :
    convertDurationF p C G (k * 1000000) = convertDuration C G (k * 1000000) := by
  have hpos : 0 < p := by omega
  have hk1 : |k| < 2 ^ 52 := lt_of_le_of_lt (by nlinarith [abs_nonneg k]) hk
  obtain ⟨q, rfl⟩ := hd
  have hq : 0 < q := by
    by_contra h
    have : q ≤ 0 := by omega
    nlinarith
  have hexact : convertDuration C (C * q) (k * 1000000) = some (k * q) := convertDuration_exact hC (by unfold MICRO; ring)
  rw [hexact]
  unfold convertDurationF
  split
  · rename_i he
    have hq1 : q = 1 := by
      have : C * 1 = C * q := by rw [mul_one]; exact he
      exact (mul_left_cancel₀ (by omega) this).symm
    unfold roundMicroF
    rw [microF_int hp hk1.le, roundF_int hp hk1, hq1, mul_one]
  · rw [if_neg (by omega)]
    have big : (2 : Int) ^ 53 ≤ 2 ^ p := pow_le_pow_right₀ (by norm_num) hp
    have hCG : C ≤ C * q := by nlinarith
    have hqG : q ≤ C * q := by nlinarith
    unfold INT_MAX at hG'
    have fG : fl p ((C * q : Int) : ℚ) = (C * q : Int) := fl_int hpos (by rw [abs_of_pos hG]; omega)
    have fC : fl p (C : ℚ) = C := fl_int hpos (by rw [abs_of_pos hC]; omega)
    have fq : fl p (q : ℚ) = q := fl_int hpos (by rw [abs_of_pos hq]; omega)
    have hkq : |k * q| < 2 ^ 52 := by
      rw [abs_mul, abs_of_pos hq]
      exact lt_of_le_of_lt (mul_le_mul_of_nonneg_left hqG (abs_nonneg k)) hk
    have fkq : fl p ((k : ℚ) * q) = ((k * q : Int) : ℚ) := by
      have := fl_int (p := p) hpos (n := k * q) (by omega)
      push_cast at this ⊢
      exact this
    have hCq : (C : ℚ) ≠ 0 := by exact_mod_cast (by omega)
    have ediv : ((C * q : Int) : ℚ) / C = q := by push_cast; field_simp
    simp only
    rw [fG, fC, ediv, fq, microF_int hp hk1.le, fkq, roundF_int hp hkq]

/-- The divisions of the reader divide the scale. -/
structure Scaled (G : Int) (st : RSt P) : Prop where
  pos : 0 < st.ticksPerQuarter
  divides : st.ticksPerQuarter ∣ G

/-- The divisions of a measure divide the scale. -/
def ScaledElem (G : Int) : Elem P → Prop
  | .attributes a => ∀ d, a.divisions = some d → 0 < roundMicro d ∧ roundMicro d ∣ G
  | _ => True

theorem parseElemF_whole {p : Nat} (hp : 53 ≤ p) {env : REnv} {G : Int} (hg : env.globalTicksPerQuarter = G) (hG : 0 < G) (hG' : G ≤ INT_MAX) {st : RSt P} {b : Bool} {e : Elem P} (h : Scaled G st)
    (he : WholeElem G e) : parseElemF p env b e st = parseElem env b e st := by
  cases e with
  | note n =>
    simp only [parseElemF, parseElem, parseNoteF, parseNote, hg]
    have : convertDurationF p st.ticksPerQuarter G (if n.kind = .grace then 0 else n.dur) = convertDuration st.ticksPerQuarter G (if n.kind = .grace then 0 else n.dur) := by
      split
      · have := convertF_whole hp (k := 0) h.pos hG hG' h.divides (by norm_num)
        simpa using this
      · obtain ⟨k, hk, hk'⟩ := he
        rw [hk]
        exact convertF_whole hp h.pos hG hG' h.divides hk'
    rw [this]
  | backup d =>
    obtain ⟨k, rfl, hk'⟩ := he
    simp only [parseElemF, parseElem, parseBackupF, parseBackup, hg, convertF_whole hp h.pos hG hG' h.divides hk']
  | forward d =>
    obtain ⟨k, rfl, hk'⟩ := he
    simp only [parseElemF, parseElem, parseForwardF, parseForward, hg, convertF_whole hp h.pos hG hG' h.divides hk']
  | direction s o x => simp only [parseElemF, parseElem, parseDirectionF, parseDirection, roundMicroF_eq hp he]; cases s <;> rfl
  | barline l x => rfl
  | other => rfl
  | attributes a =>
    simp only [parseElemF, parseElem, parsePropertiesF, parseProperties]
    cases hd : a.divisions with
    | none => rfl
    | some d =>
      obtain ⟨k, hk, hk', rfl⟩ := he d hd
      simp only
      rw [roundMicroF_eq hp (by unfold INT_MAX at hk'; rw [abs_of_nonneg (by omega)]; omega)]

theorem scaled_step {G : Int} {st st' : RSt P} {env : REnv} {b : Bool} {e : Elem P} (h : Scaled G st) (he : ScaledElem G e) (hp : parseElem env b e st = some st') : Scaled G st' := by
  obtain ⟨h1, h2⟩ := h
  cases e with
  | note n =>
    simp only [parseElem, parseNote, Option.bind_eq_bind] at hp
    obtain ⟨t, -, hp⟩ := Option.bind_eq_some_iff.mp hp
    split at hp
    · cases hp
    · rw [Option.some.injEq] at hp; subst hp; exact ⟨h1, h2⟩
  | backup d =>
    simp only [parseElem, parseBackup, Option.bind_eq_bind] at hp
    obtain ⟨t, -, hp⟩ := Option.bind_eq_some_iff.mp hp
    rw [Option.some.injEq] at hp; subst hp; exact ⟨h1, h2⟩
  | forward d =>
    simp only [parseElem, parseForward, Option.bind_eq_bind] at hp
    obtain ⟨t, -, hp⟩ := Option.bind_eq_some_iff.mp hp
    rw [Option.some.injEq] at hp; subst hp; exact ⟨h1, h2⟩
  | direction s o x =>
    simp only [parseElem, parseDirection] at hp
    split at hp
    · cases hp
    · rw [Option.some.injEq] at hp; subst hp; exact ⟨h1, h2⟩
  | barline l x =>
    simp only [parseElem, parseBarline] at hp
    rw [Option.some.injEq] at hp; subst hp; exact ⟨h1, h2⟩
  | other =>
    simp only [parseElem] at hp
    rw [Option.some.injEq] at hp; subst hp; exact ⟨h1, h2⟩
  | attributes a =>
    simp only [parseElem, parseProperties] at hp
    split at hp
    · cases hp
    · rw [Option.some.injEq] at hp; subst hp
      cases hd : a.divisions with
      | none => exact ⟨by simpa using h1, by simpa using h2⟩
      | some d =>
        obtain ⟨g1, g2⟩ := he d hd
        exact ⟨by simpa using g1, by simpa using g2⟩

theorem readElemsF_whole {p : Nat} (hp : 53 ≤ p) {env : REnv} {G : Int} (hg : env.globalTicksPerQuarter = G) (hG : 0 < G) (hG' : G ≤ INT_MAX) : ∀ (es : List (Elem P)) (st : RSt P), Scaled G st →
    (∀ e ∈ es, WholeElem G e) → (∀ e ∈ es, ScaledElem G e) → readElemsF p env es st = readElems env false es st ∧ ∀ st', readElems env false es st = some st' → Scaled G st'
  | [], st, h, _, _ => ⟨rfl, fun st' hs => by simp only [readElems, Option.some.injEq] at hs; subst hs; exact h⟩
  | e :: es, st, h, hw, hs => by
    have ih := readElemsF_whole hp hg hG hG' es
    simp only [readElemsF, readElems, parseElemF_whole hp hg hG hG' h (hw e (by simp))]
    cases hq : parseElem env (nextNoteIsChord false es) e st with
    | none => exact ⟨rfl, fun st' h' => by simp at h'⟩
    | some st' =>
      have hd := scaled_step h (hs e (by simp)) hq
      simp only [Option.bind_eq_bind, Option.bind_some]
      exact ih st' hd (fun x hx => hw x (by simp [hx])) (fun x hx => hs x (by simp [hx]))

theorem readMeasuresF_whole {p : Nat} (hp : 53 ≤ p) {env : REnv} {G : Int} (hg : env.globalTicksPerQuarter = G) (hG : 0 < G) (hG' : G ≤ INT_MAX) : ∀ (ms : List (List (Elem P))) (tpq : Int), 0 < tpq → tpq ∣ G →
    (∀ m ∈ ms, ∀ e ∈ m, WholeElem G e) → (∀ m ∈ ms, ∀ e ∈ m, ScaledElem G e) →
    readMeasuresF p env tpq ms = readMeasures env tpq ms ∧ ∀ rs t, readMeasures env tpq ms = some (rs, t) → 0 < t ∧ t ∣ G
  | [], tpq, h0, h1, _, _ => ⟨rfl, fun rs t hs => by simp only [readMeasures, Option.some.injEq, Prod.mk.injEq] at hs; rw [← hs.2]; exact ⟨h0, h1⟩⟩
  | m :: ms, tpq, h0, h1, hw, hs => by
    have ih := readMeasuresF_whole hp hg hG hG' ms
    obtain ⟨g1, g2⟩ := readElemsF_whole hp hg hG hG' m (initRSt tpq) ⟨h0, h1⟩ (hw m (by simp)) (hs m (by simp))
    simp only [readMeasuresF, readMeasures, g1]
    cases hq : readElems env false m (initRSt tpq) with
    | none => exact ⟨rfl, fun rs t h' => by simp at h'⟩
    | some r =>
      obtain ⟨k1, k2⟩ := g2 r hq
      obtain ⟨i1, i2⟩ := ih r.ticksPerQuarter k1 k2 (fun x hx => hw x (by simp [hx])) (fun x hx => hs x (by simp [hx]))
      simp only [Option.bind_eq_bind, Option.bind_some, i1]
      refine ⟨trivial, fun rs t h' => ?_⟩
      obtain ⟨⟨rs', t'⟩, h2, h3⟩ := Option.bind_eq_some_iff.mp h'
      simp only [Option.some.injEq, Prod.mk.injEq] at h3
      rw [← h3.2]
      exact i2 rs' t' h2

theorem readPartsF_whole {p : Nat} (hp : 53 ≤ p) {G : Int} (hG : 0 < G) (hG' : G ≤ INT_MAX) : ∀ (parts : List (Int × List (List (Elem P)))) (dv : Int), (0 < dv → dv ∣ G) →
    (∀ q ∈ parts, ∀ m ∈ q.2, ∀ e ∈ m, WholeElem G e) → (∀ q ∈ parts, ∀ m ∈ q.2, ∀ e ∈ m, ScaledElem G e) → readPartsF p G dv parts = readParts G dv parts
  | [], _, _, _, _ => rfl
  | (n, ms) :: rest, dv, h, hw, hs => by
    have ih := readPartsF_whole hp hG hG' rest
    simp only [readPartsF, readParts, readPartF, readPart]
    obtain ⟨g1, g2⟩ := readMeasuresF_whole hp (env := { numStaves := n, globalTicksPerQuarter := G }) rfl hG hG' ms (if dv > 0 then dv else G) (by split <;> omega) (by
      split
      · rename_i h'; exact h h'
      · exact dvd_refl _) (hw (n, ms) (by simp)) (hs (n, ms) (by simp))
    rw [g1]
    cases hq : readMeasures { numStaves := n, globalTicksPerQuarter := G } (if dv > 0 then dv else G) ms with
    | none => rfl
    | some x =>
      obtain ⟨rs, t⟩ := x
      have := g2 rs t hq
      simp only [Option.bind_eq_bind, Option.bind_some]
      rw [ih t (fun _ => this.2) (fun q hq => hw q (by simp [hq])) (fun q hq => hs q (by simp [hq]))]

theorem foundDivisionsF_whole {p : Nat} (hp : 53 ≤ p) {G : Int} (score : List (List (List (Elem P)))) (hw : ∀ q ∈ score, ∀ m ∈ q, ∀ e ∈ m, WholeElem G e) : foundDivisionsF p score = foundDivisions score := by
  unfold foundDivisionsF foundDivisions
  have : score.flatten.flatten.filterMap (elemDivisionsF p) = score.flatten.flatten.filterMap elemDivisions := by
    refine List.filterMap_congr ?_
    intro e he
    obtain ⟨m, hm, he⟩ := List.mem_flatten.mp he
    obtain ⟨q, hq, hm⟩ := List.mem_flatten.mp hm
    have h := hw q hq m hm e he
    cases e with
    | attributes a =>
      simp only [elemDivisionsF, elemDivisions]
      cases hd : a.divisions with
      | none => rfl
      | some d =>
        obtain ⟨k, hk, hk', rfl⟩ := h d hd
        simp only [Option.map_some, Option.some.injEq]
        exact roundMicroF_eq hp (by unfold INT_MAX at hk'; rw [abs_of_nonneg (by omega)]; omega)
    | _ => rfl
  rw [this]

end Mx.Measure
