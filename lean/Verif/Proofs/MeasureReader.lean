import Verif.Model.MeasureReader
import Verif.Proofs.MeasureWriter
import Mathlib.Tactic.Linarith
import Mathlib.Tactic.Ring

/-! Lemmas about the reader model. -/
namespace Mx.Measure

variable {P : Type}

theorem nextNoteIsChord_append (la : Bool) (xs ys : List (Elem P)) :
    nextNoteIsChord la (xs ++ ys) = nextNoteIsChord (nextNoteIsChord la ys) xs := by
  induction xs with
  | nil => rfl
  | cons e es ih => cases e <;> simp [nextNoteIsChord, ih]

theorem readElems_append (env : REnv) (la : Bool) (xs ys : List (Elem P)) (s : RSt P) :
    readElems env la (xs ++ ys) s = (readElems env (nextNoteIsChord la ys) xs s).bind (readElems env la ys) := by
  induction xs generalizing s with
  | nil => rfl
  | cons e es ih =>
    simp only [List.cons_append, readElems, nextNoteIsChord_append]
    cases parseElem env (nextNoteIsChord (nextNoteIsChord la ys) es) e s with
    | none => rfl
    | some s' => exact ih s'

theorem nextNoteIsChord_quiet {la : Bool} {xs : List (Elem P)} (h : ∀ e ∈ xs, e.isQuiet = true) : nextNoteIsChord la xs = la := by
  induction xs with
  | nil => rfl
  | cons e es ih =>
    have he := h e (by simp)
    have ht := ih (fun x hx => h x (by simp [hx]))
    cases e <;> simp_all [nextNoteIsChord, Elem.isQuiet]

/-! ### numbers -/

theorem ceilDiv_spec {a b : Int} (hb : 0 < b) : (ceilDiv a b - 1) * b < a ∧ a ≤ ceilDiv a b * b := by
  unfold ceilDiv
  have h1 := Int.mul_ediv_add_emod (-a) b
  have h2 := Int.emod_nonneg (-a) (show b ≠ 0 by omega)
  have h3 := Int.emod_lt_of_pos (-a) hb
  generalize (-a) / b = q at *
  generalize (-a) % b = m at *
  constructor <;> nlinarith

theorem ceilDiv_eq {a b q : Int} (hb : 0 < b) (h1 : (q - 1) * b < a) (h2 : a ≤ q * b) : ceilDiv a b = q := by
  obtain ⟨g1, g2⟩ := ceilDiv_spec (a := a) hb
  have a1 : (q - 1) * b < ceilDiv a b * b := by linarith
  have a2 : (ceilDiv a b - 1) * b < q * b := by linarith
  have := (mul_lt_mul_iff_left₀ hb).mp a1
  have := (mul_lt_mul_iff_left₀ hb).mp a2
  omega

theorem roundMicro_mul (t : Int) : roundMicro (t * MICRO) = t := by
  unfold roundMicro
  apply ceilDiv_eq <;> simp only [MICRO] <;> omega

/-- A duration that is a whole number of ticks is read as that number of ticks. -/
theorem convertDuration_exact {C G d t : Int} (hC : 0 < C) (h : d * G = t * C * MICRO) : convertDuration C G d = some t := by
  unfold convertDuration
  split
  · rename_i he
    subst he
    have : d = t * MICRO := by
      have h' : d * C = (t * MICRO) * C := by rw [h]; ring
      exact Int.eq_of_mul_eq_mul_right (by omega) h'
    rw [this, roundMicro_mul]
  · rw [if_neg (show C ≠ 0 by omega)]
    congr 1
    have hM : 0 < C * MICRO := Int.mul_pos hC (by decide)
    apply ceilDiv_eq
    · have : 2 * C * MICRO = 2 * (C * MICRO) := by ring
      rw [this]; omega
    · have e : 2 * d * G - C * MICRO = 2 * (t * (C * MICRO)) - C * MICRO := by
        have : 2 * d * G = 2 * (d * G) := by ring
        rw [this, h]; ring
      rw [e]
      have : (t - 1) * (2 * C * MICRO) = 2 * (t * (C * MICRO)) - 2 * (C * MICRO) := by ring
      rw [this]; omega
    · have e : 2 * d * G - C * MICRO = 2 * (t * (C * MICRO)) - C * MICRO := by
        have : 2 * d * G = 2 * (d * G) := by ring
        rw [this, h]; ring
      rw [e]
      have : t * (2 * C * MICRO) = 2 * (t * (C * MICRO)) := by ring
      rw [this]; omega

theorem ceilDiv_nonneg {a b : Int} (hb : 0 < b) (h : -b < a) : 0 ≤ ceilDiv a b := by
  obtain ⟨_, g2⟩ := ceilDiv_spec (a := a) hb
  by_contra hc
  have : ceilDiv a b ≤ -1 := by omega
  have : ceilDiv a b * b ≤ -1 * b := by nlinarith
  omega

theorem roundMicro_nonneg {d : Int} (h : 0 ≤ d) : 0 ≤ roundMicro d := by
  unfold roundMicro
  apply ceilDiv_nonneg <;> simp only [MICRO] <;> omega

theorem convertDuration_nonneg {C G d t : Int} (hC : 0 ≤ C) (hG : 0 ≤ G) (hd : 0 ≤ d) (h : convertDuration C G d = some t) : 0 ≤ t := by
  unfold convertDuration at h
  split at h
  · cases h; exact roundMicro_nonneg hd
  · split at h
    · cases h
    · rw [if_pos (by omega)] at h
      cases h
      have hM : 0 < C * MICRO := Int.mul_pos (by omega) (by decide)
      have e : 2 * C * MICRO = 2 * (C * MICRO) := by ring
      have e2 : 0 ≤ 2 * d * G := Int.mul_nonneg (by omega) hG
      rw [e]
      apply ceilDiv_nonneg <;> omega

/-! ### the reading position never becomes negative -/

/-- Durations are not negative (they are positive decimals or absent in every document, and divisions are positive);
`Q` holds for the offsets of directions. -/
def Elem.durationsOk (Q : Int → Prop) : Elem P → Prop
  | .note n => 0 ≤ n.dur
  | .backup d => 0 ≤ d
  | .forward d => 0 ≤ d
  | .attributes a => ∀ d, a.divisions = some d → 0 ≤ d
  | .direction _ o _ => Q o
  | _ => True

/-- Everything read so far has a time that is not negative; a direction apart from its own offset. -/
structure NonNeg (Q : Int → Prop) (st : RSt P) : Prop where
  tick : 0 ≤ st.tick
  tpq : 0 ≤ st.ticksPerQuarter
  notes : ∀ r ∈ st.notes, 0 ≤ r.note.tick ∧ 0 ≤ r.note.ticks
  clefs : ∀ r ∈ st.clefs, 0 ≤ r.2.tick
  keys : ∀ r ∈ st.keys, 0 ≤ r.tick
  barlines : ∀ r ∈ st.barlines, 0 ≤ r.tick
  directions : ∀ d ∈ st.directions, ∃ o, Q o ∧ 0 ≤ d.2.tick - roundMicro o

theorem nonNeg_parseElem {Q : Int → Prop} {env : REnv} (hG : 0 ≤ env.globalTicksPerQuarter) {la : Bool} {e : Elem P} {st st' : RSt P} (he : e.durationsOk Q)
    (h : NonNeg Q st) (hp : parseElem env la e st = some st') : NonNeg Q st' := by
  cases e with
  | note n =>
    unfold parseElem parseNote at hp
    cases hc : convertDuration st.ticksPerQuarter env.globalTicksPerQuarter (if n.kind = .grace then 0 else n.dur) with
    | none => simp [hc] at hp
    | some t =>
      have ht : 0 ≤ t := convertDuration_nonneg h.tpq hG (by split <;> [decide; exact he]) hc
      simp only [hc] at hp
      simp only [Option.bind_eq_bind, Option.bind_some] at hp
      split at hp
      · cases hp
      · cases hp
        refine ⟨?_, h.tpq, ?_, h.clefs, h.keys, h.barlines, h.directions⟩
        · simp only; split
          · have := h.tick; omega
          · exact h.tick
        · intro r hr
          simp at hr
          rcases hr with hr | rfl
          · exact h.notes r hr
          · exact ⟨h.tick, ht⟩
  | backup d =>
    unfold parseElem parseBackup at hp
    cases hc : convertDuration st.ticksPerQuarter env.globalTicksPerQuarter d with
    | none => simp [hc] at hp
    | some t =>
      simp only [hc, Option.bind_eq_bind, Option.bind_some] at hp
      cases hp
      refine ⟨?_, h.tpq, h.notes, h.clefs, h.keys, h.barlines, h.directions⟩
      simp only; split <;> omega
  | forward d =>
    unfold parseElem parseForward at hp
    cases hc : convertDuration st.ticksPerQuarter env.globalTicksPerQuarter d with
    | none => simp [hc] at hp
    | some t =>
      have ht : 0 ≤ t := convertDuration_nonneg h.tpq hG he hc
      simp only [hc, Option.bind_eq_bind, Option.bind_some] at hp
      cases hp
      refine ⟨?_, h.tpq, h.notes, h.clefs, h.keys, h.barlines, h.directions⟩
      have := h.tick; simp only; omega
  | direction s o c =>
    unfold parseElem parseDirection at hp
    simp only at hp
    split at hp
    · cases hp
    · cases hp
      refine ⟨h.tick, h.tpq, h.notes, h.clefs, h.keys, h.barlines, ?_⟩
      intro d hd
      simp only [List.mem_append, List.mem_singleton] at hd
      rcases hd with hd | rfl
      · exact h.directions d hd
      · exact ⟨o, he, by simp only; have := h.tick; omega⟩
  | attributes a =>
    unfold parseElem parseProperties at hp
    simp only at hp
    split at hp
    · cases hp
    · cases hp
      refine ⟨h.tick, ?_, h.notes, ?_, ?_, h.barlines, h.directions⟩
      · simp only
        split
        · rename_i d hd; exact roundMicro_nonneg (he d hd)
        · exact h.tpq
      · intro r hr
        simp at hr
        rcases hr with hr | ⟨c, _, rfl⟩
        · exact h.clefs r hr
        · exact h.tick
      · intro r hr
        simp at hr
        rcases hr with hr | ⟨c, _, rfl⟩
        · exact h.keys r hr
        · unfold parseKey; split
          · exact h.tick
          · simp
  | barline l c =>
    cases hp
    refine ⟨h.tick, h.tpq, h.notes, h.clefs, h.keys, ?_, h.directions⟩
    intro r hr
    simp [parseBarline] at hr
    rcases hr with hr | rfl
    · exact h.barlines r hr
    · simp only; split
      · decide
      · exact h.tick
  | other =>
    cases hp
    exact ⟨h.tick, h.tpq, h.notes, h.clefs, h.keys, h.barlines, h.directions⟩

theorem nonNeg_readElems {Q : Int → Prop} {env : REnv} (hG : 0 ≤ env.globalTicksPerQuarter) {la : Bool} : ∀ {es : List (Elem P)} {st st' : RSt P},
    (∀ e ∈ es, e.durationsOk Q) → NonNeg Q st → readElems env la es st = some st' → NonNeg Q st' := by
  intro es
  induction es with
  | nil => intro st st' _ h hr; cases hr; exact h
  | cons e es ih =>
    intro st st' he h hr
    simp only [readElems, Option.bind_eq_bind] at hr
    obtain ⟨s, hs, hr⟩ := Option.bind_eq_some_iff.mp hr
    exact ih (fun x hx => he x (by simp [hx])) (nonNeg_parseElem hG (he e (by simp)) h hs) hr

end Mx.Measure
