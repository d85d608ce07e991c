import Verif.Proofs.MeasureReaderClock
import Verif.Spec.MeasureRounding
import Mathlib.Tactic.Linarith

/-! The reader follows the MusicXML clock up to the rounding of each duration. -/
namespace Mx.Measure
open Spec

variable {P : Type}

theorem ceilDiv_bounds (a : Int) {b : Int} (hb : 0 < b) : a ≤ ceilDiv a b * b ∧ ceilDiv a b * b < a + b := by
  have h1 := Int.emod_nonneg (-a) (show b ≠ 0 by omega)
  have h2 := Int.emod_lt_of_pos (-a) hb
  have h3 := Int.mul_ediv_add_emod (-a) b
  have h4 : ceilDiv a b * b = -(b * (-a / b)) := by unfold ceilDiv; ring
  rw [h4]
  omega

/-- A duration is rounded to a whole number of ticks. -/
theorem convert_near {C G d : Int} (hC : 0 < C) : ∃ t, convertDuration C G d = some t ∧ |(t : ℚ) - (d : ℚ) / 1000000 * (1 / (C : ℚ)) * G| ≤ 1 / 2 := by
  have hCq : (0 : ℚ) < C := by exact_mod_cast hC
  have fin : ∀ t : Int, 2 * d * G - C * MICRO ≤ t * (2 * C * MICRO) → t * (2 * C * MICRO) < 2 * d * G - C * MICRO + 2 * C * MICRO →
      |(t : ℚ) - (d : ℚ) / 1000000 * (1 / (C : ℚ)) * G| ≤ 1 / 2 := by
    intro t h1 h2
    have h1q : (2 * d * G - C * 1000000 : ℚ) ≤ t * (2 * C * 1000000) := by
      have : ((2 * d * G - C * MICRO : Int) : ℚ) ≤ ((t * (2 * C * MICRO) : Int) : ℚ) := by exact_mod_cast h1
      simpa [MICRO] using this
    have h2q : (t * (2 * C * 1000000) : ℚ) < 2 * d * G - C * 1000000 + 2 * C * 1000000 := by
      have : ((t * (2 * C * MICRO) : Int) : ℚ) < ((2 * d * G - C * MICRO + 2 * C * MICRO : Int) : ℚ) := by exact_mod_cast h2
      simpa [MICRO] using this
    have e : (d : ℚ) / 1000000 * (1 / (C : ℚ)) * G = (d * G) / (1000000 * C) := by field_simp
    rw [e, abs_le]
    have hpos : (0 : ℚ) < 1000000 * C := by linarith
    constructor
    · have : (d * G : ℚ) / (1000000 * C) ≤ t + 1 / 2 := by
        rw [div_le_iff₀ hpos]; linarith
      linarith
    · have : (t : ℚ) - 1 / 2 ≤ (d * G : ℚ) / (1000000 * C) := by
        rw [le_div_iff₀ hpos]; linarith
      linarith
  unfold convertDuration
  split
  · rename_i he
    subst he
    refine ⟨_, rfl, fin _ ?_ ?_⟩
    · have h := (ceilDiv_bounds (2 * d - MICRO) (b := 2 * MICRO) (by decide)).1
      have h' := Int.mul_le_mul_of_nonneg_right h (show 0 ≤ C by omega)
      calc 2 * d * C - C * MICRO = (2 * d - MICRO) * C := by ring
        _ ≤ _ := h'
        _ = _ := by unfold roundMicro; ring
    · have h := (ceilDiv_bounds (2 * d - MICRO) (b := 2 * MICRO) (by decide)).2
      have h' := Int.mul_lt_mul_of_pos_right h hC
      calc _ = ceilDiv (2 * d - MICRO) (2 * MICRO) * (2 * MICRO) * C := by unfold roundMicro; ring
        _ < _ := h'
        _ = _ := by ring
  · rw [if_neg (show C ≠ 0 by omega)]
    have hb : 0 < 2 * C * MICRO := by
      have : 0 < C * MICRO := Int.mul_pos hC (by decide)
      have e : 2 * C * MICRO = 2 * (C * MICRO) := by ring
      rw [e]; omega
    have h := ceilDiv_bounds (2 * d * G - C * MICRO) hb
    exact ⟨_, rfl, fin _ h.1 h.2⟩

/-- The reader's position relative to the clock, after `k` roundings. -/
def TickNear (G : Int) (c : Clock) (base : Option Int) (next : Bool) (k : Nat) (tick : Int) : Prop :=
  match base with
  | none => |(tick : ℚ) - c.pos * G| ≤ (k : ℚ) / 2 ∧ next = false
  | some b => c.pos = c.onset + c.quarters b ∧ |(tick : ℚ) - (if next then c.onset else c.pos) * G| ≤ (k : ℚ) / 2

def FollowsNear (G : Int) (c : Clock) (base : Option Int) (next : Bool) (k : Nat) (r : RSt P) : Prop :=
  0 < r.ticksPerQuarter ∧ c.division = 1 / (r.ticksPerQuarter : ℚ) ∧ TickNear G c base next k r.tick

theorem timed_none : ∀ {es : List (Elem P)} {c : Clock}, ProperlyTimed c none es → nextIsChord es = false := by
  intro es
  induction es with
  | nil => intros; rfl
  | cons e es ih =>
    intro c h
    cases e with
    | note n =>
      have := h.2.2.1
      simp only [nextIsChord]
      cases hn : n.chord with
      | false => rfl
      | true => have := (this hn).1; simp at this
    | backup d => exact ih h.2
    | forward d => exact ih h.2
    | direction s o p => exact ih (c := c) h
    | attributes a => exact ih (by have := h.2; simpa using this)
    | barline l p => exact ih (c := c) h
    | other => exact ih (c := c) h

/-- The note that was read is near the place of a note. -/
def ReadNote.Near (G : Int) (r : ReadNote P) (x : Placed P × Nat) : Prop := Spec.Near G r.note.tick r.note.ticks r.staff r.note.userVoice r.note.content x.1 x.2

theorem pos_near {G : Int} {c : Clock} {base : Option Int} {next : Bool} {k : Nat} {tick : Int} (hn : next = false) (h : TickNear G c base next k tick) :
    |(tick : ℚ) - c.pos * G| ≤ (k : ℚ) / 2 := by
  cases base with
  | none => exact h.1
  | some b => subst hn; simpa using h.2

theorem near_add {a b x y : ℚ} {k : Nat} (h1 : |a - x| ≤ (k : ℚ) / 2) (h2 : |b - y| ≤ 1 / 2) : |a + b - (x + y)| ≤ ((k + 1 : Nat) : ℚ) / 2 := by
  rw [abs_le] at *
  push_cast
  constructor <;> linarith [h1.1, h1.2, h2.1, h2.2]

theorem near_more {a x : ℚ} {k : Nat} (h1 : |a - x| ≤ (k : ℚ) / 2) : |a - x| ≤ ((k + 1 : Nat) : ℚ) / 2 := by
  push_cast
  linarith

theorem read_near {env : REnv} {G : Int} (hG : 0 < G) (hg : env.globalTicksPerQuarter = G) : ∀ (es : List (Elem P)) (c : Clock)
    (base : Option Int) (k : Nat) (r : RSt P), ProperlyTimed c base es → StavesExist env.numStaves es → FollowsNear G c base (nextIsChord es) k r →
    ∃ r' l, readElems env false es r = some r' ∧ r'.notes = r.notes ++ l ∧ List.Forall₂ (ReadNote.Near G) l ((placedNotes c es).zip (movesBefore k es)) := by
  intro es
  have hGpos : (0 : ℚ) < G := by exact_mod_cast hG
  induction es with
  | nil => intro c base k r _ _ _; exact ⟨r, [], rfl, by simp, by simp [placedNotes]⟩
  | cons e es ih =>
    intro c base k r hw hs hf
    have hs' : StavesExist env.numStaves es :=
      ⟨hs.1, fun n hn => hs.2.1 n (by simp [hn]), fun a ha => hs.2.2 a (by simp [ha])⟩
    obtain ⟨hC, hdiv, hbase⟩ := hf
    have conv : ∀ d, ∃ t, convertDuration r.ticksPerQuarter env.globalTicksPerQuarter d = some t ∧ |(t : ℚ) - c.quarters d * G| ≤ 1 / 2 := by
      intro d
      rw [hg]
      obtain ⟨t, h1, h2⟩ := convert_near (G := G) (d := d) hC
      exact ⟨t, h1, by unfold Clock.quarters; rw [hdiv]; exact h2⟩
    have key : ∀ c' : Clock, c' = c → ProperlyTimed c' base es → TickNear G c base (nextIsChord es) k r.tick →
        ∀ r2 : RSt P, r2.tick = r.tick → r2.ticksPerQuarter = r.ticksPerQuarter → r2.notes = r.notes →
        ∃ r' l, readElems env false es r2 = some r' ∧ r'.notes = r.notes ++ l ∧ List.Forall₂ (ReadNote.Near G) l ((placedNotes c es).zip (movesBefore k es)) := by
      rintro c' rfl hw hb r2 h1 h2 h3
      obtain ⟨r', l, hr', hn', hl⟩ := ih c' base k r2 hw hs' ⟨by rw [h2]; exact hC, by rw [h2]; exact hdiv, by rw [h1]; exact hb⟩
      exact ⟨r', l, hr', by rw [hn', h3], hl⟩
    cases e with
    | note n =>
      obtain ⟨hd, hgr, hch, hw'⟩ := hw
      obtain ⟨t, hconv, ht⟩ := conv n.dur
      have hconv : convertDuration r.ticksPerQuarter env.globalTicksPerQuarter (if n.kind = .grace then 0 else n.dur) = some t := by
        split
        · rename_i hk; rw [hgr hk] at hconv; exact hconv
        · exact hconv
      have hstaff : noteStaffIndex n = n.staff.getD 1 - 1 ∧ noteStaffIndex n < env.numStaves := by
        unfold noteStaffIndex
        cases hst : n.staff with
        | none => have := hs.1; simp; omega
        | some s =>
          obtain ⟨h1, h2⟩ := hs.2.1 n (by simp) s hst
          simp
          rw [if_neg (by omega)]; omega
      simp only [readElems, parseElem, parseNote, hconv, Option.bind_eq_bind, Option.bind_some]
      rw [if_neg (by omega)]
      simp only [Option.bind_some]
      generalize hla : nextNoteIsChord false es = la
      have hla' : nextIsChord es = la := by rw [nextIsChord_eq, hla]
      -- tick of the note
      have hstart : |(r.tick : ℚ) - c.start n * G| ≤ (k : ℚ) / 2 := by
        unfold Clock.start
        cases hb : base with
        | none =>
          rw [hb] at hbase
          simp only [nextIsChord] at hbase
          rw [hbase.2]; simpa using hbase.1
        | some b =>
          rw [hb] at hbase
          exact hbase.2
      obtain ⟨r', l, hr', hn', hl⟩ := ih (c.step (.note n)) (if n.chord then base else some n.dur) (k + 1)
        { r with
          isBackupInProgress := false
          tick := if (!(n.chord || la) || !la) = true then r.tick + t else r.tick
          notes := r.notes ++ [{ staff := noteStaffIndex n, voice := r.voiceIndex, note := parseNoteData (n.chord || la) r.tick t n }] }
        hw' hs' (by
          refine ⟨hC, ?_, ?_⟩
          · simp only [Clock.step]; split <;> exact hdiv
          · cases hnc : n.chord with
            | false =>
              simp only [Bool.false_eq_true, if_false, Clock.step, hnc]
              refine ⟨rfl, ?_⟩
              have hstart' : |(r.tick : ℚ) - c.pos * G| ≤ (k : ℚ) / 2 := by simpa [Clock.start, hnc] using hstart
              rw [hla']
              cases la with
              | true => simpa using near_more hstart'
              | false =>
                simp only [Bool.or_false, Bool.not_false, Bool.or_true, if_true, Bool.false_eq_true, if_false]
                have := near_add hstart' ht
                push_cast
                rw [add_mul]
                push_cast at this
                exact this
            | true =>
              simp only [if_true, Clock.step, hnc]
              obtain ⟨hsome, hlast⟩ := hch hnc
              cases hb : base with
              | none => rw [hb] at hsome; cases hsome
              | some b =>
                rw [hb] at hbase
                refine ⟨hbase.1, ?_⟩
                have hstart' : |(r.tick : ℚ) - c.onset * G| ≤ (k : ℚ) / 2 := by simpa [Clock.start, hnc] using hstart
                rw [hla']
                cases la with
                | true => simpa using near_more hstart'
                | false =>
                  have hl := hlast hla'
                  rw [hb] at hl
                  have hl : b = n.dur := by simpa using hl
                  simp only [Bool.or_false, Bool.not_false, Bool.or_true, if_true, Bool.false_eq_true, if_false]
                  have := near_add hstart' ht
                  rw [hbase.1, hl, add_mul]
                  push_cast
                  push_cast at this
                  exact this)
      refine ⟨r', { staff := noteStaffIndex n, voice := r.voiceIndex, note := parseNoteData (n.chord || la) r.tick t n } :: l, hr', by rw [hn']; simp, ?_⟩
      simp only [placedNotes, movesBefore, List.zip_cons_cons]
      refine List.Forall₂.cons ⟨hstart, ht, ?_, rfl, rfl⟩ hl
      exact hstaff.1
    | backup d =>
      obtain ⟨hpos, hw'⟩ := hw
      obtain ⟨t, hconv, ht⟩ := conv d
      have hnx := timed_none hw'
      have htick := pos_near (by simpa [nextIsChord] using hnx) hbase
      have hnew : |((r.tick - t : Int) : ℚ) - (c.step (P := P) (.backup d)).pos * G| ≤ ((k + 1 : Nat) : ℚ) / 2 := by
        simp only [Clock.step]
        have h2 : |((-t : Int) : ℚ) - -(c.quarters d * G)| ≤ 1 / 2 := by
          have e : ((-t : Int) : ℚ) - -(c.quarters d * G) = -((t : ℚ) - c.quarters d * G) := by push_cast; ring
          rw [e, abs_neg]; exact ht
        have := near_add htick h2
        have e1 : (r.tick : ℚ) + ((-t : Int) : ℚ) = ((r.tick - t : Int) : ℚ) := by push_cast; ring
        have e2 : c.pos * G + -(c.quarters d * G) = (c.pos - c.quarters d) * G := by ring
        rw [e1, e2] at this
        exact this
      have hclamp : |(((if r.tick + -1 * t < 0 then r.tick + -1 * t + (r.tick + -1 * t) * -1 else r.tick + -1 * t) : Int) : ℚ) - (c.step (P := P) (.backup d)).pos * G| ≤ ((k + 1 : Nat) : ℚ) / 2 := by
        split
        · rename_i hlt
          have e : r.tick + -1 * t + (r.tick + -1 * t) * -1 = 0 := by ring
          rw [e]
          have hq : ((r.tick - t : Int) : ℚ) < 0 := by
            have : r.tick - t < 0 := by omega
            exact_mod_cast this
          have hp : 0 ≤ (c.step (P := P) (.backup d)).pos * G := mul_nonneg hpos hGpos.le
          rw [abs_le] at hnew ⊢
          simp only [Int.cast_zero]
          constructor <;> linarith [hnew.1, hnew.2]
        · have e : r.tick + -1 * t = r.tick - t := by ring
          rw [e]; exact hnew
      simp only [readElems, parseElem, parseBackup, hconv, Option.bind_eq_bind, Option.bind_some]
      obtain ⟨r', l, hr', hn', hl⟩ := ih (c.step (P := P) (.backup d)) none (k + 1)
        { r with
          voiceIndex := if r.isBackupInProgress = true then r.voiceIndex else r.voiceIndex + 1
          isBackupInProgress := true
          tick := if r.tick + -1 * t < 0 then r.tick + -1 * t + (r.tick + -1 * t) * -1 else r.tick + -1 * t } hw' hs' ⟨hC, by simpa [Clock.step] using hdiv, hclamp, hnx⟩
      exact ⟨r', l, hr', hn', hl⟩
    | forward d =>
      obtain ⟨hpos, hw'⟩ := hw
      obtain ⟨t, hconv, ht⟩ := conv d
      have hnx := timed_none hw'
      have htick := pos_near (by simpa [nextIsChord] using hnx) hbase
      simp only [readElems, parseElem, parseForward, hconv, Option.bind_eq_bind, Option.bind_some]
      obtain ⟨r', l, hr', hn', hl⟩ := ih (c.step (P := P) (.forward d)) none (k + 1)
        { r with isBackupInProgress := false, tick := r.tick + t } hw' hs' ⟨hC, by simpa [Clock.step] using hdiv, by
            simp only [Clock.step]
            have := near_add htick ht
            push_cast
            rw [add_mul]
            push_cast at this
            exact this, hnx⟩
      exact ⟨r', l, hr', hn', hl⟩
    | direction s o p =>
      simp only [readElems, parseElem, parseDirection, Option.bind_eq_bind]
      rw [if_neg (by have := hs.1; omega)]
      simp only [Option.bind_some]
      exact key c rfl hw hbase _ rfl rfl rfl
    | barline l p =>
      simp only [readElems, parseElem, parseBarline, Option.bind_eq_bind, Option.bind_some]
      exact key c rfl hw hbase _ rfl rfl rfl
    | other =>
      simp only [readElems, parseElem, Option.bind_eq_bind, Option.bind_some]
      exact key c rfl hw hbase _ rfl rfl rfl
    | attributes a =>
      obtain ⟨hk, hw'⟩ := hw
      have hcl : a.clefs.any (fun c => decide (env.numStaves ≤ clefStaff c)) = false := by
        rw [List.any_eq_false]
        intro x hx
        have := hs.2.2 a (by simp) x hx
        have h1 := hs.1
        unfold clefStaff
        cases hnum : x.number with
        | none => simp; omega
        | some s => have := this s hnum; simp; omega
      simp only [readElems, parseElem, parseProperties, hcl, Option.bind_eq_bind, Bool.false_eq_true, if_false, Option.bind_some]
      cases hd : a.divisions with
      | none =>
        rw [hd] at hw'
        have hcs : c.step (Elem.attributes a) = c := by simp [Clock.step, hd]
        rw [hcs] at hw'
        obtain ⟨r', l, hr', hn', hl⟩ := ih c base k
          { r with
            isBackupInProgress := false
            ticksPerQuarter := r.ticksPerQuarter
            keys := r.keys ++ a.keys.map (parseKey env r.tick)
            clefs := r.clefs ++ a.clefs.map (fun c => (clefStaff c, { tick := r.tick, content := c.content })) }
          hw' hs' ⟨hC, hdiv, hbase⟩
        refine ⟨r', l, hr', hn', ?_⟩
        simpa [placedNotes, hcs, movesBefore] using hl
      | some d =>
        obtain ⟨m, hk0, hkd⟩ := hk d hd
        rw [hd] at hw'
        simp only [Option.isSome_some, if_true] at hw'
        have hcs : c.step (Elem.attributes a) = { c with division := 1000000 / (d : ℚ) } := by simp [Clock.step, hd]
        have hnx := timed_none hw'
        have htick := pos_near (by simpa [nextIsChord] using hnx) hbase
        have hround : roundMicro d = m := by rw [hkd]; exact roundMicro_mul m
        rw [hcs] at hw'
        obtain ⟨r', l, hr', hn', hl⟩ := ih { c with division := 1000000 / (d : ℚ) } none k
          { r with
            isBackupInProgress := false
            ticksPerQuarter := roundMicro d
            keys := r.keys ++ a.keys.map (parseKey env r.tick)
            clefs := r.clefs ++ a.clefs.map (fun c => (clefStaff c, { tick := r.tick, content := c.content })) }
          hw' hs' ⟨by simp only [hround]; exact hk0, by
            simp only [hround]
            rw [hkd]
            have : (m : ℚ) ≠ 0 := by exact_mod_cast (by omega)
            push_cast
            field_simp, htick, hnx⟩
        refine ⟨r', l, hr', hn', ?_⟩
        simpa [placedNotes, hcs, movesBefore] using hl

end Mx.Measure
