import Verif.Proofs.FloatTimes

/-! Reading in floating point arithmetic follows the MusicXML clock up to the rounding of each duration (as MeasureReaderRounding.lean). -/
namespace Mx.Measure
open Spec Fl

variable {P : Type}

/-- How far one conversion is off. -/
def H : ℚ := 50001 / 100000

/-- The reader's position relative to the clock, after `k` roundings. -/
def TickNearF (G : Int) (c : Clock) (base : Option Int) (next : Bool) (k : Nat) (tick : Int) : Prop :=
  match base with
  | none => |(tick : ℚ) - c.pos * G| ≤ k * H ∧ next = false
  | some b => c.pos = c.onset + c.quarters b ∧ |(tick : ℚ) - (if next then c.onset else c.pos) * G| ≤ k * H

def FollowsNearF (G : Int) (c : Clock) (base : Option Int) (next : Bool) (k : Nat) (r : RSt P) : Prop :=
  (0 < r.ticksPerQuarter ∧ r.ticksPerQuarter ≤ INT_MAX) ∧ c.division = 1 / (r.ticksPerQuarter : ℚ) ∧ TickNearF G c base next k r.tick

/-- The note that was read is near the place of a note. -/
def ReadNote.NearF (G : Int) (r : ReadNote P) (x : Placed P × Nat) : Prop := Spec.NearF G r.note.tick r.note.ticks r.staff r.note.userVoice r.note.content x.1 x.2

theorem pos_nearF {G : Int} {c : Clock} {base : Option Int} {next : Bool} {k : Nat} {tick : Int} (hn : next = false) (h : TickNearF G c base next k tick) :
    |(tick : ℚ) - c.pos * G| ≤ k * H := by
  cases base with
  | none => exact h.1
  | some b => subst hn; simpa using h.2

theorem near_addF {a b x y : ℚ} {k : Nat} (h1 : |a - x| ≤ k * H) (h2 : |b - y| ≤ H) : |a + b - (x + y)| ≤ ((k + 1 : Nat) : ℚ) * H := by
  rw [abs_le] at *
  push_cast
  constructor <;> linarith [h1.1, h1.2, h2.1, h2.2]

theorem near_moreF {a x : ℚ} {k : Nat} (h1 : |a - x| ≤ k * H) : |a - x| ≤ ((k + 1 : Nat) : ℚ) * H := by
  push_cast
  have : 0 ≤ H := by unfold H; norm_num
  linarith

theorem read_nearF {env : REnv} {G : Int} {p : Nat} (hp : 53 ≤ p) (hG : 0 < G) (hG' : G ≤ INT_MAX) (hg : env.globalTicksPerQuarter = G) : ∀ (es : List (Elem P)) (c : Clock)
    (base : Option Int) (k : Nat) (r : RSt P), ProperlyTimed c base es → ModerateTimes G c es → StavesExist env.numStaves es → FollowsNearF G c base (nextIsChord es) k r →
    ∃ r' l, readElemsF p env es r = some r' ∧ r'.notes = r.notes ++ l ∧ List.Forall₂ (ReadNote.NearF G) l ((placedNotes c es).zip (movesBefore k es)) := by
  intro es
  have hGpos : (0 : ℚ) < G := by exact_mod_cast hG
  induction es with
  | nil => intro c base k r _ _ _ _; exact ⟨r, [], rfl, by simp, by simp [placedNotes]⟩
  | cons e es ih =>
    intro c base k r hw hm hs hf
    have hs' : StavesExist env.numStaves es :=
      ⟨hs.1, fun n hn => hs.2.1 n (by simp [hn]), fun a ha => hs.2.2 a (by simp [ha])⟩
    obtain ⟨hC, hdiv, hbase⟩ := hf
    have conv : ∀ d, |c.quarters d * G| ≤ 2147483647 → ∃ t, convertDurationF p r.ticksPerQuarter env.globalTicksPerQuarter d = some t ∧ |(t : ℚ) - c.quarters d * G| ≤ H := by
      intro d hx
      rw [hg]
      obtain ⟨t, h1, h2⟩ := convertF_near hp hC.1 hC.2 hG hG' (d := d) (by unfold Clock.quarters at hx; rw [hdiv] at hx; exact hx)
      exact ⟨t, h1, by unfold Clock.quarters; rw [hdiv]; exact h2⟩
    have key : ∀ c' : Clock, c' = c → ProperlyTimed c' base es → ModerateTimes G c' es → TickNearF G c base (nextIsChord es) k r.tick →
        ∀ r2 : RSt P, r2.tick = r.tick → r2.ticksPerQuarter = r.ticksPerQuarter → r2.notes = r.notes →
        ∃ r' l, readElemsF p env es r2 = some r' ∧ r'.notes = r.notes ++ l ∧ List.Forall₂ (ReadNote.NearF G) l ((placedNotes c es).zip (movesBefore k es)) := by
      rintro c' rfl hw hm hb r2 h1 h2 h3
      obtain ⟨r', l, hr', hn', hl⟩ := ih c' base k r2 hw hm hs' ⟨by rw [h2]; exact hC, by rw [h2]; exact hdiv, by rw [h1]; exact hb⟩
      exact ⟨r', l, hr', by rw [hn', h3], hl⟩
    cases e with
    | note n =>
      obtain ⟨hd, hgr, hch, hw'⟩ := hw
      obtain ⟨t, hconv, ht⟩ := conv n.dur hm.1
      have hconv : convertDurationF p r.ticksPerQuarter env.globalTicksPerQuarter (if n.kind = .grace then 0 else n.dur) = some t := by
        split
        · rename_i hk; rw [hgr hk] at hconv; exact hconv
        · exact hconv
      have hstaff : noteStaffIndex n = n.staff.getD 1 - 1 ∧ noteStaffIndex n < env.numStaves := by
        unfold noteStaffIndex
        cases hst : n.staff with
        | none => have := hs.1; simp; omega
        | some s =>
          obtain ⟨h1, h2⟩ := hs.2.1 n (by simp) s hst
          simp
          rw [if_neg (by omega)]; omega
      simp only [readElemsF, parseElemF, parseNoteF, hconv, Option.bind_eq_bind, Option.bind_some]
      rw [if_neg (by omega)]
      simp only [Option.bind_some]
      generalize hla : nextNoteIsChord false es = la
      have hla' : nextIsChord es = la := by rw [nextIsChord_eq, hla]
      -- tick of the note
      have hstart : |(r.tick : ℚ) - c.start n * G| ≤ k * H := by
        unfold Clock.start
        cases hb : base with
        | none =>
          rw [hb] at hbase
          simp only [nextIsChord] at hbase
          rw [hbase.2]; simpa using hbase.1
        | some b =>
          rw [hb] at hbase
          exact hbase.2
      obtain ⟨r', l, hr', hn', hl⟩ := ih (c.step (.note n)) (if n.chord then base else some n.dur) (k + 1)
        { r with
          isBackupInProgress := false
          tick := if (!(n.chord || la) || !la) = true then r.tick + t else r.tick
          notes := r.notes ++ [{ staff := noteStaffIndex n, voice := r.voiceIndex, note := parseNoteData (n.chord || la) r.tick t n }] }
        hw' hm.2 hs' (by
          refine ⟨hC, ?_, ?_⟩
          · simp only [Clock.step]; split <;> exact hdiv
          · cases hnc : n.chord with
            | false =>
              simp only [Bool.false_eq_true, if_false, Clock.step, hnc]
              refine ⟨rfl, ?_⟩
              have hstart' : |(r.tick : ℚ) - c.pos * G| ≤ k * H := by simpa [Clock.start, hnc] using hstart
              rw [hla']
              cases la with
              | true => simpa using near_moreF hstart'
              | false =>
                simp only [Bool.or_false, Bool.not_false, Bool.or_true, if_true, Bool.false_eq_true, if_false]
                have := near_addF hstart' ht
                push_cast
                rw [add_mul]
                push_cast at this
                exact this
            | true =>
              simp only [if_true, Clock.step, hnc]
              obtain ⟨hsome, hlast⟩ := hch hnc
              cases hb : base with
              | none => rw [hb] at hsome; cases hsome
              | some b =>
                rw [hb] at hbase
                refine ⟨hbase.1, ?_⟩
                have hstart' : |(r.tick : ℚ) - c.onset * G| ≤ k * H := by simpa [Clock.start, hnc] using hstart
                rw [hla']
                cases la with
                | true => simpa using near_moreF hstart'
                | false =>
                  have hl := hlast hla'
                  rw [hb] at hl
                  have hl : b = n.dur := by simpa using hl
                  simp only [Bool.or_false, Bool.not_false, Bool.or_true, if_true, Bool.false_eq_true, if_false]
                  have := near_addF hstart' ht
                  rw [hbase.1, hl, add_mul]
                  push_cast
                  push_cast at this
                  exact this)
      refine ⟨r', { staff := noteStaffIndex n, voice := r.voiceIndex, note := parseNoteData (n.chord || la) r.tick t n } :: l, hr', by rw [hn']; simp, ?_⟩
      simp only [placedNotes, movesBefore, List.zip_cons_cons]
      refine List.Forall₂.cons ⟨hstart, ht, ?_, rfl, rfl⟩ hl
      exact hstaff.1
    | backup d =>
      obtain ⟨hpos, hw'⟩ := hw
      obtain ⟨t, hconv, ht⟩ := conv d hm.1
      have hnx := timed_none hw'
      have htick := pos_nearF (by simpa [nextIsChord] using hnx) hbase
      have hnew : |((r.tick - t : Int) : ℚ) - (c.step (P := P) (.backup d)).pos * G| ≤ ((k + 1 : Nat) : ℚ) * H := by
        simp only [Clock.step]
        have h2 : |((-t : Int) : ℚ) - -(c.quarters d * G)| ≤ H := by
          have e : ((-t : Int) : ℚ) - -(c.quarters d * G) = -((t : ℚ) - c.quarters d * G) := by push_cast; ring
          rw [e, abs_neg]; exact ht
        have := near_addF htick h2
        have e1 : (r.tick : ℚ) + ((-t : Int) : ℚ) = ((r.tick - t : Int) : ℚ) := by push_cast; ring
        have e2 : c.pos * G + -(c.quarters d * G) = (c.pos - c.quarters d) * G := by ring
        rw [e1, e2] at this
        exact this
      have hclamp : |(((if r.tick + -1 * t < 0 then r.tick + -1 * t + (r.tick + -1 * t) * -1 else r.tick + -1 * t) : Int) : ℚ) - (c.step (P := P) (.backup d)).pos * G| ≤ ((k + 1 : Nat) : ℚ) * H := by
        split
        · rename_i hlt
          have e : r.tick + -1 * t + (r.tick + -1 * t) * -1 = 0 := by ring
          rw [e]
          have hq : ((r.tick - t : Int) : ℚ) < 0 := by
            have : r.tick - t < 0 := by omega
            exact_mod_cast this
          have hp : 0 ≤ (c.step (P := P) (.backup d)).pos * G := mul_nonneg hpos hGpos.le
          rw [abs_le] at hnew ⊢
          simp only [Int.cast_zero]
          constructor <;> linarith [hnew.1, hnew.2]
        · have e : r.tick + -1 * t = r.tick - t := by ring
          rw [e]; exact hnew
      simp only [readElemsF, parseElemF, parseBackupF, hconv, Option.bind_eq_bind, Option.bind_some]
      obtain ⟨r', l, hr', hn', hl⟩ := ih (c.step (P := P) (.backup d)) none (k + 1)
        { r with
          voiceIndex := if r.isBackupInProgress = true then r.voiceIndex else r.voiceIndex + 1
          isBackupInProgress := true
          tick := if r.tick + -1 * t < 0 then r.tick + -1 * t + (r.tick + -1 * t) * -1 else r.tick + -1 * t } hw' hm.2 hs' ⟨hC, by simpa [Clock.step] using hdiv, hclamp, hnx⟩
      exact ⟨r', l, hr', hn', hl⟩
    | forward d =>
      obtain ⟨hpos, hw'⟩ := hw
      obtain ⟨t, hconv, ht⟩ := conv d hm.1
      have hnx := timed_none hw'
      have htick := pos_nearF (by simpa [nextIsChord] using hnx) hbase
      simp only [readElemsF, parseElemF, parseForwardF, hconv, Option.bind_eq_bind, Option.bind_some]
      obtain ⟨r', l, hr', hn', hl⟩ := ih (c.step (P := P) (.forward d)) none (k + 1)
        { r with isBackupInProgress := false, tick := r.tick + t } hw' hm.2 hs' ⟨hC, by simpa [Clock.step] using hdiv, by
            simp only [Clock.step]
            have := near_addF htick ht
            push_cast
            rw [add_mul]
            push_cast at this
            exact this, hnx⟩
      exact ⟨r', l, hr', hn', hl⟩
    | direction s o p =>
      simp only [readElemsF, parseElemF, parseDirectionF, Option.bind_eq_bind]
      rw [if_neg (by have := hs.1; omega)]
      simp only [Option.bind_some]
      exact key c rfl hw hm.2 hbase _ rfl rfl rfl
    | barline l p =>
      simp only [readElemsF, parseElemF, parseBarline, Option.bind_eq_bind, Option.bind_some]
      exact key c rfl hw hm hbase _ rfl rfl rfl
    | other =>
      simp only [readElemsF, parseElemF, Option.bind_eq_bind, Option.bind_some]
      exact key c rfl hw hm hbase _ rfl rfl rfl
    | attributes a =>
      obtain ⟨hk, hw'⟩ := hw
      have hcl : a.clefs.any (fun c => decide (env.numStaves ≤ clefStaff c)) = false := by
        rw [List.any_eq_false]
        intro x hx
        have := hs.2.2 a (by simp) x hx
        have h1 := hs.1
        unfold clefStaff
        cases hnum : x.number with
        | none => simp; omega
        | some s => have := this s hnum; simp; omega
      simp only [readElemsF, parseElemF, parsePropertiesF, hcl, Option.bind_eq_bind, Bool.false_eq_true, if_false, Option.bind_some]
      cases hd : a.divisions with
      | none =>
        rw [hd] at hw'
        have hcs : c.step (Elem.attributes a) = c := by simp [Clock.step, hd]
        have hm2 := hm.2
        rw [hcs] at hw' hm2
        obtain ⟨r', l, hr', hn', hl⟩ := ih c base k
          { r with
            isBackupInProgress := false
            ticksPerQuarter := r.ticksPerQuarter
            keys := r.keys ++ a.keys.map (parseKey env r.tick)
            clefs := r.clefs ++ a.clefs.map (fun c => (clefStaff c, { tick := r.tick, content := c.content })) }
          hw' hm2 hs' ⟨hC, hdiv, hbase⟩
        refine ⟨r', l, hr', hn', ?_⟩
        simpa [placedNotes, hcs, movesBefore] using hl
      | some d =>
        obtain ⟨m, hk0, hkm, hkd⟩ := hm.1 d hd
        rw [hd] at hw'
        simp only [Option.isSome_some, if_true] at hw'
        have hcs : c.step (Elem.attributes a) = { c with division := 1000000 / (d : ℚ) } := by simp [Clock.step, hd]
        have hnx := timed_none hw'
        have htick := pos_nearF (by simpa [nextIsChord] using hnx) hbase
        have hround : roundMicroF p d = m := by
          rw [roundMicroF_eq hp (by rw [hkd]; unfold INT_MAX at hkm; rw [abs_of_nonneg (by omega)]; omega), hkd]
          exact roundMicro_mul m
        have hm2 := hm.2
        rw [hcs] at hw' hm2
        obtain ⟨r', l, hr', hn', hl⟩ := ih { c with division := 1000000 / (d : ℚ) } none k
          { r with
            isBackupInProgress := false
            ticksPerQuarter := roundMicroF p d
            keys := r.keys ++ a.keys.map (parseKey env r.tick)
            clefs := r.clefs ++ a.clefs.map (fun c => (clefStaff c, { tick := r.tick, content := c.content })) }
          hw' hm2 hs' ⟨by simp only [hround]; exact ⟨hk0, hkm⟩, by
            simp only [hround]
            rw [hkd]
            have : (m : ℚ) ≠ 0 := by exact_mod_cast (by omega)
            push_cast
            field_simp, htick, hnx⟩
        refine ⟨r', l, hr', hn', ?_⟩
        simpa [placedNotes, hcs, movesBefore] using hl

end Mx.Measure
