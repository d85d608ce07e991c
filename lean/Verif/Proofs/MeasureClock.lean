import Verif.Proofs.MeasureWriter
import Verif.Spec.MeasurePlan
import Mathlib.Tactic.Ring
import Mathlib.Tactic.FieldSimp
import Mathlib.Tactic.Linarith
import Mathlib.Algebra.Order.Ring.Rat

/-! The MusicXML clock running over the output of the writer. -/
namespace Mx.Measure
open Spec

variable {P : Type}

def runClock (c : Clock) (es : List (Elem P)) : Clock := es.foldl Clock.step c

theorem runClock_append (c : Clock) (xs ys : List (Elem P)) : runClock c (xs ++ ys) = runClock (runClock c xs) ys := by
  simp [runClock]

theorem placedNotes_append (c : Clock) (xs ys : List (Elem P)) :
    placedNotes c (xs ++ ys) = placedNotes c xs ++ placedNotes (runClock c xs) ys := by
  induction xs generalizing c with
  | nil => rfl
  | cons e es ih => cases e <;> simp [placedNotes, ih, runClock]

theorem placedNotes_quiet {xs : List (Elem P)} (h : ∀ e ∈ xs, e.isQuiet = true) (c : Clock) : placedNotes c xs = [] := by
  induction xs generalizing c with
  | nil => rfl
  | cons e es ih =>
    have he := h e (by simp)
    have ht := ih (fun x hx => h x (by simp [hx]))
    cases e <;> simp_all [placedNotes, Elem.isQuiet]

theorem runClock_quiet {xs : List (Elem P)} (h : ∀ e ∈ xs, e.isQuiet = true) (c : Clock) :
    (runClock c xs).pos = c.pos ∧ (runClock c xs).onset = c.onset ∧
    (xs.filterMap Elem.divisions? = [] → (runClock c xs).division = c.division) ∧
    (∀ d, xs.filterMap Elem.divisions? = [d] → (runClock c xs).division = 1000000 / (d : ℚ)) := by
  induction xs generalizing c with
  | nil => simp [runClock]
  | cons e es ih =>
    have he := h e (by simp)
    have ht := ih (fun x hx => h x (by simp [hx]))
    cases e with
    | note n => simp [Elem.isQuiet] at he
    | backup n => simp [Elem.isQuiet] at he
    | forward n => simp [Elem.isQuiet] at he
    | direction s o p =>
      obtain ⟨h1, h2, h3, h4⟩ := ht c
      exact ⟨h1, h2, fun h => h3 (by simpa only [List.filterMap_cons, Elem.divisions?] using h),
        fun d h => h4 d (by simpa only [List.filterMap_cons, Elem.divisions?] using h)⟩
    | barline s o =>
      obtain ⟨h1, h2, h3, h4⟩ := ht c
      exact ⟨h1, h2, fun h => h3 (by simpa only [List.filterMap_cons, Elem.divisions?] using h),
        fun d h => h4 d (by simpa only [List.filterMap_cons, Elem.divisions?] using h)⟩
    | other =>
      obtain ⟨h1, h2, h3, h4⟩ := ht c
      exact ⟨h1, h2, fun h => h3 (by simpa only [List.filterMap_cons, Elem.divisions?] using h),
        fun d h => h4 d (by simpa only [List.filterMap_cons, Elem.divisions?] using h)⟩
    | attributes a =>
      cases hd : a.divisions with
      | none =>
        obtain ⟨h1, h2, h3, h4⟩ := ht c
        have hrun : runClock c (Elem.attributes a :: es) = runClock c es := by simp [runClock, Clock.step, hd]
        rw [hrun]
        exact ⟨h1, h2, fun h => h3 (by simpa only [List.filterMap_cons, Elem.divisions?, hd] using h),
          fun d h => h4 d (by simpa only [List.filterMap_cons, Elem.divisions?, hd] using h)⟩
      | some d =>
        obtain ⟨h1, h2, h3, h4⟩ := ht { c with division := 1000000 / (d : ℚ) }
        refine ⟨?_, ?_, ?_, ?_⟩
        · simpa [runClock, Clock.step, hd] using h1
        · simpa [runClock, Clock.step, hd] using h2
        · simp [List.filterMap_cons, Elem.divisions?, hd]
        · intro d' hd'
          simp only [List.filterMap_cons, Elem.divisions?, hd, List.cons.injEq] at hd'
          have := h3 hd'.2
          rw [← hd'.1]
          simpa [runClock, Clock.step, hd] using this

/-- The clock after everything written so far runs at `G` divisions per quarter, or the divisions are still
in the buffer. -/
def DivOk (G : Int) (c0 : Clock) (st : WSt P) : Prop :=
  st.buf.divisions = some (G * MICRO) ∨ (st.buf.divisions = none ∧ (runClock c0 st.out).division = 1 / (G : ℚ))

theorem divOk_quiet {G : Int} (hG : 0 < G) {s : Int} {c0 : Clock} {st st' : WSt P} {xs ds} (h : Quiet s st st' xs ds)
    (hd : DivOk G c0 st) : DivOk G c0 st' := by
  obtain ⟨_, _, r3, r4⟩ := runClock_quiet h.quiet (runClock c0 st.out)
  have hdv := h.divs
  rcases hd with hd | ⟨hd, hc⟩
  · rw [hd] at hdv
    cases hb : st'.buf.divisions with
    | none =>
      rw [hb] at hdv
      simp at hdv
      right
      refine ⟨hb, ?_⟩
      rw [h.out, runClock_append, r4 _ hdv]
      have : (G : ℚ) ≠ 0 := by exact_mod_cast (by omega)
      simp only [MICRO]
      push_cast
      field_simp
    | some d =>
      left
      rw [hb] at hdv
      rw [hb]
      generalize hl : xs.filterMap Elem.divisions? = l at hdv
      cases l with
      | nil => simpa using hdv
      | cons a t => simp at hdv
  · rw [hd] at hdv
    simp at hdv
    right
    exact ⟨hdv.2, by rw [h.out, runClock_append, r3 (by simpa [List.filterMap_eq_nil_iff] using hdv.1), hc]⟩

theorem placed_quiet {s : Int} {c0 : Clock} {st st' : WSt P} {xs ds} (h : Quiet s st st' xs ds) :
    placedNotes c0 st'.out = placedNotes c0 st.out ∧ (runClock c0 st'.out).pos = (runClock c0 st.out).pos ∧
    (runClock c0 st'.out).onset = (runClock c0 st.out).onset := by
  obtain ⟨r1, r2, _, _⟩ := runClock_quiet h.quiet (runClock c0 st.out)
  rw [h.out, placedNotes_append, placedNotes_quiet h.quiet, runClock_append, r1, r2]
  simp

/-- Length in quarter notes of written ticks. -/
theorem quarters_ticks {G t : Int} {c : Clock} (ht : 0 < t) (hc : c.division = 1 / (G : ℚ)) :
    c.quarters (durMicro t) = (t : ℚ) / (G : ℚ) := by
  unfold Clock.quarters durMicro
  rw [if_pos ht, hc]
  simp only [MICRO]
  push_cast
  field_simp

/-- After `writeForwardOrBackupIfNeeded` the cursor is at the note, and the clock has moved by the same amount. -/
theorem clock_forwardOrBackup {G : Int} (hG : 0 < G) {c0 : Clock} {st : WSt P} {n : NoteData P} (hn : 0 ≤ n.tick)
    (hd : DivOk G c0 st) :
    let st1 := writeForwardOrBackupIfNeeded n st
    st1.tick = n.tick ∧ st1.prevChord = st.prevChord ∧ st1.buf = {} ∧
    placedNotes c0 st1.out = placedNotes c0 st.out ∧
    (runClock c0 st1.out).pos = (runClock c0 st.out).pos + ((n.tick : ℚ) - st.tick) / G ∧
    (runClock c0 st1.out).onset = (runClock c0 st.out).onset ∧ (runClock c0 st1.out).division = 1 / (G : ℚ) := by
  obtain ⟨xs, hq⟩ := quiet_flush 0 st
  obtain ⟨p1, p2, p3⟩ := placed_quiet (c0 := c0) hq
  have hdf := divOk_quiet hG hq hd
  have hdv : (runClock c0 (flush st).out).division = 1 / (G : ℚ) := by
    rcases hdf with h | h
    · rw [flush_buf_divisions] at h; cases h
    · exact h.2
  have hb := flush_buf st
  simp only
  unfold writeForwardOrBackupIfNeeded
  simp only
  rw [if_neg (by omega)]
  rw [hq.tick]
  split
  · rename_i hlt
    unfold backup
    simp only
    rw [hq.tick]
    rw [if_neg (c := st.tick - -1 * (n.tick - st.tick) < 0) (by omega), if_neg (by omega)]
    have hpos : 0 < -1 * (n.tick - st.tick) := by omega
    refine ⟨by simp only; omega, hq.prevChord, hb, ?_, ?_, ?_, ?_⟩
    · rw [placedNotes_append, p1]; simp [placedNotes]
    · rw [runClock_append]
      show (runClock c0 (flush st).out).pos - _ = _
      rw [quarters_ticks hpos hdv, p2]
      push_cast
      ring
    · rw [runClock_append]; exact p3
    · rw [runClock_append]; exact hdv
  · split
    · rename_i hge hgt
      unfold forward
      have hpos : 0 < n.tick - st.tick := by omega
      refine ⟨by simp only; rw [hq.tick]; omega, hq.prevChord, hb, ?_, ?_, ?_, ?_⟩
      · rw [placedNotes_append, p1]; simp [placedNotes]
      · rw [runClock_append]
        show (runClock c0 (flush st).out).pos + _ = _
        rw [quarters_ticks hpos hdv, p2]
        push_cast
        ring
      · rw [runClock_append]; exact p3
      · rw [runClock_append]; exact hdv
    · have : n.tick = st.tick := by omega
      refine ⟨by rw [this]; exact hq.tick, hq.prevChord, hb, p1, ?_, p3, hdv⟩
      rw [p2, this]; ring

/-- State between two notes of a voice. -/
def Between (G : Int) (prev : Option (NoteData P)) (pct : Int) (next : Option (NoteData P)) (st : WSt P) (c : Clock) : Prop :=
  match prev with
  | none => c.pos = (st.tick : ℚ) / G ∧ 0 ≤ st.tick
  | some p =>
    st.prevChord = p.isChord ∧ (p.isChord = true → pct = p.tick) ∧
    if p.isChord = true ∧ (∃ n, next = some n ∧ n.tick = p.tick) then
      st.tick = p.tick ∧ 0 ≤ p.tick ∧ c.onset = (p.tick : ℚ) / G ∧ c.pos = ((p.tick : ℚ) + p.ticks) / G
    else c.pos = (st.tick : ℚ) / G ∧ 0 ≤ st.tick

theorem noteElem_quarters {G : Int} {ctx : WCtx} {a b : Bool} {n : NoteData P} {c : Clock} (hn : NoteOk n) (hc : c.division = 1 / (G : ℚ)) :
    c.quarters (noteElem ctx a b n).dur = (n.ticks : ℚ) / G := by
  unfold noteElem
  simp only
  split
  · rename_i hk
    rw [hn.2.1 hk]; simp [Clock.quarters]
  · rename_i hk
    exact quarters_ticks (hn.2.2 hk) hc

theorem _root_.Spec.NoteOk.ticks_nonneg {n : NoteData P} (h : NoteOk n) : 0 ≤ n.ticks := by
  by_cases hk : n.kind = .grace
  · rw [h.2.1 hk]
  · have := h.2.2 hk; omega

/-- One note. -/
theorem clock_note {G : Int} (hG : 0 < G) {c0 : Clock} (ctx : WCtx) (isFirst : Bool) (pct : Int) (prev : Option (NoteData P))
    (n : NoteData P) (next : Option (NoteData P)) (st : WSt P) (hn : NoteOk n) (hf : isFirst = prev.isNone)
    (hpair : ∀ p, prev = some p → PairOk p n) (hd : DivOk G c0 st)
    (hb : Between G prev pct (some n) st (runClock c0 st.out)) :
    let st1 := writeForwardOrBackupIfNeeded n st
    let isStart := n.isChord && (isFirst || st1.tick != pct)
    let st3 := writeDirections ctx prev (some n) next (writeKeysAndClefs ctx st1)
    let st5 := { advanceCursorIfNeeded n next (addNote ctx isStart n st3) with prevChord := n.isChord }
    placedNotes c0 st5.out = placedNotes c0 st.out ++ [expectedNote G ctx.numStaves ctx.staffIndex ctx.voiceIndex n] ∧
    DivOk G c0 st5 ∧ Between G (some n) (if n.isChord then st1.tick else pct) next st5 (runClock c0 st5.out) := by
  obtain ⟨a1, a2, a3, a4, a5, a6, a7⟩ := clock_forwardOrBackup hG (c0 := c0) hn.1 hd
  simp only
  generalize hst1 : writeForwardOrBackupIfNeeded n st = st1 at a1 a2 a3 a4 a5 a6 a7
  obtain ⟨xs, hq2⟩ := quiet_writeKeysAndClefs ctx st1
  obtain ⟨ys, ds, hq3, hq3b⟩ := quiet_writeDirections ctx prev (some n) next (writeKeysAndClefs ctx st1)
  have hq := hq2.trans hq3
  have hbuf := hq3b (writeKeysAndClefs_buf ctx st1)
  generalize hst3 : writeDirections ctx prev (some n) next (writeKeysAndClefs ctx st1) = st3 at hq hbuf
  obtain ⟨b1, b2, b3⟩ := placed_quiet (c0 := c0) hq
  have hdiv1 : DivOk G c0 st1 := .inr ⟨by rw [a3], a7⟩
  have hdiv3 : DivOk G c0 st3 := divOk_quiet hG hq hdiv1
  have hdv : (runClock c0 st3.out).division = 1 / (G : ℚ) := by
    rcases hdiv3 with h | h
    · rw [hbuf] at h; cases h
    · exact h.2
  generalize hstart : (n.isChord && (isFirst || st1.tick != pct)) = isStart
  have hlen := noteElem_quarters (ctx := ctx) (a := st3.prevChord) (b := isStart) hn hdv
  have hout : ∀ st5 : WSt P, st5.out = (addNote ctx isStart n st3).out →
      placedNotes c0 st5.out = placedNotes c0 st.out ++
        [⟨(runClock c0 st3.out).start (noteElem ctx st3.prevChord isStart n), (n.ticks : ℚ) / G,
          (noteElem ctx st3.prevChord isStart n).staff, (noteElem ctx st3.prevChord isStart n).voice, n.content⟩] ∧
      runClock c0 st5.out = (runClock c0 st3.out).step (.note (noteElem ctx st3.prevChord isStart n)) := by
    intro st5 h5
    rw [h5]
    unfold addNote
    simp only
    rw [placedNotes_append, runClock_append, b1, a4]
    simp only [placedNotes, hlen]
    exact ⟨rfl, rfl⟩
  have hadv : (advanceCursorIfNeeded n next (addNote ctx isStart n st3)).out = (addNote ctx isStart n st3).out := by
    unfold advanceCursorIfNeeded; split <;> rfl
  have hadvbuf : (advanceCursorIfNeeded n next (addNote ctx isStart n st3)).buf = st3.buf := by
    unfold advanceCursorIfNeeded; split <;> rfl
  have htick3 : st3.tick = n.tick := by rw [hq.tick, a1]
  obtain ⟨c1, c2⟩ := hout { advanceCursorIfNeeded n next (addNote ctx isStart n st3) with prevChord := n.isChord } hadv
  rw [c1, c2]
  -- is the element a chord member?
  have hchord : ((noteElem ctx st3.prevChord isStart n).chord = true ∧
        (∃ p, prev = some p ∧ p.isChord = true ∧ p.tick = n.tick ∧ n.ticks = p.ticks ∧ n.isChord = true) ∧
        (runClock c0 st3.out).onset = (n.tick : ℚ) / G ∧ (runClock c0 st3.out).pos = ((n.tick : ℚ) + n.ticks) / G) ∨
      ((noteElem ctx st3.prevChord isStart n).chord = false ∧ (runClock c0 st3.out).pos = (n.tick : ℚ) / G) := by
    have hpc : st3.prevChord = st.prevChord := by rw [hq.prevChord, a2]
    have hGq : (G : ℚ) ≠ 0 := by exact_mod_cast (by omega)
    cases hprev : prev with
    | none =>
      right
      rw [hprev] at hb hf
      simp only [Option.isNone_none] at hf
      obtain ⟨hb1, hb2⟩ := hb
      refine ⟨?_, ?_⟩
      · unfold noteElem; simp only; rw [← hstart, hf]; cases n.isChord <;> simp
      · rw [b2, a5, hb1]; field_simp; ring
    | some p =>
      rw [hprev] at hb hf
      simp only [Option.isNone_some] at hf
      obtain ⟨hb1, hb2, hb3⟩ := hb
      by_cases hmid : p.isChord = true ∧ n.tick = p.tick
      · have : p.isChord = true ∧ (∃ m, some n = some m ∧ m.tick = p.tick) := ⟨hmid.1, n, rfl, hmid.2⟩
        rw [if_pos this] at hb3
        obtain ⟨e1, e2, e3, e4⟩ := hb3
        have hp := hpair p hprev hmid.1 hmid.2
        by_cases hc : n.isChord = true
        · left
          rw [if_pos hc] at hp
          refine ⟨?_, ⟨p, rfl, hmid.1, hmid.2.symm, hp, hc⟩, ?_, ?_⟩
          · unfold noteElem; simp only
            rw [← hstart, hf, hpc, hb1, hb2 hmid.1, a1, hmid.2, hmid.1, hc]; simp
          · rw [b3, a6, e3, hmid.2]
          · rw [b2, a5, e4, e1, hmid.2, hp]; ring
        · right
          rw [if_neg hc] at hp
          refine ⟨?_, ?_⟩
          · unfold noteElem; simp only; simp [hc]
          · rw [b2, a5, e4, e1, hmid.2, hp]; push_cast; ring
      · right
        have : ¬ (p.isChord = true ∧ (∃ m, some n = some m ∧ m.tick = p.tick)) := by
          rintro ⟨h1, m, h2, h3⟩; cases h2; exact hmid ⟨h1, h3⟩
        rw [if_neg this] at hb3
        refine ⟨?_, ?_⟩
        · unfold noteElem; simp only
          rw [← hstart, hf, hpc, hb1, a1]
          by_cases hpc2 : p.isChord = true
          · have hne : n.tick ≠ p.tick := fun h => hmid ⟨hpc2, h⟩
            rw [hb2 hpc2]
            have : (n.tick != p.tick) = true := by simpa using hne
            rw [this]; cases n.isChord <;> simp
          · have : p.isChord = false := by simpa using hpc2
            rw [this]; simp
        · rw [b2, a5, hb3.1]; field_simp; ring
  refine ⟨?_, ?_, ?_⟩
  · congr 2
    unfold expectedNote
    have hs : (runClock c0 st3.out).start (noteElem ctx st3.prevChord isStart n) = (n.tick : ℚ) / G := by
      unfold Clock.start
      rcases hchord with ⟨h1, _, h3, _⟩ | ⟨h1, h2⟩
      · rw [h1]; simpa using h3
      · rw [h1]; simpa using h2
    rw [hs]
    simp [noteElem]
  · right
    refine ⟨by simp only [hadvbuf, hbuf], ?_⟩
    rw [c2]
    unfold Clock.step
    simp only
    split <;> exact hdv
  · unfold Between
    simp only
    refine ⟨trivial, ?_, ?_⟩
    · intro h; rw [if_pos h, a1]
    · have hnn := hn.ticks_nonneg
      have hpos' : ((runClock c0 st3.out).step (.note (noteElem ctx st3.prevChord isStart n))).pos = ((n.tick : ℚ) + n.ticks) / G := by
        unfold Clock.step
        simp only
        rcases hchord with ⟨h1, _, _, h3⟩ | ⟨h1, h2⟩
        · rw [h1]; simpa using h3
        · rw [h1]; simp only [Bool.false_eq_true, if_false]; rw [h2, hlen]; ring
      have hons' : ((runClock c0 st3.out).step (.note (noteElem ctx st3.prevChord isStart n))).onset = (n.tick : ℚ) / G := by
        unfold Clock.step
        simp only
        rcases hchord with ⟨h1, _, h3, _⟩ | ⟨h1, h2⟩
        · rw [h1]; simpa using h3
        · rw [h1]; simp only [Bool.false_eq_true, if_false]; exact h2
      split
      · rename_i hcond
        obtain ⟨hc, m, hm, hmt⟩ := hcond
        refine ⟨?_, hn.1, hons', hpos'⟩
        unfold advanceCursorIfNeeded isAdvanceNeeded
        rw [if_pos hc, hm]
        simp only [hmt, bne_self_eq_false, Bool.false_eq_true, if_false]
        exact htick3
      · rename_i hcond
        have hadvt : (advanceCursorIfNeeded n next (addNote ctx isStart n st3)).tick = n.tick + n.ticks := by
          have hneed : isAdvanceNeeded n next = true := by
            unfold isAdvanceNeeded
            split
            · rename_i hc
              split
              · rfl
              · rename_i x
                have : x.tick ≠ n.tick := fun h => hcond ⟨hc, x, rfl, h⟩
                simpa using this
            · rfl
          unfold advanceCursorIfNeeded
          rw [if_pos hneed]
          unfold addNote
          simp only [htick3]
          have := hn.1
          omega
        simp only [hadvt]
        refine ⟨?_, by have := hn.1; omega⟩
        rw [hpos']; push_cast; ring

/-- All notes of a voice. -/
theorem clock_notes {G : Int} (hG : 0 < G) {c0 : Clock} (ctx : WCtx) : ∀ (ns : List (NoteData P)) (isFirst : Bool) (pct : Int)
    (prev : Option (NoteData P)) (st : WSt P), (∀ n ∈ ns, NoteOk n) → ns.IsChain PairOk → isFirst = prev.isNone →
    (∀ p n, prev = some p → ns.head? = some n → PairOk p n) → DivOk G c0 st →
    Between G prev pct ns.head? st (runClock c0 st.out) →
    let st' := writeNotes ctx isFirst pct prev ns st
    placedNotes c0 st'.out = placedNotes c0 st.out ++ ns.map (expectedNote G ctx.numStaves ctx.staffIndex ctx.voiceIndex) ∧
    DivOk G c0 st' ∧ ∃ prev' pct', Between G prev' pct' none st' (runClock c0 st'.out) := by
  intro ns
  induction ns with
  | nil =>
    intro isFirst pct prev st _ _ _ _ hd hb
    exact ⟨by simp [writeNotes], hd, prev, pct, hb⟩
  | cons n rest ih =>
    intro isFirst pct prev st hok hch hf hpair hd hb
    obtain ⟨h1, h2, h3⟩ := clock_note hG (c0 := c0) ctx isFirst pct prev n rest.head? st (hok n (by simp)) hf
      (fun p hp => hpair p n hp rfl) hd hb
    simp only at h1 h2 h3
    have hstep := ih false _ (some n) _ (fun m hm => hok m (by simp [hm])) (by
        cases rest with
        | nil => exact .nil
        | cons b t => exact (List.isChain_cons_cons.mp hch).2) (by rfl)
      (by
        intro p m hp hm
        cases hp
        cases rest with
        | nil => cases hm
        | cons b t => cases hm; exact (List.isChain_cons_cons.mp hch).1) h2 h3
    obtain ⟨g1, g2, g3⟩ := hstep
    refine ⟨?_, g2, g3⟩
    show placedNotes c0 (writeNotes _ _ _ _ _ _).out = _
    simp only [writeNotes]
    rw [g1, h1]
    simp

theorem between_end {G : Int} {prev : Option (NoteData P)} {pct : Int} {st : WSt P} {c : Clock} (h : Between G prev pct none st c) :
    c.pos = (st.tick : ℚ) / G ∧ 0 ≤ st.tick := by
  unfold Between at h
  cases prev with
  | none => exact h
  | some p => simpa using h.2.2

/-- Between voices: the clock is at the cursor. -/
def AtCursor (G : Int) (c0 : Clock) (st : WSt P) : Prop :=
  DivOk G c0 st ∧ (runClock c0 st.out).pos = (st.tick : ℚ) / G ∧ 0 ≤ st.tick

theorem atCursor_quiet {G : Int} (hG : 0 < G) {s : Int} {c0 : Clock} {st st' : WSt P} {xs ds} (h : Quiet s st st' xs ds)
    (ha : AtCursor G c0 st) : AtCursor G c0 st' ∧ placedNotes c0 st'.out = placedNotes c0 st.out := by
  obtain ⟨p1, p2, p3⟩ := placed_quiet (c0 := c0) h
  exact ⟨⟨divOk_quiet hG h ha.1, by rw [p2, h.tick]; exact ha.2.1, by rw [h.tick]; exact ha.2.2⟩, p1⟩

theorem clock_voice {G : Int} (hG : 0 < G) {c0 : Clock} (numStaves staffIndex : Int) (v : Int × List (NoteData P)) (st : WSt P)
    (hv : VoiceOk v.2) (ha : AtCursor G c0 st) :
    let st' := writeVoice numStaves staffIndex v st
    placedNotes c0 st'.out = placedNotes c0 st.out ++ v.2.map (expectedNote G numStaves staffIndex v.1) ∧ AtCursor G c0 st' := by
  simp only
  unfold writeVoice
  simp only
  generalize hctx : ({ numStaves := numStaves, staffIndex := staffIndex, voiceIndex := v.1 } : WCtx) = ctx
  obtain ⟨xs, ds, hq, _⟩ := quiet_writeDirections ctx none v.2.head? v.2.tail.head? st
  obtain ⟨ha1, hp1⟩ := atCursor_quiet hG hq ha
  obtain ⟨g1, g2, pr, pc, g3⟩ := clock_notes hG (c0 := c0) ctx v.2 true (-2) none _ hv.1 hv.2 rfl (by simp) ha1.1
    (show Between G none (-2) v.2.head? _ _ from ⟨ha1.2.1, ha1.2.2⟩)
  have hend := between_end g3
  have ha2 : AtCursor G c0 (writeNotes ctx true (-2) none v.2 (writeDirections ctx none v.2.head? v.2.tail.head? st)) :=
    ⟨g2, hend.1, hend.2⟩
  obtain ⟨xs', ds', hq', _⟩ := quiet_writeDirections ctx v.2.getLast? none none
    (writeNotes ctx true (-2) none v.2 (writeDirections ctx none v.2.head? v.2.tail.head? st))
  obtain ⟨ha3, hp3⟩ := atCursor_quiet hG hq' ha2
  refine ⟨?_, ha3⟩
  rw [hp3, g1, hp1, ← hctx]

theorem clock_voices {G : Int} (hG : 0 < G) {c0 : Clock} (numStaves staffIndex : Int) : ∀ (vs : List (Int × List (NoteData P))) (st : WSt P),
    (∀ v ∈ vs, VoiceOk v.2) → AtCursor G c0 st →
    let st' := vs.foldl (fun s v => writeVoice numStaves staffIndex v s) st
    placedNotes c0 st'.out = placedNotes c0 st.out ++ vs.flatMap (fun v => v.2.map (expectedNote G numStaves staffIndex v.1)) ∧
    AtCursor G c0 st' := by
  intro vs
  induction vs with
  | nil => intro st _ ha; exact ⟨by simp, ha⟩
  | cons v vs ih =>
    intro st hv ha
    obtain ⟨h1, h2⟩ := clock_voice hG (c0 := c0) numStaves staffIndex v st (hv v (by simp)) ha
    obtain ⟨g1, g2⟩ := ih _ (fun w hw => hv w (by simp [hw])) h2
    refine ⟨?_, g2⟩
    simp only [List.foldl_cons, List.flatMap_cons]
    rw [g1, h1, List.append_assoc]

theorem clock_staff {G : Int} (hG : 0 < G) {c0 : Clock} (numStaves staffIndex : Int) (s : StaffData P) (st : WSt P)
    (hv : ∀ v ∈ s.voices, VoiceOk v.2) (ha : AtCursor G c0 st) :
    let st' := writeVoices numStaves staffIndex s st
    placedNotes c0 st'.out = placedNotes c0 st.out ++ s.voices.flatMap (fun v => v.2.map (expectedNote G numStaves staffIndex v.1)) ∧
    AtCursor G c0 st' := by
  simp only
  unfold writeVoices
  simp only
  obtain ⟨g1, g2⟩ := clock_voices hG (c0 := c0) numStaves staffIndex s.voices
    { st with clefs := s.clefs.dropWhile (fun x => x.tick = 0), keys := s.keys, dirs := s.directions } hv ha
  generalize List.foldl _ _ s.voices = st2 at g1 g2
  obtain ⟨xs, ds, hq, _⟩ := quiet_writeDirections { numStaves := numStaves, staffIndex := staffIndex, voiceIndex := 0 } none none none st2
  obtain ⟨ha3, hp3⟩ := atCursor_quiet hG hq g2
  obtain ⟨ys, hq4⟩ := quiet_writeRemaining staffIndex
    (writeDirections { numStaves := numStaves, staffIndex := staffIndex, voiceIndex := 0 } none none none st2)
  obtain ⟨ha4, hp4⟩ := atCursor_quiet hG hq4 ha3
  exact ⟨by rw [hp4, hp3, g1], ha4⟩

theorem clock_staves {G : Int} (hG : 0 < G) {c0 : Clock} (numStaves : Int) : ∀ (ss : List (StaffData P)) (i : Int) (st : WSt P),
    (∀ s ∈ ss, ∀ v ∈ s.voices, VoiceOk v.2) → AtCursor G c0 st →
    let st' := writeStavesFrom numStaves i ss st
    placedNotes c0 st'.out = placedNotes c0 st.out ++ expectedFrom G numStaves i ss ∧ AtCursor G c0 st' := by
  intro ss
  induction ss with
  | nil => intro i st _ ha; exact ⟨by simp [writeStavesFrom, expectedFrom], ha⟩
  | cons s rest ih =>
    intro i st hv ha
    obtain ⟨h1, h2⟩ := clock_staff hG (c0 := c0) numStaves i s st (hv s (by simp)) ha
    obtain ⟨g1, g2⟩ := ih (i + 1) _ (fun w hw => hv w (by simp [hw])) h2
    refine ⟨?_, g2⟩
    simp only [writeStavesFrom, expectedFrom]
    rw [g1, h1, List.append_assoc]

theorem globalClefs_divisions (numStaves : Int) (ss : List (StaffData P)) : ∀ (i : Int) (a : Attributes P),
    (globalClefs numStaves i ss a).divisions = a.divisions := by
  induction ss with
  | nil => intro i a; rfl
  | cons s rest ih => intro i a; simp only [globalClefs]; rw [ih, foldl_writeClef_divisions]

theorem globals_divisions (env : WEnv) (m : MeasureData P) :
    (globals env m).divisions = if env.isFirstMeasureInPart then some (durMicro env.ticksPerQuarter) else none := by
  unfold globals
  simp only
  have : ∀ (l : List (KeyData P)) (a : Attributes P), (l.foldl (fun b k => writeKey k.staffIndex k b) a).divisions = a.divisions := by
    intro l
    induction l with
    | nil => intro a; rfl
    | cons x xs ih => intro a; simp only [List.foldl_cons]; rw [ih]; rfl
  rw [this, globalClefs_divisions]

theorem clock_measure {G : Int} (hG : 0 < G) (env : WEnv) (m : MeasureData P) (d : ℚ) (hg : env.ticksPerQuarter = G)
    (hd : env.isFirstMeasureInPart = false → d = G) (hv : ∀ s ∈ m.staves, ∀ v ∈ s.voices, VoiceOk v.2) :
    placedNotes (Clock.init d) (writeMeasure env m) = expectedFrom G env.numStaves 0 m.staves := by
  unfold writeMeasure
  simp only
  have hquiet0 : ∀ e ∈ ((m.barlines.takeWhile (fun b => b.tick ≤ 0)).map barlineElem ++
      List.replicate env.printElements (Elem.other : Elem P)), e.isQuiet = true := by
    intro e he
    rcases List.mem_append.mp he with h | h
    · obtain ⟨b, _, rfl⟩ := List.mem_map.mp h; rfl
    · rw [(List.mem_replicate.mp h).2]; rfl
  have hnodiv : ((m.barlines.takeWhile (fun b => b.tick ≤ 0)).map barlineElem ++
      List.replicate env.printElements (Elem.other : Elem P)).filterMap Elem.divisions? = [] := by
    rw [List.filterMap_eq_nil_iff]
    intro e he
    rcases List.mem_append.mp he with h | h
    · obtain ⟨b, _, rfl⟩ := List.mem_map.mp h; rfl
    · rw [(List.mem_replicate.mp h).2]; rfl
  obtain ⟨r1, r2, r3, _⟩ := runClock_quiet hquiet0 (Clock.init d)
  have ha : AtCursor G (Clock.init d)
      { tick := 0, prevChord := false, dirs := [], clefs := [], keys := [], mkeys := m.keys.dropWhile (fun k => k.tick = 0)
        buf := globals env m
        out := (m.barlines.takeWhile (fun b => b.tick ≤ 0)).map barlineElem ++ List.replicate env.printElements Elem.other } := by
    refine ⟨?_, ?_, by simp⟩
    · unfold DivOk
      simp only
      rw [globals_divisions, hg]
      cases hfm : env.isFirstMeasureInPart with
      | true => left; simp [durMicro, hG]
      | false =>
        right
        refine ⟨by simp, ?_⟩
        rw [r3 hnodiv, Clock.init, hd hfm]
    · simp only; rw [r1]; simp [Clock.init]
  obtain ⟨g1, g2⟩ := clock_staves hG env.numStaves m.staves 0 _ hv ha
  obtain ⟨xs, hq⟩ := quiet_flush 0 (writeStavesFrom env.numStaves 0 m.staves
      { tick := 0, prevChord := false, dirs := [], clefs := [], keys := [], mkeys := m.keys.dropWhile (fun k => k.tick = 0)
        buf := globals env m
        out := (m.barlines.takeWhile (fun b => b.tick ≤ 0)).map barlineElem ++ List.replicate env.printElements Elem.other })
  obtain ⟨ha5, hp5⟩ := atCursor_quiet hG hq g2
  rw [placedNotes_append, hp5, g1, placedNotes_quiet hquiet0, placedNotes_quiet]
  · simp
  · intro e he
    obtain ⟨b, _, rfl⟩ := List.mem_map.mp he; rfl

end Mx.Measure
