import Verif.Proofs.MeasureReaderClock
import Verif.Spec.DirectionTime

/-! The MusicXML clock and the directions: writing. -/
namespace Mx.Measure
open _root_.Spec

variable {P : Type}

theorem placedDirections_append (c : Clock) (xs ys : List (Elem P)) :
    placedDirections c (xs ++ ys) = placedDirections c xs ++ placedDirections (runClock c xs) ys := by
  induction xs generalizing c with
  | nil => rfl
  | cons e es ih => cases e <;> simp [placedDirections, ih, runClock, Clock.step]

theorem placedDirections_none {xs : List (Elem P)} (h : xs.filterMap Elem.direction? = []) (c : Clock) : placedDirections c xs = [] := by
  induction xs generalizing c with
  | nil => rfl
  | cons e es ih =>
    cases e <;> simp_all [placedDirections, Elem.direction?, List.filterMap_cons]

/-- the directions written so far, at their times, and those still to be written, where they are wanted -/
def total (G i : Int) (c0 : Clock) (st : WSt P) : List (ℚ × Int × P) :=
  placedDirections c0 st.out ++ st.dirs.map (expectedDirection G i)

theorem total_quiet {G i s : Int} {c0 : Clock} {st st' : WSt P} {xs} (h : Quiet s st st' xs []) : total G i c0 st' = total G i c0 st := by
  unfold total
  have h1 := h.dirsOut
  have h2 := h.dirs
  simp only [List.map_nil] at h1
  rw [h.out, placedDirections_append, placedDirections_none h1, h2]
  simp

/-- One direction. -/
theorem total_direction {G : Int} (hG : 0 < G) {c0 : Clock} (c : WCtx) (d : DirectionData P) {st : WSt P} (ha : AtCursor G c0 st) :
    placedDirections c0 (writeDirection c d st).out = placedDirections c0 st.out ++ [expectedDirection G c.staffIndex d] ∧ AtCursor G c0 (writeDirection c d st) := by
  obtain ⟨xs, hq⟩ := quiet_flush c.staffIndex st
  have hf := (atCursor_quiet hG hq ha).1
  have hdv : (runClock c0 (flush st).out).division = 1 / (G : ℚ) := by
    rcases hf.1 with h | h
    · rw [flush_buf_divisions] at h; cases h
    · exact h.2
  have h0 : placedDirections c0 (flush st).out = placedDirections c0 st.out := by
    have h1 := hq.dirsOut
    simp only [List.map_nil] at h1
    rw [hq.out, placedDirections_append, placedDirections_none h1]
    simp
  have hGq : (G : ℚ) ≠ 0 := by exact_mod_cast (by omega)
  unfold writeDirection
  simp only
  refine ⟨?_, ?_, ?_, hf.2.2⟩
  · rw [placedDirections_append, h0]
    congr 1
    simp only [placedDirections, expectedDirection, List.cons.injEq, Prod.mk.injEq, and_true]
    refine ⟨?_, ?_⟩
    · rw [hf.2.1, Clock.quarters, hdv]
      split
      · simp only [MICRO]
        push_cast
        field_simp
        ring
      · rename_i hne
        have : d.tick = (flush st).tick := by omega
        rw [this]; simp
    · unfold staffIndexOf
      split
      · simp
      · rename_i hc
        simp only [Bool.or_eq_true, bne_iff_ne, ne_eq, not_or, Decidable.not_not] at hc
        rw [hc.2]; rfl
  · right
    refine ⟨flush_buf_divisions st, ?_⟩
    simp only
    rw [runClock_append]
    exact hdv
  · simp only
    rw [runClock_append]
    exact hf.2.1

theorem total_foldl {G : Int} (hG : 0 < G) {c0 : Clock} (c : WCtx) : ∀ (ds : List (DirectionData P)) (st : WSt P), AtCursor G c0 st →
    placedDirections c0 (ds.foldl (fun s d => writeDirection c d s) st).out = placedDirections c0 st.out ++ ds.map (expectedDirection G c.staffIndex) := by
  intro ds
  induction ds with
  | nil => intro st _; simp
  | cons d ds ih =>
    intro st ha
    obtain ⟨h1, h2⟩ := total_direction hG c d ha
    simp only [List.foldl_cons, List.map_cons]
    rw [ih _ h2, h1]
    simp

theorem total_while {G : Int} (hG : 0 < G) {c0 : Clock} (c : WCtx) (p : Int → Bool) {st : WSt P} (ha : AtCursor G c0 st) :
    total G c.staffIndex c0 (writeDirectionsWhile c p st) = total G c.staffIndex c0 st := by
  unfold total writeDirectionsWhile
  simp only
  rw [total_foldl hG c _ st ha, List.append_assoc, ← List.map_append, List.takeWhile_append_dropWhile]

/-- Nothing is written if the first pending direction is not due. -/
theorem while_none (c : WCtx) (p : Int → Bool) {st : WSt P} (h : ∀ d ∈ st.dirs.head?, p d.tick = false) : writeDirectionsWhile c p st = st := by
  have h1 : st.dirs.takeWhile (fun d => p d.tick) = [] ∧ st.dirs.dropWhile (fun d => p d.tick) = st.dirs := by
    cases hd : st.dirs with
    | nil => exact ⟨rfl, rfl⟩
    | cons d ds =>
      have := h d (by simp [hd])
      simp [this]
  unfold writeDirectionsWhile
  simp only
  rw [h1.1, h1.2]
  rfl

theorem total_directions {G : Int} (hG : 0 < G) {c0 : Clock} (c : WCtx) (prev cur next : Option (NoteData P)) {st : WSt P} (ha : AtCursor G c0 st) :
    total G c.staffIndex c0 (writeDirections c prev cur next st) = total G c.staffIndex c0 st := by
  unfold writeDirections
  split
  · exact total_while hG c _ ha
  · simp only
    split
    · exact total_while hG c _ ha
    · split
      · rfl
      · exact total_while hG c _ ha

theorem dropWhile_head {α : Type} {p : α → Bool} : ∀ {l : List α} {x : α}, x ∈ (l.dropWhile p).head? → p x = false := by
  intro l
  induction l with
  | nil => intro x h; simp at h
  | cons a l ih =>
    intro x h
    rw [List.dropWhile_cons] at h
    split at h
    · exact ih h
    · simp at h; subst h; simpa using ‹¬ p a = true›

/-- What is known of the next pending direction between two notes of a voice. -/
def HeadOk (before : List (NoteData P)) (next : Option (NoteData P)) (ds : List (DirectionData P)) : Prop :=
  ∀ h ∈ ds.head?, ∀ p ∈ before.getLast?,
    (p.isChord = true → (∃ b, next = some b ∧ b.isChord = true ∧ b.tick = p.tick) → p.tick + p.ticks ≤ h.tick) ∧
    (next.isSome = true → (∀ q ∈ before, q.tick = p.tick) → p.tick < h.tick) ∧
    (p.isChord = false → (∃ q ∈ before, q.tick ≠ p.tick) → p.tick + p.ticks ≤ h.tick)

theorem dirs_writeDirections_sub (c : WCtx) (prev cur next : Option (NoteData P)) (st : WSt P) :
    (writeDirections c prev cur next st).dirs ⊆ st.dirs := by
  obtain ⟨xs, ds, h, _⟩ := quiet_writeDirections c prev cur next st
  rw [h.dirs]
  exact List.subset_append_right _ _

/-- The pending directions after those of a note have been written. -/
theorem headOk_note {all : List (DirectionData P)} {c : WCtx} {before rest : List (NoteData P)} {n : NoteData P} {st : WSt P} (hn : NoteOk n) (htick : st.tick = n.tick)
    (hcl : ChordsClear all (before ++ n :: rest)) (hsub : st.dirs ⊆ all) (hpair : ∀ p, before.getLast? = some p → PairOk p n ∧ 0 ≤ p.ticks)
    (hh : HeadOk before (some n) st.dirs) :
    HeadOk (before ++ [n]) rest.head? (writeDirections c before.getLast? (some n) rest.head? st).dirs := by
  have hnn := hn.ticks_nonneg
  have hn0 := hn.1
  intro h hhead p hp
  rw [List.getLast?_concat] at hp
  simp only [Option.mem_def, Option.some.injEq] at hp
  subst hp
  have hsub' : h ∈ all := hsub (dirs_writeDirections_sub c _ _ _ st (List.mem_of_mem_head? hhead))
  have clear : ∀ b, rest.head? = some b → n.isChord = true → b.isChord = true → b.tick = n.tick →
      (∀ p ∈ before.getLast?, p.tick = n.tick ∧ p.isChord = false) → h.tick < n.tick + n.ticks →
      if ∀ p ∈ before, p.tick = n.tick then h.tick ≤ n.tick else h.tick < n.tick := by
    intro b hb h1 h2 h3 h4 h5
    obtain ⟨after, rfl⟩ : ∃ after, rest = b :: after := by
      cases rest with
      | nil => cases hb
      | cons x xs => cases hb; exact ⟨xs, rfl⟩
    exact hcl before n b after rfl h1 h2 h3 h4 h hsub' h5
  cases hprev : before.getLast? with
  | none =>
    have hbe : before = [] := List.getLast?_eq_none_iff.mp hprev
    subst hbe
    rw [hprev] at hhead
    cases hnext : rest.head? with
    | none => 
      refine ⟨?_, ?_, ?_⟩
      · rintro _ ⟨b, hb, _⟩; cases hb
      · intro hf; cases hf
      · rintro _ ⟨q, hq, hne⟩; simp at hq; subst hq; exact absurd rfl hne
    | some b =>
      rw [hnext] at hhead
      have hgt : n.tick < h.tick := by
        simp only [writeDirections, Option.isNone_some, Bool.not_false, Option.isNone_none, Bool.and_self, if_true, writeDirectionsWhile] at hhead
        have := dropWhile_head hhead
        simp only [decide_eq_false_iff_not, not_le] at this
        omega
      refine ⟨?_, fun _ _ => hgt, fun _ ⟨q, hq, hne⟩ => by simp at hq; subst hq; exact absurd rfl hne⟩
      rintro hc ⟨b', hb', h2, h3⟩
      cases hb'
      by_contra hlt
      have := clear b hnext hc h2 h3 (by simp) (by omega)
      simp at this
      omega
  | some p =>
    have hpm : p ∈ before := List.mem_of_getLast? hprev
    rw [hprev] at hhead
    simp only [writeDirections, Option.isNone_some, Bool.and_false, Bool.false_eq_true, if_false] at hhead
    split at hhead
    · rename_i hskip
      simp only [Bool.and_eq_true, Bool.not_eq_true', isTickTimeSameAsPreviousNote, beq_iff_eq] at hskip
      obtain ⟨⟨hc, _⟩, hsame⟩ := hskip
      obtain ⟨oA, oB, oC⟩ := hh h hhead p hprev
      refine ⟨?_, ?_, ?_⟩
      · rintro _ ⟨b, hb, h2, h3⟩
        by_cases hpc : p.isChord = true
        · have := (hpair p hprev).1 hpc hsame
          rw [if_pos hc] at this
          have := oA hpc ⟨n, rfl, hc, hsame⟩
          omega
        · have hpc : p.isChord = false := by simpa using hpc
          by_contra hlt
          have := clear b hb hc h2 h3 (by
            intro q hq
            rw [hprev] at hq
            cases hq
            exact ⟨hsame.symm, hpc⟩) (by omega)
          split at this
          · rename_i hall
            have := oB rfl (fun q hq => by rw [hall q hq, hsame])
            omega
          · rename_i hall
            push Not at hall
            obtain ⟨q, hq, hne⟩ := hall
            have := oC hpc ⟨q, hq, by rw [← hsame]; exact hne⟩
            have := (hpair p hprev).2
            omega
      · intro _ hall
        have := oB rfl (fun q hq => by rw [hall q (by simp [hq]), hsame])
        omega
      · intro hf
        rw [hc] at hf; cases hf
    · have hge : n.tick + n.ticks ≤ h.tick := by
        have hhead' := hhead
        simp only [writeDirectionsWhile] at hhead'
        have := dropWhile_head hhead'
        simp only [decide_eq_false_iff_not, not_lt] at this
        omega
      refine ⟨fun _ _ => hge, ?_, fun _ _ => hge⟩
      intro _ hall
      have hpn : p.tick = n.tick := hall p (by simp [hpm])
      by_cases hz : n.ticks = 0
      · rw [while_none] at hhead
        · have := (hh h hhead p hprev).2.1 rfl (fun q hq => by rw [hall q (by simp [hq]), hpn])
          omega
        · intro d hd
          have := (hh d hd p hprev).2.1 rfl (fun q hq => by rw [hall q (by simp [hq]), hpn])
          simp only [decide_eq_false_iff_not, not_lt]
          omega
      · omega

theorem total_forwardOrBackup {G i : Int} {c0 : Clock} (n : NoteData P) (st : WSt P) :
    total G i c0 (writeForwardOrBackupIfNeeded n st) = total G i c0 st ∧ (writeForwardOrBackupIfNeeded n st).dirs = st.dirs := by
  obtain ⟨xs, hq⟩ := quiet_flush i st
  have h0 : total G i c0 (flush st) = total G i c0 st := total_quiet hq
  have hd : (flush st).dirs = st.dirs := by have := hq.dirs; simpa using this.symm
  have hout : ∀ (st' : WSt P) (e : Elem P), st'.out = (flush st).out ++ [e] → e.direction? = none → st'.dirs = (flush st).dirs → total G i c0 st' = total G i c0 st := by
    intro st' e h1 h2 h3
    rw [← h0]
    unfold total
    rw [h1, h3, placedDirections_append, placedDirections_none (xs := [e]) (by simp [List.filterMap_cons, h2])]
    simp
  unfold writeForwardOrBackupIfNeeded
  simp only
  have hb : ∀ k, total G i c0 (backup k (flush st)) = total G i c0 st ∧ (backup k (flush st)).dirs = st.dirs := by
    intro k
    unfold backup
    simp only
    generalize (if (flush st).tick - k < 0 then k + ((flush st).tick - k) else k) = a
    split
    · exact ⟨h0, hd⟩
    · exact ⟨hout _ _ rfl rfl rfl, hd⟩
  split
  · exact ⟨h0, hd⟩
  · split
    · exact hb _
    · split
      · exact ⟨hout _ _ rfl rfl rfl, hd⟩
      · exact ⟨h0, hd⟩

/-- Before the directions of a note are written, the clock is at the note, or the note belongs to the chord of the note before. -/
theorem atCursor_or_chord {G : Int} (hG : 0 < G) {c0 : Clock} (ctx : WCtx) (pct : Int) (prev : Option (NoteData P))
    (n : NoteData P) (st : WSt P) (hn : NoteOk n) (hpair : ∀ p, prev = some p → PairOk p n) (hd : DivOk G c0 st)
    (hb : Between G prev pct (some n) st (runClock c0 st.out)) :
    let st2 := writeKeysAndClefs ctx (writeForwardOrBackupIfNeeded n st)
    st2.tick = n.tick ∧ (AtCursor G c0 st2 ∨ ∃ p, prev = some p ∧ p.isChord = true ∧ n.isChord = true ∧ n.tick = p.tick ∧ n.ticks = p.ticks) := by
  obtain ⟨a1, a2, a3, a4, a5, a6, a7⟩ := clock_forwardOrBackup hG (c0 := c0) hn.1 hd
  simp only
  generalize hst1 : writeForwardOrBackupIfNeeded n st = st1 at a1 a2 a3 a4 a5 a6 a7
  obtain ⟨xs, hq⟩ := quiet_writeKeysAndClefs ctx st1
  have hGq : (G : ℚ) ≠ 0 := by exact_mod_cast (by omega)
  refine ⟨by rw [hq.tick, a1], ?_⟩
  have at1 : (runClock c0 st1.out).pos = (n.tick : ℚ) / G → AtCursor G c0 (writeKeysAndClefs ctx st1) := by
    intro hp
    exact (atCursor_quiet hG hq ⟨.inr ⟨by rw [a3], a7⟩, by rw [hp, a1], by rw [a1]; exact hn.1⟩).1
  cases hprev : prev with
  | none =>
    left
    apply at1
    rw [hprev] at hb
    rw [a5, hb.1]; field_simp; ring
  | some p =>
    rw [hprev] at hb
    obtain ⟨hb1, hb2, hb3⟩ := hb
    by_cases hmid : p.isChord = true ∧ n.tick = p.tick
    · have : p.isChord = true ∧ (∃ m, some n = some m ∧ m.tick = p.tick) := ⟨hmid.1, n, rfl, hmid.2⟩
      rw [if_pos this] at hb3
      obtain ⟨e1, e2, e3, e4⟩ := hb3
      have hp := hpair p hprev hmid.1 hmid.2
      by_cases hc : n.isChord = true
      · right
        rw [if_pos hc] at hp
        exact ⟨p, rfl, hmid.1, hc, hmid.2, hp⟩
      · left
        apply at1
        rw [if_neg hc] at hp
        rw [a5, e4, e1, hmid.2, hp]; push_cast; ring
    · left
      apply at1
      have : ¬ (p.isChord = true ∧ (∃ m, some n = some m ∧ m.tick = p.tick)) := by
        rintro ⟨h1, m, h2, h3⟩; cases h2; exact hmid ⟨h1, h3⟩
      rw [if_neg this] at hb3
      rw [a5, hb3.1]; field_simp; ring

/-- One note. -/
theorem dirs_note {G : Int} (hG : 0 < G) {c0 : Clock} (ctx : WCtx) (isStart : Bool) (pct : Int) {all : List (DirectionData P)} (before : List (NoteData P))
    (n : NoteData P) (rest : List (NoteData P)) (st : WSt P) (hn : NoteOk n) (hpair : ∀ p, before.getLast? = some p → PairOk p n ∧ 0 ≤ p.ticks) (hd : DivOk G c0 st)
    (hb : Between G before.getLast? pct (some n) st (runClock c0 st.out)) (hcl : ChordsClear all (before ++ n :: rest)) (hsub : st.dirs ⊆ all) (hh : HeadOk before (some n) st.dirs) :
    let st3 := writeDirections ctx before.getLast? (some n) rest.head? (writeKeysAndClefs ctx (writeForwardOrBackupIfNeeded n st))
    let st5 := { advanceCursorIfNeeded n rest.head? (addNote ctx isStart n st3) with prevChord := n.isChord }
    total G ctx.staffIndex c0 st5 = total G ctx.staffIndex c0 st ∧ st5.dirs ⊆ all ∧ HeadOk (before ++ [n]) rest.head? st5.dirs := by
  obtain ⟨h1, h2⟩ := atCursor_or_chord hG (c0 := c0) ctx pct before.getLast? n st hn (fun p hp => (hpair p hp).1) hd hb
  obtain ⟨t1, d1⟩ := total_forwardOrBackup (G := G) (i := ctx.staffIndex) (c0 := c0) n st
  simp only
  generalize writeForwardOrBackupIfNeeded n st = st1 at h1 h2 t1 d1
  obtain ⟨xs, hq⟩ := quiet_writeKeysAndClefs ctx st1
  have t2 : total G ctx.staffIndex c0 (writeKeysAndClefs ctx st1) = total G ctx.staffIndex c0 st := by rw [total_quiet hq, t1]
  have d2 : (writeKeysAndClefs ctx st1).dirs = st.dirs := by have := hq.dirs; rw [← d1]; simpa using this.symm
  generalize writeKeysAndClefs ctx st1 = st2 at h1 h2 t2 d2
  have hhead := headOk_note (c := ctx) hn h1 hcl (by rw [d2]; exact hsub) hpair (by rw [d2]; exact hh)
  have hs3 := dirs_writeDirections_sub ctx before.getLast? (some n) rest.head? st2
  have t3 : total G ctx.staffIndex c0 (writeDirections ctx before.getLast? (some n) rest.head? st2) = total G ctx.staffIndex c0 st := by
    rcases h2 with h2 | ⟨p, hp, hpc, hnc, htick, hticks⟩
    · rw [total_directions hG ctx _ _ _ h2, t2]
    · rw [← t2]
      congr 1
      rw [hp]
      simp only [writeDirections, Option.isNone_some, Bool.and_false, Bool.false_eq_true, if_false]
      split
      · rfl
      · apply while_none
        intro d hd'
        rw [d2] at hd'
        have := (hh d hd' p hp).1 hpc ⟨n, rfl, hnc, htick⟩
        simp only [decide_eq_false_iff_not, not_lt]
        have := hn.ticks_nonneg
        omega
  have hadv : (advanceCursorIfNeeded n rest.head? (addNote ctx isStart n (writeDirections ctx before.getLast? (some n) rest.head? st2))).out =
      (addNote ctx isStart n (writeDirections ctx before.getLast? (some n) rest.head? st2)).out := by
    unfold advanceCursorIfNeeded; split <;> rfl
  have hadvd : (advanceCursorIfNeeded n rest.head? (addNote ctx isStart n (writeDirections ctx before.getLast? (some n) rest.head? st2))).dirs =
      (writeDirections ctx before.getLast? (some n) rest.head? st2).dirs := by
    unfold advanceCursorIfNeeded; split <;> rfl
  refine ⟨?_, ?_, ?_⟩
  · rw [← t3]
    unfold total
    simp only [hadv, hadvd]
    unfold addNote
    simp only
    rw [placedDirections_append]
    simp [placedDirections]
  · simp only [hadvd]
    exact List.Subset.trans (List.Subset.trans hs3 (by rw [d2]; exact List.Subset.refl _)) hsub
  · simp only [hadvd]
    exact hhead

/-- All notes of a voice. -/
theorem dirs_notes {G : Int} (hG : 0 < G) {c0 : Clock} (ctx : WCtx) {all : List (DirectionData P)} : ∀ (ns before : List (NoteData P)) (isFirst : Bool) (pct : Int)
    (st : WSt P), (∀ n ∈ before ++ ns, NoteOk n) → ns.IsChain PairOk → isFirst = before.getLast?.isNone →
    (∀ p n, before.getLast? = some p → ns.head? = some n → PairOk p n) → DivOk G c0 st →
    Between G before.getLast? pct ns.head? st (runClock c0 st.out) → ChordsClear all (before ++ ns) → st.dirs ⊆ all → HeadOk before ns.head? st.dirs →
    total G ctx.staffIndex c0 (writeNotes ctx isFirst pct before.getLast? ns st) = total G ctx.staffIndex c0 st ∧
    (writeNotes ctx isFirst pct before.getLast? ns st).dirs ⊆ all := by
  intro ns
  induction ns with
  | nil => intro before isFirst pct st _ _ _ _ _ _ _ hsub _; exact ⟨rfl, hsub⟩
  | cons n rest ih =>
    intro before isFirst pct st hok hch hf hpair hd hb hcl hsub hh
    obtain ⟨h1, h2, h3⟩ := clock_note hG (c0 := c0) ctx isFirst pct before.getLast? n rest.head? st (hok n (by simp)) hf
      (fun p hp => hpair p n hp rfl) hd hb
    obtain ⟨g1, g2, g3⟩ := dirs_note hG (c0 := c0) ctx (n.isChord && (isFirst || (writeForwardOrBackupIfNeeded n st).tick != pct)) pct (all := all) before n rest st (hok n (by simp))
      (fun p hp => ⟨hpair p n hp rfl, (hok p (by simp [List.mem_of_getLast? hp])).ticks_nonneg⟩) hd hb hcl hsub hh
    simp only at h1 h2 h3 g1 g2 g3
    have hstep := ih (before ++ [n]) false _ _ (by simpa using hok) (by
        cases rest with
        | nil => exact .nil
        | cons b t => exact (List.isChain_cons_cons.mp hch).2) (by simp)
      (by
        intro p m hp hm
        simp at hp
        subst hp
        cases rest with
        | nil => cases hm
        | cons b t => cases hm; exact (List.isChain_cons_cons.mp hch).1) h2 (by rw [List.getLast?_concat]; exact h3) (by simpa using hcl) g2 g3
    rw [List.getLast?_concat] at hstep
    simp only [writeNotes]
    exact ⟨by rw [hstep.1, g1], hstep.2⟩

theorem dirs_voice {G : Int} (hG : 0 < G) {c0 : Clock} (numStaves staffIndex : Int) {all : List (DirectionData P)} (v : Int × List (NoteData P)) (st : WSt P)
    (hv : VoiceOk v.2) (hcl : ChordsClear all v.2) (hsub : st.dirs ⊆ all) (ha : AtCursor G c0 st) :
    let st' := writeVoice numStaves staffIndex v st
    total G staffIndex c0 st' = total G staffIndex c0 st ∧ st'.dirs ⊆ all := by
  simp only
  unfold writeVoice
  simp only
  generalize hctx : ({ numStaves := numStaves, staffIndex := staffIndex, voiceIndex := v.1 } : WCtx) = ctx
  have hs : staffIndex = ctx.staffIndex := by rw [← hctx]
  rw [hs]
  obtain ⟨xs, ds, hq, _⟩ := quiet_writeDirections ctx none v.2.head? v.2.tail.head? st
  obtain ⟨ha1, _⟩ := atCursor_quiet hG hq ha
  have t1 := total_directions hG ctx none v.2.head? v.2.tail.head? ha
  have s1 := List.Subset.trans (dirs_writeDirections_sub ctx none v.2.head? v.2.tail.head? st) hsub
  obtain ⟨_, g2, pr, pc, g3⟩ := clock_notes hG (c0 := c0) ctx v.2 true (-2) none _ hv.1 hv.2 rfl (by simp) ha1.1
    (show Between G none (-2) v.2.head? _ _ from ⟨ha1.2.1, ha1.2.2⟩)
  have hend := between_end g3
  obtain ⟨t2, s2⟩ := dirs_notes hG (c0 := c0) ctx (all := all) v.2 [] true (-2) _ (by simpa using hv.1) hv.2 rfl (by simp) ha1.1
    (show Between G none (-2) v.2.head? _ _ from ⟨ha1.2.1, ha1.2.2⟩) (by simpa using hcl) s1 (by intro h _ p hp; simp at hp)
  simp only [List.getLast?_nil] at t2 s2
  have ha2 : AtCursor G c0 (writeNotes ctx true (-2) none v.2 (writeDirections ctx none v.2.head? v.2.tail.head? st)) :=
    ⟨g2, hend.1, hend.2⟩
  refine ⟨?_, List.Subset.trans (dirs_writeDirections_sub _ _ _ _ _) s2⟩
  rw [total_directions hG ctx _ _ _ ha2, t2, t1]

theorem dirs_voices {G : Int} (hG : 0 < G) {c0 : Clock} (numStaves staffIndex : Int) {all : List (DirectionData P)} : ∀ (vs : List (Int × List (NoteData P))) (st : WSt P),
    (∀ v ∈ vs, VoiceOk v.2) → (∀ v ∈ vs, ChordsClear all v.2) → st.dirs ⊆ all → AtCursor G c0 st →
    total G staffIndex c0 (vs.foldl (fun s v => writeVoice numStaves staffIndex v s) st) = total G staffIndex c0 st := by
  intro vs
  induction vs with
  | nil => intros; rfl
  | cons v vs ih =>
    intro st hv hcl hsub ha
    obtain ⟨_, h2⟩ := clock_voice hG (c0 := c0) numStaves staffIndex v st (hv v (by simp)) ha
    obtain ⟨g1, g2⟩ := dirs_voice hG (c0 := c0) numStaves staffIndex v st (hv v (by simp)) (hcl v (by simp)) hsub ha
    simp only [List.foldl_cons]
    rw [ih _ (fun w hw => hv w (by simp [hw])) (fun w hw => hcl w (by simp [hw])) g2 h2, g1]

theorem dirs_staff {G : Int} (hG : 0 < G) {c0 : Clock} (numStaves staffIndex : Int) (s : StaffData P) (st : WSt P)
    (hv : ∀ v ∈ s.voices, VoiceOk v.2) (hcl : ∀ v ∈ s.voices, ChordsClear s.directions v.2) (ha : AtCursor G c0 st) :
    placedDirections c0 (writeVoices numStaves staffIndex s st).out = placedDirections c0 st.out ++ s.directions.map (expectedDirection G staffIndex) := by
  unfold writeVoices
  simp only
  obtain ⟨_, g2⟩ := clock_voices hG (c0 := c0) numStaves staffIndex s.voices
    { st with clefs := s.clefs.dropWhile (fun x => x.tick = 0), keys := s.keys, dirs := s.directions } hv ha
  have t1 := dirs_voices hG (c0 := c0) numStaves staffIndex (all := s.directions) s.voices
    { st with clefs := s.clefs.dropWhile (fun x => x.tick = 0), keys := s.keys, dirs := s.directions } hv hcl (List.Subset.refl _) ha
  generalize List.foldl _ _ s.voices = st2 at g2 t1
  have t2 := total_directions hG { numStaves := numStaves, staffIndex := staffIndex, voiceIndex := 0 } none none none g2
  have hnil : (writeDirections { numStaves := numStaves, staffIndex := staffIndex, voiceIndex := 0 } none none none st2).dirs = [] := by
    simp only [writeDirections, writeDirectionsWhile]
    induction st2.dirs with
    | nil => rfl
    | cons d ds ih => simpa using ih
  obtain ⟨ys, hq4⟩ := quiet_writeRemaining staffIndex
    (writeDirections { numStaves := numStaves, staffIndex := staffIndex, voiceIndex := 0 } none none none st2)
  have t3 : total G staffIndex c0 _ = _ := total_quiet (c0 := c0) hq4
  have hnil' : (writeRemaining staffIndex (writeDirections { numStaves := numStaves, staffIndex := staffIndex, voiceIndex := 0 } none none none st2)).dirs = [] := by
    have := hq4.dirs
    rw [hnil] at this
    simpa using this.symm
  have := t3.trans (t2.trans t1)
  unfold total at this
  rw [hnil'] at this
  simpa using this

theorem dirs_staves {G : Int} (hG : 0 < G) {c0 : Clock} (numStaves : Int) : ∀ (ss : List (StaffData P)) (i : Int) (st : WSt P),
    (∀ s ∈ ss, ∀ v ∈ s.voices, VoiceOk v.2) → (∀ s ∈ ss, ∀ v ∈ s.voices, ChordsClear s.directions v.2) → AtCursor G c0 st →
    placedDirections c0 (writeStavesFrom numStaves i ss st).out = placedDirections c0 st.out ++ expectedDirectionsFrom G i ss := by
  intro ss
  induction ss with
  | nil => intro i st _ _ _; simp [writeStavesFrom, expectedDirectionsFrom]
  | cons s rest ih =>
    intro i st hv hcl ha
    obtain ⟨_, h2⟩ := clock_staff hG (c0 := c0) numStaves i s st (hv s (by simp)) ha
    have h1 := dirs_staff hG (c0 := c0) numStaves i s st (hv s (by simp)) (hcl s (by simp)) ha
    simp only [writeStavesFrom, expectedDirectionsFrom]
    rw [ih (i + 1) _ (fun w hw => hv w (by simp [hw])) (fun w hw => hcl w (by simp [hw])) h2, h1, List.append_assoc]

theorem dirs_measure {G : Int} (hG : 0 < G) (env : WEnv) (m : MeasureData P) (d : ℚ) (hg : env.ticksPerQuarter = G)
    (hd : env.isFirstMeasureInPart = false → d = G) (hv : MeasureOk m) (hcl : DirectionsClear m) :
    placedDirections (Clock.init d) (writeMeasure env m) = expectedDirections G m := by
  unfold writeMeasure
  simp only
  have hquiet0 : ∀ e ∈ ((m.barlines.takeWhile (fun b => b.tick ≤ 0)).map barlineElem ++
      List.replicate env.printElements (Elem.other : Elem P)), e.isQuiet = true := by
    intro e he
    rcases List.mem_append.mp he with h | h
    · obtain ⟨b, _, rfl⟩ := List.mem_map.mp h; rfl
    · rw [(List.mem_replicate.mp h).2]; rfl
  have hnodiv : ((m.barlines.takeWhile (fun b => b.tick ≤ 0)).map barlineElem ++
      List.replicate env.printElements (Elem.other : Elem P)).filterMap Elem.divisions? = [] := by
    rw [List.filterMap_eq_nil_iff]
    intro e he
    rcases List.mem_append.mp he with h | h
    · obtain ⟨b, _, rfl⟩ := List.mem_map.mp h; rfl
    · rw [(List.mem_replicate.mp h).2]; rfl
  have hnodir : ((m.barlines.takeWhile (fun b => b.tick ≤ 0)).map barlineElem ++
      List.replicate env.printElements (Elem.other : Elem P)).filterMap Elem.direction? = [] := by
    rw [List.filterMap_eq_nil_iff]
    intro e he
    rcases List.mem_append.mp he with h | h
    · obtain ⟨b, _, rfl⟩ := List.mem_map.mp h; rfl
    · rw [(List.mem_replicate.mp h).2]; rfl
  obtain ⟨r1, r2, r3, _⟩ := runClock_quiet hquiet0 (Clock.init d)
  have ha : AtCursor G (Clock.init d)
      { tick := 0, prevChord := false, dirs := [], clefs := [], keys := [], mkeys := m.keys.dropWhile (fun k => k.tick = 0)
        buf := globals env m
        out := (m.barlines.takeWhile (fun b => b.tick ≤ 0)).map barlineElem ++ List.replicate env.printElements Elem.other } := by
    refine ⟨?_, ?_, by simp⟩
    · unfold DivOk
      simp only
      rw [globals_divisions, hg]
      cases hfm : env.isFirstMeasureInPart with
      | true => left; simp [durMicro, hG]
      | false =>
        right
        refine ⟨by simp, ?_⟩
        rw [r3 hnodiv, Clock.init, hd hfm]
    · simp only; rw [r1]; simp [Clock.init]
  have g1 := dirs_staves hG env.numStaves m.staves 0 _ hv hcl ha
  obtain ⟨xs, hq⟩ := quiet_flush 0 (writeStavesFrom env.numStaves 0 m.staves
      { tick := 0, prevChord := false, dirs := [], clefs := [], keys := [], mkeys := m.keys.dropWhile (fun k => k.tick = 0)
        buf := globals env m
        out := (m.barlines.takeWhile (fun b => b.tick ≤ 0)).map barlineElem ++ List.replicate env.printElements Elem.other })
  have h1 := hq.dirsOut
  simp only [List.map_nil] at h1
  rw [placedDirections_append, hq.out, placedDirections_append, placedDirections_none h1, g1, placedDirections_none hnodir, placedDirections_none]
  · simp [expectedDirections]
  · rw [List.filterMap_eq_nil_iff]
    intro e he
    obtain ⟨b, _, rfl⟩ := List.mem_map.mp he; rfl

end Mx.Measure
