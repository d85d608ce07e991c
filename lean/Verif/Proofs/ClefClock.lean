import Verif.Proofs.DirectionClock
import Verif.Proofs.MeasureComplete
import Verif.Spec.ClefTime

/-! The MusicXML clock and the clefs: writing. -/
namespace Mx.Measure
open _root_.Spec

variable {P : Type}

/-- a clef element at a time -/
def clefAt (t : ℚ) (x : ClefElem P) : ℚ × Int × P := (t, staffIndexOf x.number, x.content)

theorem placedClefs_append (c : Clock) (xs ys : List (Elem P)) :
    placedClefs c (xs ++ ys) = placedClefs c xs ++ placedClefs (runClock c xs) ys := by
  induction xs generalizing c with
  | nil => rfl
  | cons e es ih => cases e <;> simp [placedClefs, ih, runClock]

theorem placedClefs_none {xs : List (Elem P)} (h : xs.flatMap Elem.clefElems = []) (c : Clock) : placedClefs c xs = [] := by
  induction xs generalizing c with
  | nil => rfl
  | cons e es ih => cases e <;> simp_all [placedClefs, Elem.clefElems]

theorem placedClefs_quiet {xs : List (Elem P)} (h : ∀ e ∈ xs, e.isQuiet = true) (c : Clock) :
    placedClefs c xs = (xs.flatMap Elem.clefElems).map (clefAt c.pos) := by
  induction xs generalizing c with
  | nil => rfl
  | cons e es ih =>
    have ih := ih (fun x hx => h x (by simp [hx]))
    have he := h e (by simp)
    have hp : (c.step e).pos = c.pos := (runClock_quiet (xs := [e]) (by simpa using he) c).1
    cases e <;> simp_all [placedClefs, Elem.clefElems, Elem.isQuiet, clefAt]

/-- the clefs written so far, at their times; those in the buffer will be written where the clock is -/
def placedC (c0 : Clock) (st : WSt P) : List (ℚ × Int × P) :=
  placedClefs c0 st.out ++ st.buf.clefs.map (clefAt (runClock c0 st.out).pos)

theorem placedC_quiet {s : Int} {c0 : Clock} {st st' : WSt P} {xs ds} (h : Quiet s st st' xs ds) (hc : st'.clefs = st.clefs) : placedC c0 st' = placedC c0 st := by
  have h1 := h.clefs
  rw [hc, ← List.append_assoc] at h1
  have h2 := List.append_cancel_right h1
  obtain ⟨_, hp, _⟩ := placed_quiet (c0 := c0) h
  unfold placedC
  rw [hp, h.out, placedClefs_append, placedClefs_quiet h.quiet, List.append_assoc, ← List.map_append, h2]

theorem clefs_flush (st : WSt P) : (flush st).clefs = st.clefs := by unfold flush; split <;> rfl

theorem clefs_while (c : WCtx) (p : Int → Bool) (st : WSt P) : (writeDirectionsWhile c p st).clefs = st.clefs := by
  obtain ⟨xs, h1, h2, h3, h4, h5, h6, h7, h8, h9, h10⟩ := quiet_dirs_aux c (st.dirs.takeWhile (fun d => p d.tick)) st
  exact h9.2

theorem clefs_writeDirections (c : WCtx) (prev cur next : Option (NoteData P)) (st : WSt P) : (writeDirections c prev cur next st).clefs = st.clefs := by
  unfold writeDirections
  split
  · exact clefs_while _ _ _
  · simp only
    split
    · exact clefs_while _ _ _
    · split
      · rfl
      · exact clefs_while _ _ _

theorem placedC_directions {c0 : Clock} (c : WCtx) (prev cur next : Option (NoteData P)) (st : WSt P) :
    placedC c0 (writeDirections c prev cur next st) = placedC c0 st := by
  obtain ⟨xs, ds, h, _⟩ := quiet_writeDirections c prev cur next st
  exact placedC_quiet h (clefs_writeDirections c prev cur next st)

theorem placedC_flush {c0 : Clock} (st : WSt P) : placedC c0 (flush st) = placedC c0 st := by
  obtain ⟨xs, h⟩ := quiet_flush 0 st
  exact placedC_quiet h (clefs_flush st)

theorem placedC_forwardOrBackup {c0 : Clock} (n : NoteData P) (st : WSt P) :
    placedC c0 (writeForwardOrBackupIfNeeded n st) = placedC c0 st ∧ (writeForwardOrBackupIfNeeded n st).clefs = st.clefs ∧ (writeForwardOrBackupIfNeeded n st).buf.clefs = [] := by
  have h0 := placedC_flush (c0 := c0) st
  have hc := clefs_flush st
  have hb : (flush st).buf.clefs = [] := by rw [flush_buf]
  have hout : ∀ (st' : WSt P) (e : Elem P), st'.out = (flush st).out ++ [e] → e.clefElems = [] → st'.clefs = (flush st).clefs → st'.buf = (flush st).buf →
      placedC c0 st' = placedC c0 st ∧ st'.clefs = st.clefs ∧ st'.buf.clefs = [] := by
    intro st' e h1 h2 h3 h4
    refine ⟨?_, by rw [h3, hc], by rw [h4, hb]⟩
    rw [← h0]
    unfold placedC
    rw [h1, h4, hb, placedClefs_append, placedClefs_none (xs := [e]) (by simp [h2])]
    simp
  unfold writeForwardOrBackupIfNeeded
  simp only
  split
  · exact ⟨h0, hc, hb⟩
  · split
    · unfold backup
      simp only
      generalize (if (flush st).tick - _ < 0 then _ else _ : Int) = a
      split
      · exact ⟨h0, hc, hb⟩
      · exact hout _ _ rfl rfl rfl rfl
    · split
      · exact hout _ _ rfl rfl rfl rfl
      · exact ⟨h0, hc, hb⟩

theorem clefAt_out {i : Int} (hi : 0 ≤ i) (t : ℚ) (x : Timed P) : clefAt t (clefOut i x) = (t, i, x.content) := by
  unfold clefAt clefOut staffIndexOf
  rw [if_pos hi]
  simp

/-- The clefs before a note: those that are due are placed where the clock is. -/
theorem placedC_keysAndClefs {c0 : Clock} (c : WCtx) (hc : 0 ≤ c.staffIndex) (st : WSt P) :
    placedC c0 (writeKeysAndClefs c st) = placedC c0 st ++ (st.clefs.takeWhile (fun x => x.tick ≤ st.tick)).map (fun x => ((runClock c0 st.out).pos, c.staffIndex, x.content)) ∧
    (writeKeysAndClefs c st).clefs = st.clefs.dropWhile (fun x => x.tick ≤ st.tick) ∧ (writeKeysAndClefs c st).buf = {} := by
  unfold writeKeysAndClefs
  refine ⟨?_, ?_, flush_buf _⟩
  · rw [placedC_flush, placedC_quiet (quiet_writeDueKeys c.staffIndex c _) rfl]
    have hk : placedC c0 (writeMeasureKey st) = placedC c0 st := placedC_quiet (quiet_writeMeasureKey 0 st) (by unfold writeMeasureKey; split <;> [split <;> rfl; rfl])
    have hm : (writeMeasureKey st).clefs = st.clefs ∧ (writeMeasureKey st).tick = st.tick ∧ (writeMeasureKey st).out = st.out := by
      unfold writeMeasureKey; split <;> [split <;> exact ⟨rfl, rfl, rfl⟩; exact ⟨rfl, rfl, rfl⟩]
    rw [← hk]
    unfold placedC writeDueClefs
    simp only
    rw [(foldl_writeClef_clefs _ _ _).1, hm.1, hm.2.1, hm.2.2, List.map_append, List.append_assoc, List.map_map]
    congr 2
    apply List.map_congr_left
    intro x _
    exact clefAt_out hc _ x
  · rw [clefs_flush]
    have hm : (writeMeasureKey st).clefs = st.clefs ∧ (writeMeasureKey st).tick = st.tick := by
      unfold writeMeasureKey; split <;> [split <;> exact ⟨rfl, rfl⟩; exact ⟨rfl, rfl⟩]
    simp only [writeDueKeys, writeDueClefs, hm]

theorem mem_takeWhile' {α : Type} {p : α → Bool} : ∀ {l : List α} {x : α}, x ∈ l.takeWhile p → p x = true := by
  intro l
  induction l with
  | nil => intro x h; cases h
  | cons a l ih =>
    intro x h
    rw [List.takeWhile_cons] at h
    split at h
    · rcases List.mem_cons.mp h with rfl | h
      · assumption
      · exact ih h
    · cases h

theorem drop_sorted {t : Int} : ∀ {l : List (Timed P)}, l.Pairwise (fun a b => a.tick ≤ b.tick) → ∀ x ∈ l.dropWhile (fun x => x.tick ≤ t), t < x.tick := by
  intro l
  induction l with
  | nil => intro _ x hx; cases hx
  | cons a l ih =>
    intro h x hx
    rw [List.dropWhile_cons] at hx
    rw [List.pairwise_cons] at h
    split at hx
    · exact ih h.2 x hx
    · rename_i hne
      simp only [decide_eq_true_eq, not_le] at hne
      rcases List.mem_cons.mp hx with rfl | hx
      · exact hne
      · have := h.1 x hx; omega

/-- What is known of the pending clefs of a staff while a voice is written: they are later than the notes before, and a note that comes next and is not earlier than one of them is at the same time. -/
structure Pending (later : List (Timed P)) (before rest : List (NoteData P)) (cs : List (Timed P)) : Prop where
  sub : cs ⊆ later
  sorted : cs.Pairwise (fun a b => a.tick ≤ b.tick)
  after : ∀ x ∈ cs, ∀ p ∈ before, p.tick < x.tick
  met : ∀ x ∈ later, ∀ b n a, before ++ rest = b ++ n :: a → (∀ p ∈ b, p.tick < x.tick) → x.tick ≤ n.tick → x.tick = n.tick

/-- One note. -/
theorem clefs_note {G : Int} (hG : 0 < G) {c0 : Clock} (ctx : WCtx) (hc : 0 ≤ ctx.staffIndex) (isStart : Bool) (pct : Int) {later : List (Timed P)} (before : List (NoteData P))
    (n : NoteData P) (rest : List (NoteData P)) (st : WSt P) (hn : NoteOk n) (hpair : ∀ p, before.getLast? = some p → PairOk p n) (hd : DivOk G c0 st)
    (hb : Between G before.getLast? pct (some n) st (runClock c0 st.out)) (hp : Pending later before (n :: rest) st.clefs) :
    let st3 := writeDirections ctx before.getLast? (some n) rest.head? (writeKeysAndClefs ctx (writeForwardOrBackupIfNeeded n st))
    let st5 := { advanceCursorIfNeeded n rest.head? (addNote ctx isStart n st3) with prevChord := n.isChord }
    placedC c0 st5 ++ st5.clefs.map (expectedClef G ctx.staffIndex) = placedC c0 st ++ st.clefs.map (expectedClef G ctx.staffIndex) ∧
    Pending later (before ++ [n]) rest st5.clefs ∧ (rest = [] → st5.tick = n.tick + n.ticks) := by
  obtain ⟨h1, h2⟩ := atCursor_or_chord hG (c0 := c0) ctx pct before.getLast? n st hn hpair hd hb
  obtain ⟨t1, d1, b1⟩ := placedC_forwardOrBackup (c0 := c0) n st
  simp only
  generalize writeForwardOrBackupIfNeeded n st = st1 at h1 h2 t1 d1 b1
  obtain ⟨xs, hq⟩ := quiet_writeKeysAndClefs ctx st1
  obtain ⟨_, hpos, _⟩ := placed_quiet (c0 := c0) hq
  have htick1 : st1.tick = n.tick := by rw [← hq.tick]; exact h1
  obtain ⟨t2, d2, b2⟩ := placedC_keysAndClefs (c0 := c0) ctx hc st1
  rw [d1, htick1] at t2 d2
  have due : ∀ x ∈ st.clefs.takeWhile (fun x => decide (x.tick ≤ n.tick)), x.tick = n.tick ∧ (runClock c0 st1.out).pos = (n.tick : ℚ) / G := by
    intro x hx
    have hxm : x ∈ st.clefs := (List.takeWhile_sublist _).subset hx
    have hle : x.tick ≤ n.tick := by simpa using mem_takeWhile' hx
    have he := hp.met x (hp.sub hxm) before n rest rfl (hp.after x hxm) hle
    refine ⟨he, ?_⟩
    rcases h2 with h2 | ⟨p, hpl, _, _, htick, _⟩
    · rw [← hpos, h2.2.1, h1]
    · have := hp.after x hxm p (List.mem_of_getLast? hpl)
      omega
  have t2' : placedC c0 (writeKeysAndClefs ctx st1) ++ (writeKeysAndClefs ctx st1).clefs.map (expectedClef G ctx.staffIndex) = placedC c0 st ++ st.clefs.map (expectedClef G ctx.staffIndex) := by
    rw [t2, d2, t1, List.append_assoc]
    congr 1
    conv_rhs => rw [← List.takeWhile_append_dropWhile (p := fun x => decide (x.tick ≤ n.tick)) (l := st.clefs)]
    rw [List.map_append]
    congr 1
    apply List.map_congr_left
    intro x hx
    obtain ⟨e1, e2⟩ := due x hx
    simp [expectedClef, e1, e2]
  have htick2 : (writeKeysAndClefs ctx st1).tick = n.tick := h1
  generalize writeKeysAndClefs ctx st1 = st2 at t2 d2 b2 t2' htick2
  obtain ⟨ys, ds, hq3, hb3⟩ := quiet_writeDirections ctx before.getLast? (some n) rest.head? st2
  have t3 := placedC_directions (c0 := c0) ctx before.getLast? (some n) rest.head? st2
  have d3 := clefs_writeDirections ctx before.getLast? (some n) rest.head? st2
  have b3 := hb3 b2
  have k3 := hq3.tick
  generalize writeDirections ctx before.getLast? (some n) rest.head? st2 = st3 at t3 d3 b3 k3
  have hadv : (advanceCursorIfNeeded n rest.head? (addNote ctx isStart n st3)).out = (addNote ctx isStart n st3).out ∧
      (advanceCursorIfNeeded n rest.head? (addNote ctx isStart n st3)).clefs = st3.clefs ∧ (advanceCursorIfNeeded n rest.head? (addNote ctx isStart n st3)).buf = st3.buf := by
    unfold advanceCursorIfNeeded; split <;> exact ⟨rfl, rfl, rfl⟩
  refine ⟨?_, ?_, ?_⟩
  · rw [← t2', ← t3, ← d3]
    unfold placedC
    simp only [hadv]
    rw [b3]
    unfold addNote
    simp only
    rw [placedClefs_append]
    simp [placedClefs]
  · simp only [hadv]
    rw [d3, d2]
    exact ⟨fun x hx => hp.sub ((List.dropWhile_sublist _).subset hx), hp.sorted.sublist (List.dropWhile_sublist _), by
      intro x hx p hpm
      rcases List.mem_append.mp hpm with hpm | hpm
      · exact hp.after x ((List.dropWhile_sublist _).subset hx) p hpm
      · rw [List.mem_singleton] at hpm
        subst hpm
        exact drop_sorted hp.sorted x hx, by simpa using hp.met⟩
  · intro hr
    have hnn := hn.ticks_nonneg
    have hn0 := hn.1
    subst hr
    unfold advanceCursorIfNeeded
    have : isAdvanceNeeded n (none : Option (NoteData P)) = true := by unfold isAdvanceNeeded; split <;> rfl
    simp only [List.head?_nil, this, if_true, addNote]
    omega

/-- All notes of a voice. -/
theorem clefs_notes {G : Int} (hG : 0 < G) {c0 : Clock} (ctx : WCtx) (hc : 0 ≤ ctx.staffIndex) {later : List (Timed P)} : ∀ (ns before : List (NoteData P)) (isFirst : Bool) (pct : Int)
    (st : WSt P), (∀ n ∈ before ++ ns, NoteOk n) → ns.IsChain PairOk → isFirst = before.getLast?.isNone →
    (∀ p n, before.getLast? = some p → ns.head? = some n → PairOk p n) → DivOk G c0 st →
    Between G before.getLast? pct ns.head? st (runClock c0 st.out) → Pending later before ns st.clefs →
    let st' := writeNotes ctx isFirst pct before.getLast? ns st
    placedC c0 st' ++ st'.clefs.map (expectedClef G ctx.staffIndex) = placedC c0 st ++ st.clefs.map (expectedClef G ctx.staffIndex) ∧
    Pending later (before ++ ns) [] st'.clefs ∧ st'.tick = (ns.getLast?.elim st.tick fun n => n.tick + n.ticks) := by
  intro ns
  induction ns with
  | nil => intro before isFirst pct st _ _ _ _ _ _ hp; exact ⟨rfl, by rw [List.append_nil]; exact hp, rfl⟩
  | cons n rest ih =>
    intro before isFirst pct st hok hch hf hpair hd hb hp
    obtain ⟨h1, h2, h3⟩ := clock_note hG (c0 := c0) ctx isFirst pct before.getLast? n rest.head? st (hok n (by simp)) hf
      (fun p hp => hpair p n hp rfl) hd hb
    obtain ⟨g1, g2, g3⟩ := clefs_note hG (c0 := c0) ctx hc (n.isChord && (isFirst || (writeForwardOrBackupIfNeeded n st).tick != pct)) pct (later := later) before n rest st (hok n (by simp))
      (fun p hp => hpair p n hp rfl) hd hb hp
    simp only at h1 h2 h3 g1 g2 g3
    have hstep := ih (before ++ [n]) false _ _ (by simpa using hok) (by
        cases rest with
        | nil => exact .nil
        | cons b t => exact (List.isChain_cons_cons.mp hch).2) (by simp)
      (by
        intro p m hp hm
        simp at hp
        subst hp
        cases rest with
        | nil => cases hm
        | cons b t => cases hm; exact (List.isChain_cons_cons.mp hch).1) h2 (by rw [List.getLast?_concat]; exact h3) g2
    rw [List.getLast?_concat] at hstep
    simp only [writeNotes]
    refine ⟨by rw [hstep.1, g1], by simpa using hstep.2.1, ?_⟩
    rw [hstep.2.2]
    cases rest with
    | nil => simpa using g3 rfl
    | cons b t => rw [List.getLast?_cons_cons]; cases h : (b :: t).getLast? with
      | none => simp at h
      | some x => rfl

theorem clefs_voice {G : Int} (hG : 0 < G) {c0 : Clock} (numStaves staffIndex : Int) (hi : 0 ≤ staffIndex) {later : List (Timed P)} (v : Int × List (NoteData P)) (st : WSt P)
    (hv : VoiceOk v.2) (hp : Pending later [] v.2 st.clefs) (ha : AtCursor G c0 st) :
    let st' := writeVoice numStaves staffIndex v st
    placedC c0 st' ++ st'.clefs.map (expectedClef G staffIndex) = placedC c0 st ++ st.clefs.map (expectedClef G staffIndex) ∧
    Pending later v.2 [] st'.clefs ∧ st'.tick = (v.2.getLast?.elim st.tick fun n => n.tick + n.ticks) := by
  simp only
  unfold writeVoice
  simp only
  generalize hctx : ({ numStaves := numStaves, staffIndex := staffIndex, voiceIndex := v.1 } : WCtx) = ctx
  have hs : staffIndex = ctx.staffIndex := by rw [← hctx]
  rw [hs]
  obtain ⟨xs, ds, hq, _⟩ := quiet_writeDirections ctx none v.2.head? v.2.tail.head? st
  obtain ⟨ha1, _⟩ := atCursor_quiet hG hq ha
  have t1 := placedC_directions (c0 := c0) ctx none v.2.head? v.2.tail.head? st
  have d1 := clefs_writeDirections ctx none v.2.head? v.2.tail.head? st
  obtain ⟨t2, p2, k2⟩ := clefs_notes hG (c0 := c0) ctx (by rw [← hs]; exact hi) (later := later) v.2 [] true (-2) _ (by simpa using hv.1) hv.2 rfl (by simp) ha1.1
    (show Between G none (-2) v.2.head? _ _ from ⟨ha1.2.1, ha1.2.2⟩) (by rw [d1]; exact hp)
  simp only [List.getLast?_nil, List.nil_append] at t2 p2 k2
  rw [placedC_directions, clefs_writeDirections, t2, t1, d1]
  obtain ⟨zs, es, hq2, _⟩ := quiet_writeDirections ctx v.2.getLast? none none (writeNotes ctx true (-2) none v.2 (writeDirections ctx none v.2.head? v.2.tail.head? st))
  refine ⟨rfl, p2, ?_⟩
  rw [hq2.tick, k2, hq.tick]

/-- Voices in which no clef is due. -/
theorem clefs_voices {G : Int} (hG : 0 < G) {c0 : Clock} (numStaves staffIndex : Int) (hi : 0 ≤ staffIndex) : ∀ (vs : List (Int × List (NoteData P))) (st : WSt P),
    (∀ v ∈ vs, VoiceOk v.2) → st.clefs.Pairwise (fun a b => a.tick ≤ b.tick) → (∀ x ∈ st.clefs, ∀ v ∈ vs, ∀ n ∈ v.2, n.tick < x.tick) → AtCursor G c0 st →
    let st' := vs.foldl (fun s v => writeVoice numStaves staffIndex v s) st
    placedC c0 st' ++ st'.clefs.map (expectedClef G staffIndex) = placedC c0 st ++ st.clefs.map (expectedClef G staffIndex) ∧
    st'.clefs ⊆ st.clefs ∧ st'.tick = ((vs.flatMap (·.2)).getLast?.elim st.tick fun n => n.tick + n.ticks) := by
  intro vs
  induction vs with
  | nil => intro st _ _ _ _; exact ⟨rfl, List.Subset.refl _, rfl⟩
  | cons v vs ih =>
    intro st hv hsort hlate ha
    obtain ⟨_, h2⟩ := clock_voice hG (c0 := c0) numStaves staffIndex v st (hv v (by simp)) ha
    obtain ⟨g1, g2, g3⟩ := clefs_voice hG (c0 := c0) numStaves staffIndex hi (later := st.clefs) v st (hv v (by simp))
      ⟨List.Subset.refl _, hsort, by simp, by
        intro x hx b n a e _ hle
        have := hlate x hx v (by simp) n (by rw [List.nil_append] at e; rw [e]; simp)
        omega⟩ ha
    simp only [List.foldl_cons]
    obtain ⟨i1, i2, i3⟩ := ih _ (fun w hw => hv w (by simp [hw])) g2.sorted (fun x hx w hw => hlate x (g2.sub hx) w (by simp [hw])) h2
    refine ⟨by rw [i1, g1], List.Subset.trans i2 g2.sub, ?_⟩
    rw [i3, g3, List.flatMap_cons, List.getLast?_append]
    cases (vs.flatMap (·.2)).getLast? <;> rfl

theorem drop_zero_pos {l : List (Timed P)} (hs : l.Pairwise (fun a b => a.tick ≤ b.tick)) (h0 : ∀ x ∈ l, 0 ≤ x.tick) : ∀ x ∈ l.dropWhile (fun x => x.tick = 0), 0 < x.tick := by
  have : l.dropWhile (fun x => decide (x.tick = 0)) = l.dropWhile (fun x => decide (x.tick ≤ 0)) := by
    clear hs
    induction l with
    | nil => rfl
    | cons a l ih =>
      have ha := h0 a (by simp)
      rw [List.dropWhile_cons, List.dropWhile_cons, ih (fun x hx => h0 x (by simp [hx]))]
      by_cases h : a.tick = 0
      · simp [h]
      · simp only [h, decide_false, Bool.false_eq_true, if_false]
        rw [if_neg (by simp; omega)]
  rw [this]
  exact drop_sorted hs

theorem clefs_staff {G : Int} (hG : 0 < G) {c0 : Clock} (numStaves staffIndex : Int) (hi : 0 ≤ staffIndex) (s : StaffData P) (st : WSt P)
    (hv : ∀ v ∈ s.voices, VoiceOk v.2) (hm : ClefsMet s) (ha : AtCursor G c0 st) :
    placedC c0 (writeVoices numStaves staffIndex s st) = placedC c0 st ++ (s.clefs.dropWhile (fun x => x.tick = 0)).map (expectedClef G staffIndex) := by
  have hlater := drop_zero_pos hm.1 (fun x hx => (hm.2 x hx).1)
  have hmet : ∀ x ∈ s.clefs.dropWhile (fun x => decide (x.tick = 0)), TimeMet s x.tick :=
    fun x hx => (hm.2 x ((List.dropWhile_sublist _).subset hx)).2 (hlater x hx)
  have hsort : (s.clefs.dropWhile (fun x => decide (x.tick = 0))).Pairwise (fun a b => a.tick ≤ b.tick) := hm.1.sublist (List.dropWhile_sublist _)
  unfold writeVoices
  simp only
  generalize s.clefs.dropWhile (fun x => decide (x.tick = 0)) = later at hlater hmet hsort
  have hst0 : placedC c0 { st with clefs := later, keys := s.keys, dirs := s.directions } = placedC c0 st := rfl
  have ha0 : AtCursor G c0 { st with clefs := later, keys := s.keys, dirs := s.directions } := ha
  rw [← hst0]
  have hst1 : ({ st with clefs := later, keys := s.keys, dirs := s.directions } : WSt P).clefs = later := rfl
  generalize ({ st with clefs := later, keys := s.keys, dirs := s.directions } : WSt P) = st0 at hst0 ha0 hst1
  -- all voices
  have main : placedC c0 (s.voices.foldl (fun s v => writeVoice numStaves staffIndex v s) st0) ++ (s.voices.foldl (fun s v => writeVoice numStaves staffIndex v s) st0).clefs.map (expectedClef G staffIndex) =
      placedC c0 st0 ++ later.map (expectedClef G staffIndex) ∧
      (∀ x ∈ (s.voices.foldl (fun s v => writeVoice numStaves staffIndex v s) st0).clefs, ((s.voices.foldl (fun s v => writeVoice numStaves staffIndex v s) st0).tick = x.tick)) := by
    cases hvs : s.voices with
    | nil =>
      refine ⟨by simp [hst1], ?_⟩
      intro x hx
      simp only [List.foldl_nil, hst1] at hx
      rcases hmet x hx with ⟨v, hv', _⟩ | ⟨_, n, hn, _⟩
      · rw [hvs] at hv'; cases hv'
      · rw [hvs] at hn; cases hn
    | cons v vs =>
      have hpend : Pending later [] v.2 st0.clefs := by
        rw [hst1]
        refine ⟨List.Subset.refl _, hsort, by simp, ?_⟩
        intro x hx b n a e hb hle
        rw [List.nil_append] at e
        rcases hmet x hx with ⟨w, hw, before, m, after, e2, h2, h3⟩ | ⟨h2, _⟩
        · rw [hvs] at hw
          simp only [List.head?_cons, Option.mem_def, Option.some.injEq] at hw
          subst hw
          rw [e] at e2
          rcases List.append_eq_append_iff.mp e2 with ⟨c, hc1, hc2⟩ | ⟨c, hc1, hc2⟩
          · cases c with
            | nil => simp at hc2; rw [hc2.1]; exact h2.symm
            | cons y ys =>
              simp at hc2
              have := h3 n (by rw [hc1, hc2.1]; simp)
              omega
          · cases c with
            | nil => simp at hc2; rw [← hc2.1]; exact h2.symm
            | cons y ys =>
              simp at hc2
              have := hb m (by rw [hc1, hc2.1]; simp)
              omega
        · have := h2 v (by rw [hvs]; simp) n (by rw [e]; simp)
          omega
      have hv1 := hv v (by rw [hvs]; simp)
      obtain ⟨_, h2⟩ := clock_voice hG (c0 := c0) numStaves staffIndex v st0 hv1 ha0
      obtain ⟨g1, g2, g3⟩ := clefs_voice hG (c0 := c0) numStaves staffIndex hi (later := later) v st0 hv1 hpend ha0
      have hend : ∀ x ∈ (writeVoice numStaves staffIndex v st0).clefs,
          (∀ v ∈ s.voices, ∀ n ∈ v.2, n.tick < x.tick) ∧ ∃ n ∈ (s.voices.flatMap (·.2)).getLast?, n.tick + n.ticks = x.tick := by
        intro x hx
        rcases hmet x (g2.sub hx) with ⟨w, hw, before, m, after, e2, h3, _⟩ | h
        · rw [hvs] at hw
          simp only [List.head?_cons, Option.mem_def, Option.some.injEq] at hw
          subst hw
          have := g2.after x hx m (by rw [e2]; simp)
          omega
        · exact h
      simp only [List.foldl_cons]
      obtain ⟨i1, i2, i3⟩ := clefs_voices hG (c0 := c0) numStaves staffIndex hi vs _ (fun w hw => hv w (by rw [hvs]; simp [hw])) g2.sorted
        (fun x hx w hw => (hend x hx).1 w (by rw [hvs]; simp [hw])) h2
      refine ⟨by rw [i1, g1, hst1], ?_⟩
      intro x hx
      obtain ⟨n, hn, he⟩ := (hend x (i2 hx)).2
      rw [hvs, List.flatMap_cons, List.getLast?_append] at hn
      rw [i3, g3, ← he]
      cases h : (vs.flatMap (·.2)).getLast? with
      | none =>
        rw [h] at hn
        simp only [Option.none_or, Option.mem_def] at hn
        rw [hn]; rfl
      | some m =>
        rw [h] at hn
        simp only [Option.some_or, Option.mem_def, Option.some.injEq] at hn
        subst hn; rfl
  obtain ⟨_, ha2⟩ := clock_voices hG (c0 := c0) numStaves staffIndex s.voices st0 hv ha0
  generalize s.voices.foldl (fun s v => writeVoice numStaves staffIndex v s) st0 = st2 at main ha2
  obtain ⟨m1, m2⟩ := main
  rw [← m1]
  have t3 := placedC_directions (c0 := c0) { numStaves := numStaves, staffIndex := staffIndex, voiceIndex := 0 } none none none st2
  have d3 := clefs_writeDirections { numStaves := numStaves, staffIndex := staffIndex, voiceIndex := 0 } none none none st2
  obtain ⟨ys, es, hq, _⟩ := quiet_writeDirections { numStaves := numStaves, staffIndex := staffIndex, voiceIndex := 0 } none none none st2
  have ha3 := (atCursor_quiet hG hq ha2).1
  have k3 := hq.tick
  rw [← t3, ← d3]
  rw [← d3, ← k3] at m2
  generalize writeDirections { numStaves := numStaves, staffIndex := staffIndex, voiceIndex := 0 } none none none st2 = st3 at m2 ha3
  unfold writeRemaining
  split
  · simp only
    rw [placedC_flush]
    have hk : ∀ st : WSt P, placedC c0 { st with buf := st.keys.foldl (fun b x => writeKey staffIndex x b) st.buf, keys := [] } = placedC c0 st := by
      intro st
      unfold placedC
      simp only [foldl_writeKey_clefs]
    have hk2 : ∀ st : WSt P, placedC c0 (writeRemainingMeasureKey st) = placedC c0 st := by
      intro st
      unfold writeRemainingMeasureKey
      split
      · split <;> rfl
      · rfl
    rw [hk, hk2]
    unfold placedC
    simp only
    rw [(foldl_writeClef_clefs _ _ _).1, List.map_append, ← List.append_assoc, List.map_map]
    congr 1
    apply List.map_congr_left
    intro x hx
    rw [Function.comp, clefAt_out hi, ha3.2.1, m2 x hx]
    rfl
  · rename_i h
    have : st3.clefs = [] := by
      cases hc : st3.clefs with
      | nil => rfl
      | cons a l => rw [hc] at h; simp at h
    rw [this]; simp

/-- the clefs after the beginning -/
def laterClefs (G : Int) : Int → List (StaffData P) → List (ℚ × Int × P)
  | _, [] => []
  | i, s :: rest => (s.clefs.dropWhile (fun x => x.tick = 0)).map (expectedClef G i) ++ laterClefs G (i + 1) rest

/-- the clefs at the beginning -/
def firstClefs (G : Int) : Int → List (StaffData P) → List (ℚ × Int × P)
  | _, [] => []
  | i, s :: rest => (s.clefs.takeWhile (fun x => x.tick = 0)).map (expectedClef G i) ++ firstClefs G (i + 1) rest

theorem clefs_split (G : Int) : ∀ (ss : List (StaffData P)) (i : Int), (firstClefs G i ss ++ laterClefs G i ss).Perm (expectedClefsFrom G i ss) := by
  intro ss
  induction ss with
  | nil => intro i; exact .nil
  | cons s rest ih =>
    intro i
    simp only [firstClefs, laterClefs, expectedClefsFrom]
    have h1 : s.clefs.map (expectedClef G i) = (s.clefs.takeWhile (fun x => x.tick = 0)).map (expectedClef G i) ++ (s.clefs.dropWhile (fun x => x.tick = 0)).map (expectedClef G i) := by
      rw [← List.map_append, List.takeWhile_append_dropWhile]
    rw [h1, List.append_assoc, List.append_assoc]
    refine List.Perm.append_left _ ?_
    refine List.Perm.trans ?_ (List.Perm.append_left _ (ih (i + 1)))
    rw [← List.append_assoc, ← List.append_assoc]
    exact List.Perm.append_right _ List.perm_append_comm

theorem clefs_staves {G : Int} (hG : 0 < G) {c0 : Clock} (numStaves : Int) : ∀ (ss : List (StaffData P)) (i : Int) (st : WSt P), 0 ≤ i →
    (∀ s ∈ ss, ∀ v ∈ s.voices, VoiceOk v.2) → (∀ s ∈ ss, ClefsMet s) → AtCursor G c0 st →
    placedC c0 (writeStavesFrom numStaves i ss st) = placedC c0 st ++ laterClefs G i ss := by
  intro ss
  induction ss with
  | nil => intro i st _ _ _ _; simp [writeStavesFrom, laterClefs]
  | cons s rest ih =>
    intro i st hi hv hcl ha
    obtain ⟨_, h2⟩ := clock_staff hG (c0 := c0) numStaves i s st (hv s (by simp)) ha
    have h1 := clefs_staff hG (c0 := c0) numStaves i hi s st (hv s (by simp)) (hcl s (by simp)) ha
    simp only [writeStavesFrom, laterClefs]
    rw [ih (i + 1) _ (by omega) (fun w hw => hv w (by simp [hw])) (fun w hw => hcl w (by simp [hw])) h2, h1, List.append_assoc]

theorem early_placed (G : Int) (numStaves : Int) : ∀ (ss : List (StaffData P)) (i : Int), 0 ≤ i → i + ss.length ≤ numStaves →
    (earlyClefsOut numStaves i ss).map (clefAt 0) = firstClefs G i ss := by
  intro ss
  induction ss with
  | nil => intro i _ _; rfl
  | cons s rest ih =>
    intro i hi hl
    rw [List.length_cons] at hl
    push_cast at hl
    simp only [earlyClefsOut, firstClefs, List.map_append]
    rw [ih (i + 1) (by omega) (by omega), List.map_map]
    congr 1
    apply List.map_congr_left
    intro x hx
    have h0 : x.tick = 0 := by simpa using mem_takeWhile' hx
    by_cases h : numStaves > 1
    · rw [if_pos h, Function.comp, clefAt_out hi, expectedClef, h0]; simp
    · have : i = 0 := by omega
      subst this
      rw [if_neg h]
      simp [clefAt, clefOut, staffIndexOf, expectedClef, h0]

theorem clefs_measure {G : Int} (hG : 0 < G) (env : WEnv) (m : MeasureData P) (d : ℚ) (hg : env.ticksPerQuarter = G)
    (hd : env.isFirstMeasureInPart = false → d = G) (hN : (m.staves.length : Int) ≤ env.numStaves) (hv : MeasureOk m) (hcl : ∀ s ∈ m.staves, ClefsMet s) :
    placedClefs (Clock.init d) (writeMeasure env m) = firstClefs G 0 m.staves ++ laterClefs G 0 m.staves := by
  unfold writeMeasure
  simp only
  have hquiet0 : ∀ e ∈ ((m.barlines.takeWhile (fun b => b.tick ≤ 0)).map barlineElem ++
      List.replicate env.printElements (Elem.other : Elem P)), e.isQuiet = true ∧ e.clefElems = [] ∧ e.divisions? = none := by
    intro e he
    rcases List.mem_append.mp he with h | h
    · obtain ⟨b, _, rfl⟩ := List.mem_map.mp h; exact ⟨rfl, rfl, rfl⟩
    · rw [(List.mem_replicate.mp h).2]; exact ⟨rfl, rfl, rfl⟩
  have hnodiv : ((m.barlines.takeWhile (fun b => b.tick ≤ 0)).map barlineElem ++
      List.replicate env.printElements (Elem.other : Elem P)).filterMap Elem.divisions? = [] := by
    rw [List.filterMap_eq_nil_iff]
    exact fun e he => (hquiet0 e he).2.2
  have hnoclef : ((m.barlines.takeWhile (fun b => b.tick ≤ 0)).map barlineElem ++
      List.replicate env.printElements (Elem.other : Elem P)).flatMap Elem.clefElems = [] := by
    rw [List.flatMap_eq_nil_iff]
    exact fun e he => (hquiet0 e he).2.1
  obtain ⟨r1, r2, r3, _⟩ := runClock_quiet (fun e he => (hquiet0 e he).1) (Clock.init d)
  have ha : AtCursor G (Clock.init d)
      { tick := 0, prevChord := false, dirs := [], clefs := [], keys := [], mkeys := m.keys.dropWhile (fun k => k.tick = 0)
        buf := globals env m
        out := (m.barlines.takeWhile (fun b => b.tick ≤ 0)).map barlineElem ++ List.replicate env.printElements Elem.other } := by
    refine ⟨?_, ?_, by simp⟩
    · unfold DivOk
      simp only
      rw [globals_divisions, hg]
      cases hfm : env.isFirstMeasureInPart with
      | true => left; simp [durMicro, hG]
      | false =>
        right
        refine ⟨by simp, ?_⟩
        rw [r3 hnodiv, Clock.init, hd hfm]
    · simp only; rw [r1]; simp [Clock.init]
  have g1 := clefs_staves hG env.numStaves m.staves 0 _ (le_refl _) hv hcl ha
  have g0 : placedC (Clock.init d)
      { tick := 0, prevChord := false, dirs := [], clefs := [], keys := [], mkeys := m.keys.dropWhile (fun k => k.tick = 0)
        buf := globals env m
        out := (m.barlines.takeWhile (fun b => b.tick ≤ 0)).map barlineElem ++ List.replicate env.printElements Elem.other } = firstClefs G 0 m.staves := by
    unfold placedC
    simp only
    rw [placedClefs_none hnoclef, r1, globals_eq]
    simp only [Clock.init, List.nil_append]
    exact early_placed G env.numStaves m.staves 0 (le_refl _) (by omega)
  rw [g0] at g1
  rw [← g1, ← placedC_flush, placedClefs_append, placedC, flush_buf, placedClefs_none (xs := List.map barlineElem _)]
  · simp
  · rw [List.flatMap_eq_nil_iff]
    intro e he
    obtain ⟨b, _, rfl⟩ := List.mem_map.mp he; rfl

end Mx.Measure
