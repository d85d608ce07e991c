import Verif.Proofs.ClefClock
import Verif.Spec.KeyTime
import Mathlib.Data.Multiset.AddSub
import Mathlib.Algebra.Order.Group.Multiset

/-! The MusicXML clock and the keys: writing. -/
namespace Mx.Measure
open _root_.Spec

variable {P : Type}

/-- time, staff, kind and content of a key -/
abbrev PlacedKey (P : Type) := ℚ × Option Int × Bool × P

/-- a key element at a time -/
def keyAt (t : ℚ) (k : KeyElem P) : PlacedKey P := (t, k.number.map (· - 1), k.isTraditional, k.content)

theorem placedKeys_append (c : Clock) (xs ys : List (Elem P)) :
    placedKeys c (xs ++ ys) = placedKeys c xs ++ placedKeys (runClock c xs) ys := by
  induction xs generalizing c with
  | nil => rfl
  | cons e es ih => cases e <;> simp [placedKeys, ih, runClock]

theorem placedKeys_none {xs : List (Elem P)} (h : xs.flatMap Elem.keyElems = []) (c : Clock) : placedKeys c xs = [] := by
  induction xs generalizing c with
  | nil => rfl
  | cons e es ih => cases e <;> simp_all [placedKeys, Elem.keyElems]

theorem placedKeys_quiet {xs : List (Elem P)} (h : ∀ e ∈ xs, e.isQuiet = true) (c : Clock) :
    placedKeys c xs = (xs.flatMap Elem.keyElems).map (keyAt c.pos) := by
  induction xs generalizing c with
  | nil => rfl
  | cons e es ih =>
    have ih := ih (fun x hx => h x (by simp [hx]))
    have he := h e (by simp)
    have hp : (c.step e).pos = c.pos := (runClock_quiet (xs := [e]) (by simpa using he) c).1
    cases e <;> simp_all [placedKeys, Elem.keyElems, Elem.isQuiet, keyAt]

/-- the keys written so far, at their times; those in the buffer will be written where the clock is -/
def placedK (c0 : Clock) (st : WSt P) : List (PlacedKey P) :=
  placedKeys c0 st.out ++ st.buf.keys.map (keyAt (runClock c0 st.out).pos)

/-- A step that only moves keys from the buffer to the document. -/
theorem placedK_of {c0 : Clock} {st st' : WSt P} {xs : List (Elem P)} (ho : st'.out = st.out ++ xs) (hq : ∀ e ∈ xs, e.isQuiet = true)
    (hk : xs.flatMap Elem.keyElems ++ st'.buf.keys = st.buf.keys) : placedK c0 st' = placedK c0 st := by
  unfold placedK
  rw [ho, placedKeys_append, placedKeys_quiet hq, runClock_append, (runClock_quiet hq _).1, List.append_assoc, ← List.map_append, hk]

theorem placedK_flush {c0 : Clock} (st : WSt P) : placedK c0 (flush st) = placedK c0 st := by
  have h := quiet_flush' 0 st
  exact placedK_of h.out h.quiet (flush_keys st).1

theorem placedK_while {c0 : Clock} (c : WCtx) (p : Int → Bool) (st : WSt P) :
    placedK c0 (writeDirectionsWhile c p st) = placedK c0 st ∧ (writeDirectionsWhile c p st).keys = st.keys ∧ (writeDirectionsWhile c p st).mkeys = st.mkeys := by
  obtain ⟨xs, h1, h2, h3, h4, h5, h6, h7, h8, h9, h10⟩ := quiet_dirs_aux c (st.dirs.takeWhile (fun d => p d.tick)) st
  exact ⟨placedK_of (st' := writeDirectionsWhile c p st) h1 (fun e he => isQuiet_of_isPlain (h2 e he)) h10.1, h10.2.1, h10.2.2⟩

theorem placedK_directions {c0 : Clock} (c : WCtx) (prev cur next : Option (NoteData P)) (st : WSt P) :
    placedK c0 (writeDirections c prev cur next st) = placedK c0 st ∧ (writeDirections c prev cur next st).keys = st.keys ∧ (writeDirections c prev cur next st).mkeys = st.mkeys := by
  unfold writeDirections
  split
  · exact placedK_while _ _ _
  · simp only
    split
    · exact placedK_while _ _ _
    · split
      · exact ⟨rfl, rfl, rfl⟩
      · exact placedK_while _ _ _

theorem placedK_forwardOrBackup {c0 : Clock} (n : NoteData P) (st : WSt P) :
    placedK c0 (writeForwardOrBackupIfNeeded n st) = placedK c0 st ∧ (writeForwardOrBackupIfNeeded n st).keys = st.keys ∧ (writeForwardOrBackupIfNeeded n st).mkeys = st.mkeys := by
  have h0 := placedK_flush (c0 := c0) st
  have hc := (flush_keys st).2
  have hb : (flush st).buf.keys = [] := by rw [flush_buf]
  have hout : ∀ (st' : WSt P) (e : Elem P), st'.out = (flush st).out ++ [e] → e.keyElems = [] → st'.keys = (flush st).keys → st'.mkeys = (flush st).mkeys → st'.buf = (flush st).buf →
      placedK c0 st' = placedK c0 st ∧ st'.keys = st.keys ∧ st'.mkeys = st.mkeys := by
    intro st' e h1 h2 h3 h3' h4
    refine ⟨?_, by rw [h3, hc.1], by rw [h3', hc.2]⟩
    rw [← h0]
    unfold placedK
    rw [h1, h4, hb, placedKeys_append, placedKeys_none (xs := [e]) (by simp [h2])]
    simp
  unfold writeForwardOrBackupIfNeeded
  simp only
  split
  · exact ⟨h0, hc⟩
  · split
    · unfold backup
      simp only
      generalize (if (flush st).tick - _ < 0 then _ else _ : Int) = a
      split
      · exact ⟨h0, hc⟩
      · exact hout _ _ rfl rfl rfl rfl rfl
    · split
      · exact hout _ _ rfl rfl rfl rfl rfl
      · exact ⟨h0, hc⟩

theorem keyAt_out (i : Int) (t : ℚ) (k : KeyData P) : keyAt t (keyOut i k) = (t, (if 0 ≤ i then some i else none), k.isTraditional, k.content) := by
  unfold keyAt keyOut
  by_cases h : i ≥ 0
  · simp [h]
  · simp [h]

/-- The key of the measure that is due before a note. -/
def dueM (st : WSt P) : List (KeyData P) := (st.mkeys.take 1).filter (fun k => k.tick ≤ st.tick)

/-- The keys before a note: those that are due are placed where the clock is. -/
theorem placedK_keysAndClefs {c0 : Clock} (c : WCtx) (st : WSt P) :
    placedK c0 (writeKeysAndClefs c st) = placedK c0 st ++ ((dueM st).map (fun k => ((runClock c0 st.out).pos, none, k.isTraditional, k.content)) ++
      (st.keys.takeWhile (fun x => x.tick ≤ st.tick)).map (fun k => ((runClock c0 st.out).pos, (if 0 ≤ c.staffIndex then some c.staffIndex else none), k.isTraditional, k.content))) ∧
    (writeKeysAndClefs c st).keys = st.keys.dropWhile (fun x => x.tick ≤ st.tick) ∧ dueM st ++ (writeKeysAndClefs c st).mkeys = st.mkeys ∧ (writeKeysAndClefs c st).buf = {} := by
  have hm : placedK c0 (writeMeasureKey st) = placedK c0 st ++ (dueM st).map (fun k => ((runClock c0 st.out).pos, none, k.isTraditional, k.content)) ∧
      dueM st ++ (writeMeasureKey st).mkeys = st.mkeys ∧ (writeMeasureKey st).keys = st.keys ∧ (writeMeasureKey st).tick = st.tick ∧ (writeMeasureKey st).out = st.out := by
    unfold writeMeasureKey dueM
    cases hk : st.mkeys with
    | nil => simp [hk]
    | cons k ks =>
      by_cases h : k.tick ≤ st.tick
      · simp [h, placedK, writeKey, keyAt]
      · simp [h, hk]
  obtain ⟨m1, m2, m3, m4, m5⟩ := hm
  unfold writeKeysAndClefs
  generalize writeMeasureKey st = st1 at m1 m2 m3 m4 m5
  refine ⟨?_, ?_, ?_, flush_buf _⟩
  · rw [placedK_flush, ← List.append_assoc, ← m1]
    unfold placedK writeDueKeys writeDueClefs
    simp only
    rw [fold_writeKey, fold_writeClef]
    simp only
    rw [m3, m4, m5, List.map_append, List.append_assoc, List.map_map]
    congr 2
    apply List.map_congr_left
    intro k _
    exact keyAt_out _ _ _
  · rw [(flush_keys _).2.1]
    simp only [writeDueKeys, writeDueClefs, m3, m4]
  · rw [(flush_keys _).2.2]
    exact m2

/-- What is known of the pending times of a staff while a voice is written: they are later than the notes before, and a note that comes next and is not earlier than one of them is at the same time. -/
structure Waiting (before rest : List (NoteData P)) (ts : List Int) : Prop where
  sorted : ts.Pairwise (· ≤ ·)
  after : ∀ t ∈ ts, ∀ p ∈ before, p.tick < t
  met : ∀ t ∈ ts, ∀ b n a, before ++ rest = b ++ n :: a → (∀ p ∈ b, p.tick < t) → t ≤ n.tick → t = n.tick

theorem Waiting.sublist {before rest : List (NoteData P)} {ts us : List Int} (h : Waiting before rest ts) (hs : us.Sublist ts) : Waiting before rest us :=
  ⟨h.sorted.sublist hs, fun t ht => h.after t (hs.subset ht), fun t ht => h.met t (hs.subset ht)⟩

/-- After a note: what is left is later than it. -/
theorem Waiting.next {before rest : List (NoteData P)} {n : NoteData P} {ts : List Int} (h : Waiting before (n :: rest) ts) (hl : ∀ t ∈ ts, n.tick < t) : Waiting (before ++ [n]) rest ts :=
  ⟨h.sorted, fun t ht p hp => by
    rcases List.mem_append.mp hp with hp | hp
    · exact h.after t ht p hp
    · rw [List.mem_singleton] at hp; subst hp; exact hl t ht, by simpa using h.met⟩

theorem ticks_dropWhile {t : Int} : ∀ {l : List (KeyData P)}, (l.map (·.tick)).Pairwise (· ≤ ·) → ∀ x ∈ l.dropWhile (fun x => x.tick ≤ t), t < x.tick := by
  intro l
  induction l with
  | nil => intro _ x hx; cases hx
  | cons a l ih =>
    intro h x hx
    rw [List.dropWhile_cons] at hx
    rw [List.map_cons, List.pairwise_cons] at h
    split at hx
    · exact ih h.2 x hx
    · rename_i hne
      simp only [decide_eq_true_eq, not_le] at hne
      rcases List.mem_cons.mp hx with rfl | hx
      · exact hne
      · have := h.1 x.tick (List.mem_map_of_mem hx); omega

/-- the keys written and pending -/
def totalK (G i : Int) (c0 : Clock) (st : WSt P) : Multiset (PlacedKey P) :=
  (placedK c0 st : Multiset (PlacedKey P)) + (st.mkeys.map (expectedKey G (-1)) : Multiset (PlacedKey P)) + (st.keys.map (expectedKey G i) : Multiset (PlacedKey P))

/-- One note. -/
theorem keys_note {G : Int} (hG : 0 < G) {c0 : Clock} (ctx : WCtx) (isStart : Bool) (pct : Int) (before : List (NoteData P))
    (n : NoteData P) (rest : List (NoteData P)) (st : WSt P) (hn : NoteOk n) (hpair : ∀ p, before.getLast? = some p → PairOk p n) (hd : DivOk G c0 st)
    (hb : Between G before.getLast? pct (some n) st (runClock c0 st.out)) (hp : Waiting before (n :: rest) (st.keys.map (·.tick))) (hm : Waiting before (n :: rest) (st.mkeys.map (·.tick)))
    (hstrict : (st.mkeys.map (·.tick)).Pairwise (· < ·)) :
    let st3 := writeDirections ctx before.getLast? (some n) rest.head? (writeKeysAndClefs ctx (writeForwardOrBackupIfNeeded n st))
    let st5 := { advanceCursorIfNeeded n rest.head? (addNote ctx isStart n st3) with prevChord := n.isChord }
    totalK G ctx.staffIndex c0 st5 = totalK G ctx.staffIndex c0 st ∧ (st5.keys.Sublist st.keys ∧ st5.mkeys.Sublist st.mkeys) ∧
    Waiting (before ++ [n]) rest (st5.keys.map (·.tick)) ∧ Waiting (before ++ [n]) rest (st5.mkeys.map (·.tick)) := by
  obtain ⟨h1, h2⟩ := atCursor_or_chord hG (c0 := c0) ctx pct before.getLast? n st hn hpair hd hb
  obtain ⟨t1, d1, e1⟩ := placedK_forwardOrBackup (c0 := c0) n st
  simp only
  generalize writeForwardOrBackupIfNeeded n st = st1 at h1 h2 t1 d1 e1
  obtain ⟨xs, hq⟩ := quiet_writeKeysAndClefs ctx st1
  obtain ⟨_, hpos, _⟩ := placed_quiet (c0 := c0) hq
  have htick1 : st1.tick = n.tick := by rw [← hq.tick]; exact h1
  obtain ⟨t2, d2, e2, b2⟩ := placedK_keysAndClefs (c0 := c0) ctx st1
  have due : ∀ ts : List Int, Waiting before (n :: rest) ts → ∀ t ∈ ts, t ≤ n.tick → t = n.tick ∧ (runClock c0 st1.out).pos = (n.tick : ℚ) / G := by
    intro ts hw t ht hle
    refine ⟨hw.met t ht before n rest rfl (hw.after t ht) hle, ?_⟩
    rcases h2 with h2 | ⟨p, hpl, _, _, htick, _⟩
    · rw [← hpos, h2.2.1, h1]
    · have := hw.after t ht p (List.mem_of_getLast? hpl)
      omega
  rw [d1, htick1] at d2
  rw [d1, htick1, t1] at t2
  have hdm : ∀ k ∈ dueM st1, k ∈ st.mkeys ∧ k.tick ≤ n.tick := by
    intro k hk
    unfold dueM at hk
    rw [e1, htick1, List.mem_filter, decide_eq_true_eq] at hk
    exact ⟨List.mem_of_mem_take hk.1, hk.2⟩
  have hkey : (dueM st1).map (fun k => ((runClock c0 st1.out).pos, (none : Option Int), k.isTraditional, k.content)) = (dueM st1).map (expectedKey G (-1)) := by
    apply List.map_congr_left
    intro k hk
    obtain ⟨hk1, hk2⟩ := hdm k hk
    obtain ⟨g1, g2⟩ := due _ hm k.tick (List.mem_map_of_mem hk1) hk2
    simp [expectedKey, g1, g2]
  have hkey2 : (st.keys.takeWhile (fun x => decide (x.tick ≤ n.tick))).map (fun k => ((runClock c0 st1.out).pos, (if 0 ≤ ctx.staffIndex then some ctx.staffIndex else none), k.isTraditional, k.content)) =
      (st.keys.takeWhile (fun x => decide (x.tick ≤ n.tick))).map (expectedKey G ctx.staffIndex) := by
    apply List.map_congr_left
    intro k hk
    have hk1 : k ∈ st.keys := (List.takeWhile_sublist _).subset hk
    have hk2 : k.tick ≤ n.tick := by simpa using mem_takeWhile' hk
    obtain ⟨g1, g2⟩ := due _ hp k.tick (List.mem_map_of_mem hk1) hk2
    simp [expectedKey, g1, g2]
  rw [hkey, hkey2] at t2
  rw [e1] at e2
  have hrestm : ∀ k ∈ (writeKeysAndClefs ctx st1).mkeys, n.tick < k.tick := by
    intro k hk
    by_contra hle
    have hkm : k ∈ st.mkeys := by rw [← e2]; exact List.mem_append_right _ hk
    obtain ⟨g1, _⟩ := due _ hm k.tick (List.mem_map_of_mem hkm) (by omega)
    cases hms : st.mkeys with
    | nil => rw [hms] at hkm; cases hkm
    | cons a as =>
      have hdue : dueM st1 = if a.tick ≤ n.tick then [a] else [] := by
        unfold dueM
        rw [e1, hms, htick1]
        by_cases h : a.tick ≤ n.tick <;> simp [h]
      rw [hms, List.map_cons, List.pairwise_cons] at hstrict
      by_cases ha : a.tick ≤ n.tick
      · rw [if_pos ha] at hdue
        rw [hdue, hms] at e2
        simp only [List.cons_append, List.nil_append, List.cons.injEq, true_and] at e2
        rw [e2] at hk
        have := hstrict.1 k.tick (List.mem_map_of_mem hk)
        obtain ⟨g3, _⟩ := due _ hm a.tick (by rw [hms]; simp) ha
        omega
      · rw [hms] at hkm
        rcases List.mem_cons.mp hkm with rfl | hkm
        · omega
        · have := hstrict.1 k.tick (List.mem_map_of_mem hkm)
          omega
  have hrestk : ∀ k ∈ (writeKeysAndClefs ctx st1).keys, n.tick < k.tick := by
    rw [d2]
    exact ticks_dropWhile hp.sorted
  have htot : totalK G ctx.staffIndex c0 (writeKeysAndClefs ctx st1) = totalK G ctx.staffIndex c0 st := by
    unfold totalK
    rw [t2, d2, ← e2]
    conv_rhs => rw [← List.takeWhile_append_dropWhile (p := fun x => decide (x.tick ≤ n.tick)) (l := st.keys)]
    simp only [List.map_append, ← Multiset.coe_add]
    exact (by intros; ac_rfl : ∀ a b c d e : Multiset (PlacedKey P), a + (b + c) + d + e = a + (b + d) + (c + e)) _ _ _ _ _
  have hsub : (writeKeysAndClefs ctx st1).keys.Sublist st.keys ∧ (writeKeysAndClefs ctx st1).mkeys.Sublist st.mkeys :=
    ⟨by rw [d2]; exact List.dropWhile_sublist _, by rw [← e2]; exact List.sublist_append_right _ _⟩
  generalize writeKeysAndClefs ctx st1 = st2 at b2 hrestm hrestk htot hsub
  obtain ⟨ys, ds, hq3, hb3⟩ := quiet_writeDirections ctx before.getLast? (some n) rest.head? st2
  obtain ⟨t3, d3, e3⟩ := placedK_directions (c0 := c0) ctx before.getLast? (some n) rest.head? st2
  have b3 := hb3 b2
  generalize writeDirections ctx before.getLast? (some n) rest.head? st2 = st3 at t3 d3 e3 b3
  have hadv : (advanceCursorIfNeeded n rest.head? (addNote ctx isStart n st3)).out = (addNote ctx isStart n st3).out ∧
      (advanceCursorIfNeeded n rest.head? (addNote ctx isStart n st3)).keys = st3.keys ∧ (advanceCursorIfNeeded n rest.head? (addNote ctx isStart n st3)).mkeys = st3.mkeys ∧
      (advanceCursorIfNeeded n rest.head? (addNote ctx isStart n st3)).buf = st3.buf := by
    unfold advanceCursorIfNeeded; split <;> exact ⟨rfl, rfl, rfl, rfl⟩
  refine ⟨?_, ?_, ?_, ?_⟩
  · rw [← htot]
    unfold totalK
    simp only [hadv]
    rw [← t3, ← d3, ← e3]
    congr 2
    unfold placedK
    simp only [hadv]
    rw [b3]
    unfold addNote
    simp only
    rw [placedKeys_append]
    simp [placedKeys]
  · simp only [hadv]
    rw [d3, e3]; exact hsub
  · simp only [hadv]
    rw [d3]
    exact (hp.sublist (hsub.1.map _)).next (by simpa using hrestk)
  · simp only [hadv]
    rw [e3]
    exact (hm.sublist (hsub.2.map _)).next (by simpa using hrestm)

/-- All notes of a voice. -/
theorem keys_notes {G : Int} (hG : 0 < G) {c0 : Clock} (ctx : WCtx) : ∀ (ns before : List (NoteData P)) (isFirst : Bool) (pct : Int)
    (st : WSt P), (∀ n ∈ before ++ ns, NoteOk n) → ns.IsChain PairOk → isFirst = before.getLast?.isNone →
    (∀ p n, before.getLast? = some p → ns.head? = some n → PairOk p n) → DivOk G c0 st →
    Between G before.getLast? pct ns.head? st (runClock c0 st.out) → Waiting before ns (st.keys.map (·.tick)) → Waiting before ns (st.mkeys.map (·.tick)) → (st.mkeys.map (·.tick)).Pairwise (· < ·) →
    let st' := writeNotes ctx isFirst pct before.getLast? ns st
    totalK G ctx.staffIndex c0 st' = totalK G ctx.staffIndex c0 st ∧ (st'.keys.Sublist st.keys ∧ st'.mkeys.Sublist st.mkeys) ∧
    Waiting (before ++ ns) [] (st'.keys.map (·.tick)) ∧ Waiting (before ++ ns) [] (st'.mkeys.map (·.tick)) := by
  intro ns
  induction ns with
  | nil =>
    intro before isFirst pct st _ _ _ _ _ _ hp hm _
    rw [List.append_nil]
    exact ⟨rfl, ⟨List.Sublist.refl _, List.Sublist.refl _⟩, hp, hm⟩
  | cons n rest ih =>
    intro before isFirst pct st hok hch hf hpair hd hb hp hm hst
    obtain ⟨h1, h2, h3⟩ := clock_note hG (c0 := c0) ctx isFirst pct before.getLast? n rest.head? st (hok n (by simp)) hf
      (fun p hp => hpair p n hp rfl) hd hb
    obtain ⟨g1, g2, g3, g4⟩ := keys_note hG (c0 := c0) ctx (n.isChord && (isFirst || (writeForwardOrBackupIfNeeded n st).tick != pct)) pct before n rest st (hok n (by simp))
      (fun p hp => hpair p n hp rfl) hd hb hp hm hst
    simp only at h1 h2 h3 g1 g2 g3 g4
    have hstep := ih (before ++ [n]) false _ _ (by simpa using hok) (by
        cases rest with
        | nil => exact .nil
        | cons b t => exact (List.isChain_cons_cons.mp hch).2) (by simp)
      (by
        intro p m hp hm
        simp at hp
        subst hp
        cases rest with
        | nil => cases hm
        | cons b t => cases hm; exact (List.isChain_cons_cons.mp hch).1) h2 (by rw [List.getLast?_concat]; exact h3) g3 g4 (hst.sublist (g2.2.map _))
    rw [List.getLast?_concat] at hstep
    simp only [writeNotes]
    obtain ⟨i1, i2, i3, i4⟩ := hstep
    refine ⟨by rw [i1, g1], ⟨i2.1.trans g2.1, i2.2.trans g2.2⟩, ?_, ?_⟩
    · simpa using i3
    · simpa using i4

theorem keys_voice {G : Int} (hG : 0 < G) {c0 : Clock} (numStaves staffIndex : Int) (v : Int × List (NoteData P)) (st : WSt P)
    (hv : VoiceOk v.2) (hp : Waiting [] v.2 (st.keys.map (·.tick))) (hm : Waiting [] v.2 (st.mkeys.map (·.tick))) (hst : (st.mkeys.map (·.tick)).Pairwise (· < ·)) (ha : AtCursor G c0 st) :
    let st' := writeVoice numStaves staffIndex v st
    totalK G staffIndex c0 st' = totalK G staffIndex c0 st ∧ (st'.keys.Sublist st.keys ∧ st'.mkeys.Sublist st.mkeys) ∧
    Waiting v.2 [] (st'.keys.map (·.tick)) ∧ Waiting v.2 [] (st'.mkeys.map (·.tick)) := by
  simp only
  unfold writeVoice
  simp only
  generalize hctx : ({ numStaves := numStaves, staffIndex := staffIndex, voiceIndex := v.1 } : WCtx) = ctx
  have hs : staffIndex = ctx.staffIndex := by rw [← hctx]
  rw [hs]
  obtain ⟨xs, ds, hq, _⟩ := quiet_writeDirections ctx none v.2.head? v.2.tail.head? st
  obtain ⟨ha1, _⟩ := atCursor_quiet hG hq ha
  obtain ⟨t1, d1, e1⟩ := placedK_directions (c0 := c0) ctx none v.2.head? v.2.tail.head? st
  obtain ⟨t2, s2, p2, m2⟩ := keys_notes hG (c0 := c0) ctx v.2 [] true (-2) _ (by simpa using hv.1) hv.2 rfl (by simp) ha1.1
    (show Between G none (-2) v.2.head? _ _ from ⟨ha1.2.1, ha1.2.2⟩) (by rw [d1]; exact hp) (by rw [e1]; exact hm) (by rw [e1]; exact hst)
  simp only [List.getLast?_nil, List.nil_append] at t2 s2 p2 m2
  rw [d1, e1] at s2
  obtain ⟨t3, d3, e3⟩ := placedK_directions (c0 := c0) ctx v.2.getLast? none none (writeNotes ctx true (-2) none v.2 (writeDirections ctx none v.2.head? v.2.tail.head? st))
  refine ⟨?_, by rw [d3, e3]; exact s2, by rw [d3]; exact p2, by rw [e3]; exact m2⟩
  have t4 : totalK G ctx.staffIndex c0 (writeDirections ctx none v.2.head? v.2.tail.head? st) = totalK G ctx.staffIndex c0 st := by
    unfold totalK; rw [t1, d1, e1]
  rw [← t4, ← t2]
  unfold totalK; rw [t3, d3, e3]

/-- Voices in which no key is due. -/
theorem keys_voices {G : Int} (hG : 0 < G) {c0 : Clock} (numStaves staffIndex : Int) : ∀ (vs : List (Int × List (NoteData P))) (st : WSt P),
    (∀ v ∈ vs, VoiceOk v.2) → (st.keys.map (·.tick)).Pairwise (· ≤ ·) → (st.mkeys.map (·.tick)).Pairwise (· < ·) →
    (∀ t ∈ st.keys.map (·.tick) ++ st.mkeys.map (·.tick), ∀ v ∈ vs, ∀ n ∈ v.2, n.tick < t) → AtCursor G c0 st →
    let st' := vs.foldl (fun s v => writeVoice numStaves staffIndex v s) st
    totalK G staffIndex c0 st' = totalK G staffIndex c0 st ∧ (st'.keys.Sublist st.keys ∧ st'.mkeys.Sublist st.mkeys) := by
  intro vs
  induction vs with
  | nil => intro st _ _ _ _ _; exact ⟨rfl, List.Sublist.refl _, List.Sublist.refl _⟩
  | cons v vs ih =>
    intro st hv hs1 hs2 hlate ha
    have hw : ∀ ts : List Int, ts.Pairwise (· ≤ ·) → ts ⊆ st.keys.map (·.tick) ++ st.mkeys.map (·.tick) → Waiting [] v.2 ts := by
      intro ts hts hsub
      refine ⟨hts, by simp, ?_⟩
      intro x hx b n a e _ hle
      have := hlate x (hsub hx) v (by simp) n (by rw [List.nil_append] at e; rw [e]; simp)
      omega
    obtain ⟨_, h2⟩ := clock_voice hG (c0 := c0) numStaves staffIndex v st (hv v (by simp)) ha
    obtain ⟨g1, g2, _, _⟩ := keys_voice hG (c0 := c0) numStaves staffIndex v st (hv v (by simp))
      (hw _ hs1 (List.subset_append_left _ _)) (hw _ (hs2.imp (fun h => le_of_lt h)) (List.subset_append_right _ _)) hs2 ha
    simp only [List.foldl_cons]
    obtain ⟨i1, i2⟩ := ih _ (fun w hw => hv w (by simp [hw])) (hs1.sublist (g2.1.map _)) (hs2.sublist (g2.2.map _)) (by
      intro t ht w hw'
      refine hlate t ?_ w (by simp [hw'])
      rcases List.mem_append.mp ht with ht | ht
      · exact List.mem_append_left _ ((g2.1.map _).subset ht)
      · exact List.mem_append_right _ ((g2.2.map _).subset ht)) h2
    exact ⟨by rw [i1, g1], i2.1.trans g2.1, i2.2.trans g2.2⟩

theorem tick_forwardOrBackup {n : NoteData P} (hn : 0 ≤ n.tick) (st : WSt P) : (writeForwardOrBackupIfNeeded n st).tick = n.tick := by
  unfold writeForwardOrBackupIfNeeded
  simp only
  rw [if_neg (by omega)]
  split
  · unfold backup
    simp only
    rw [if_neg (by omega), if_neg (by omega)]
    simp only
    omega
  · split
    · simp only [forward]; omega
    · omega

/-- where the last note ends -/
def endOr (t : Int) (ns : List (NoteData P)) : Int := ns.getLast?.elim t fun n => n.tick + n.ticks

theorem tick_notes (ctx : WCtx) : ∀ (ns : List (NoteData P)) (isFirst : Bool) (pct : Int) (prev : Option (NoteData P)) (st : WSt P), (∀ n ∈ ns, NoteOk n) →
    (writeNotes ctx isFirst pct prev ns st).tick = endOr st.tick ns := by
  intro ns
  induction ns with
  | nil => intro _ _ _ st _; rfl
  | cons n rest ih =>
    intro isFirst pct prev st hok
    simp only [writeNotes]
    rw [ih _ _ _ _ (fun m hm => hok m (by simp [hm]))]
    cases rest with
    | cons b t => 
      unfold endOr
      rw [List.getLast?_cons_cons]
      cases h : (b :: t).getLast? with
      | none => simp at h
      | some x => rfl
    | nil =>
      have hn := hok n (by simp)
      have h1 := tick_forwardOrBackup hn.1 st
      obtain ⟨xs, hq⟩ := quiet_writeKeysAndClefs ctx (writeForwardOrBackupIfNeeded n st)
      obtain ⟨ys, ds, hq3, _⟩ := quiet_writeDirections ctx prev (some n) (([] : List (NoteData P)).head?) (writeKeysAndClefs ctx (writeForwardOrBackupIfNeeded n st))
      have h3 : (writeDirections ctx prev (some n) (([] : List (NoteData P)).head?) (writeKeysAndClefs ctx (writeForwardOrBackupIfNeeded n st))).tick = n.tick := by
        rw [hq3.tick, hq.tick, h1]
      have : isAdvanceNeeded n (none : Option (NoteData P)) = true := by unfold isAdvanceNeeded; split <;> rfl
      have hnn := hn.ticks_nonneg
      have hn0 := hn.1
      simp only [endOr, List.getLast?_nil, List.getLast?_singleton, Option.elim, advanceCursorIfNeeded, List.head?_nil, this, if_true, addNote]
      rw [List.head?_nil] at h3
      rw [h3]
      omega

theorem tick_voice (numStaves staffIndex : Int) (v : Int × List (NoteData P)) (st : WSt P) (hv : VoiceOk v.2) : (writeVoice numStaves staffIndex v st).tick = endOr st.tick v.2 := by
  unfold writeVoice
  simp only
  obtain ⟨xs, ds, hq, _⟩ := quiet_writeDirections { numStaves := numStaves, staffIndex := staffIndex, voiceIndex := v.1 } none v.2.head? v.2.tail.head? st
  obtain ⟨ys, es, hq2, _⟩ := quiet_writeDirections { numStaves := numStaves, staffIndex := staffIndex, voiceIndex := v.1 } v.2.getLast? none none
    (writeNotes { numStaves := numStaves, staffIndex := staffIndex, voiceIndex := v.1 } true (-2) none v.2
      (writeDirections { numStaves := numStaves, staffIndex := staffIndex, voiceIndex := v.1 } none v.2.head? v.2.tail.head? st))
  rw [hq2.tick, tick_notes _ _ _ _ _ _ hv.1, hq.tick]

theorem tick_voices (numStaves staffIndex : Int) : ∀ (vs : List (Int × List (NoteData P))) (st : WSt P), (∀ v ∈ vs, VoiceOk v.2) →
    (vs.foldl (fun s v => writeVoice numStaves staffIndex v s) st).tick = endOr st.tick (vs.flatMap (·.2)) := by
  intro vs
  induction vs with
  | nil => intro st _; rfl
  | cons v vs ih =>
    intro st hv
    rw [List.foldl_cons, ih _ (fun w hw => hv w (by simp [hw])), tick_voice _ _ _ _ (hv v (by simp))]
    unfold endOr
    rw [List.flatMap_cons, List.getLast?_append]
    cases (vs.flatMap (·.2)).getLast? <;> rfl

theorem waiting_of_met {s : StaffData P} {v : Int × List (NoteData P)} {vs} (hvs : s.voices = v :: vs) {ts : List Int} (hs : ts.Pairwise (· ≤ ·)) (h : ∀ t ∈ ts, TimeMet s t) : Waiting [] v.2 ts := by
  refine ⟨hs, by simp, ?_⟩
  intro x hx b n a e hb hle
  rw [List.nil_append] at e
  rcases h x hx with ⟨w, hw, before, m, after, e2, h2, h3⟩ | ⟨h2, _⟩
  · rw [hvs] at hw
    simp only [List.head?_cons, Option.mem_def, Option.some.injEq] at hw
    subst hw
    rw [e] at e2
    rcases List.append_eq_append_iff.mp e2 with ⟨c, hc1, hc2⟩ | ⟨c, hc1, hc2⟩
    · cases c with
      | nil => simp at hc2; rw [hc2.1]; exact h2.symm
      | cons y ys =>
        simp at hc2
        have := h3 n (by rw [hc1, hc2.1]; simp)
        omega
    · cases c with
      | nil => simp at hc2; rw [← hc2.1]; exact h2.symm
      | cons y ys =>
        simp at hc2
        have := hb m (by rw [hc1, hc2.1]; simp)
        omega
  · have := h2 v (by rw [hvs]; simp) n (by rw [e]; simp)
    omega

/-- All voices of a staff: what is left is due at the end of the last voice. -/
theorem keys_all {G : Int} (hG : 0 < G) {c0 : Clock} (numStaves staffIndex : Int) (s : StaffData P) (st : WSt P) (hv : ∀ v ∈ s.voices, VoiceOk v.2)
    (hs1 : (st.keys.map (·.tick)).Pairwise (· ≤ ·)) (hs2 : (st.mkeys.map (·.tick)).Pairwise (· < ·)) (hmet : ∀ t ∈ st.keys.map (·.tick) ++ st.mkeys.map (·.tick), TimeMet s t) (ha : AtCursor G c0 st) :
    let st' := s.voices.foldl (fun s v => writeVoice numStaves staffIndex v s) st
    totalK G staffIndex c0 st' = totalK G staffIndex c0 st ∧ st'.mkeys.Sublist st.mkeys ∧ ∀ t ∈ st'.keys.map (·.tick) ++ st'.mkeys.map (·.tick), st'.tick = t := by
  simp only
  cases hvs : s.voices with
  | nil =>
    refine ⟨rfl, List.Sublist.refl _, ?_⟩
    intro t ht
    rcases hmet t ht with ⟨v, hv', _⟩ | ⟨_, n, hn, _⟩
    · rw [hvs] at hv'; cases hv'
    · rw [hvs] at hn; cases hn
  | cons v vs =>
    have hv1 := hv v (by rw [hvs]; simp)
    obtain ⟨_, h2⟩ := clock_voice hG (c0 := c0) numStaves staffIndex v st hv1 ha
    obtain ⟨g1, g2, g3, g4⟩ := keys_voice hG (c0 := c0) numStaves staffIndex v st hv1
      (waiting_of_met hvs hs1 (fun t ht => hmet t (List.mem_append_left _ ht)))
      (waiting_of_met hvs (hs2.imp (fun h => le_of_lt h)) (fun t ht => hmet t (List.mem_append_right _ ht))) hs2 ha
    have hsub : ∀ t ∈ (writeVoice numStaves staffIndex v st).keys.map (·.tick) ++ (writeVoice numStaves staffIndex v st).mkeys.map (·.tick),
        TimeMet s t ∧ ∀ p ∈ v.2, p.tick < t := by
      intro t ht
      rcases List.mem_append.mp ht with ht | ht
      · exact ⟨hmet t (List.mem_append_left _ ((g2.1.map _).subset ht)), g3.after t ht⟩
      · exact ⟨hmet t (List.mem_append_right _ ((g2.2.map _).subset ht)), g4.after t ht⟩
    have hend : ∀ t ∈ (writeVoice numStaves staffIndex v st).keys.map (·.tick) ++ (writeVoice numStaves staffIndex v st).mkeys.map (·.tick),
        (∀ v ∈ s.voices, ∀ n ∈ v.2, n.tick < t) ∧ ∃ n ∈ (s.voices.flatMap (·.2)).getLast?, n.tick + n.ticks = t := by
      intro t ht
      obtain ⟨h3, h4⟩ := hsub t ht
      rcases h3 with ⟨w, hw, before, m, after, e2, h5, _⟩ | h
      · rw [hvs] at hw
        simp only [List.head?_cons, Option.mem_def, Option.some.injEq] at hw
        subst hw
        have := h4 m (by rw [e2]; simp)
        omega
      · exact h
    simp only [List.foldl_cons]
    obtain ⟨i1, i2, i3⟩ := keys_voices hG (c0 := c0) numStaves staffIndex vs _ (fun w hw => hv w (by rw [hvs]; simp [hw])) (hs1.sublist (g2.1.map _)) (hs2.sublist (g2.2.map _))
      (fun t ht w hw => (hend t ht).1 w (by rw [hvs]; simp [hw])) h2
    refine ⟨by rw [i1, g1], i3.trans g2.2, ?_⟩
    intro t ht
    obtain ⟨n, hn, he⟩ := (hend t (by
      rcases List.mem_append.mp ht with ht | ht
      · exact List.mem_append_left _ ((i2.map _).subset ht)
      · exact List.mem_append_right _ ((i3.map _).subset ht))).2
    have := tick_voices numStaves staffIndex (v :: vs) st (fun w hw => hv w (by rw [hvs]; exact hw))
    rw [List.foldl_cons] at this
    rw [this, endOr, ← hvs, hn]
    exact he

theorem keys_staff {G : Int} (hG : 0 < G) {c0 : Clock} (numStaves staffIndex : Int) (s : StaffData P) (st : WSt P)
    (hv : ∀ v ∈ s.voices, VoiceOk v.2) (hs1 : s.keys.Pairwise (fun a b => a.tick ≤ b.tick)) (hm1 : ∀ k ∈ s.keys, TimeMet s k.tick)
    (hs2 : st.mkeys.Pairwise (fun a b => a.tick < b.tick)) (hm2 : ∀ k ∈ st.mkeys, TimeMet s k.tick ∧ k.tick ≠ 0) (ha : AtCursor G c0 st) :
    (placedK c0 (writeVoices numStaves staffIndex s st) : Multiset (PlacedKey P)) =
      (placedK c0 st : Multiset (PlacedKey P)) + (st.mkeys.map (expectedKey G (-1)) : Multiset (PlacedKey P)) + (s.keys.map (expectedKey G staffIndex) : Multiset (PlacedKey P)) ∧
    (writeVoices numStaves staffIndex s st).mkeys = [] := by
  unfold writeVoices
  simp only
  generalize hst0 : ({ st with clefs := s.clefs.dropWhile (fun x => decide (x.tick = 0)), keys := s.keys, dirs := s.directions } : WSt P) = st0
  have ha0 : AtCursor G c0 st0 := by rw [← hst0]; exact ha
  have hk0 : st0.keys = s.keys ∧ st0.mkeys = st.mkeys := by rw [← hst0]; exact ⟨rfl, rfl⟩
  have htot0 : totalK G staffIndex c0 st0 = (placedK c0 st : Multiset (PlacedKey P)) + (st.mkeys.map (expectedKey G (-1)) : Multiset (PlacedKey P)) + (s.keys.map (expectedKey G staffIndex) : Multiset (PlacedKey P)) := by
    rw [← hst0]; rfl
  obtain ⟨m1, m2, m3⟩ := keys_all hG (c0 := c0) numStaves staffIndex s st0 hv (by rw [hk0.1, List.pairwise_map]; exact hs1) (by rw [hk0.2, List.pairwise_map]; exact hs2) (by
    intro t ht
    rw [hk0.1, hk0.2] at ht
    rcases List.mem_append.mp ht with ht | ht
    · obtain ⟨k, hk, rfl⟩ := List.mem_map.mp ht; exact hm1 k hk
    · obtain ⟨k, hk, rfl⟩ := List.mem_map.mp ht; exact (hm2 k hk).1) ha0
  simp only at m1 m2 m3
  obtain ⟨_, ha2⟩ := clock_voices hG (c0 := c0) numStaves staffIndex s.voices st0 hv ha0
  rw [← htot0, ← m1]
  rw [hk0.2] at m2
  generalize s.voices.foldl (fun s v => writeVoice numStaves staffIndex v s) st0 = st2 at m2 m3 ha2
  obtain ⟨t3, d3, e3⟩ := placedK_directions (c0 := c0) { numStaves := numStaves, staffIndex := staffIndex, voiceIndex := 0 } none none none st2
  obtain ⟨ys, es, hq, _⟩ := quiet_writeDirections { numStaves := numStaves, staffIndex := staffIndex, voiceIndex := 0 } none none none st2
  have ha3 := (atCursor_quiet hG hq ha2).1
  have k3 := hq.tick
  have hT : totalK G staffIndex c0 (writeDirections { numStaves := numStaves, staffIndex := staffIndex, voiceIndex := 0 } none none none st2) = totalK G staffIndex c0 st2 := by
    unfold totalK; rw [t3, d3, e3]
  rw [← hT]
  rw [← d3, ← e3, ← k3] at m3
  rw [← e3] at m2
  generalize writeDirections { numStaves := numStaves, staffIndex := staffIndex, voiceIndex := 0 } none none none st2 = st3 at m2 m3 ha3
  have hone : st3.mkeys = [] ∨ ∃ k, st3.mkeys = [k] ∧ k.tick ≠ 0 ∧ k.tick = st3.tick := by
    cases h : st3.mkeys with
    | nil => exact .inl rfl
    | cons a as =>
      right
      rw [h] at m2 m3
      have hp := hs2.sublist m2
      rw [List.pairwise_cons] at hp
      cases as with
      | nil => exact ⟨a, rfl, (hm2 a (m2.subset (by simp))).2, (m3 a.tick (by simp)).symm⟩
      | cons b bs =>
        have h1 := hp.1 b (by simp)
        have h2 := m3 a.tick (by simp)
        have h3 := m3 b.tick (by simp)
        omega
  have hkeys : st3.keys.map (fun k => ((runClock c0 st3.out).pos, (if 0 ≤ staffIndex then some staffIndex else none), k.isTraditional, k.content)) = st3.keys.map (expectedKey G staffIndex) := by
    apply List.map_congr_left
    intro k hk
    have := m3 k.tick (List.mem_append_left _ (List.mem_map_of_mem hk))
    simp [expectedKey, ha3.2.1, this]
  unfold writeRemaining
  split
  · simp only
    rw [placedK_flush, (flush_keys _).2.2]
    unfold totalK
    rcases hone with hone | ⟨k, hone, hk1, hk2⟩
    · simp only [writeRemainingMeasureKey, hone]
      refine ⟨?_, trivial⟩
      unfold placedK
      simp only
      rw [fold_writeKey, fold_writeClef]
      simp only
      rw [List.map_append, List.map_map]
      have hc : (keyAt (runClock c0 st3.out).pos ∘ keyOut staffIndex) = fun k : KeyData P => ((runClock c0 st3.out).pos, (if 0 ≤ staffIndex then some staffIndex else none), k.isTraditional, k.content) := by
        funext k; exact keyAt_out _ _ _
      rw [hc, hkeys]
      simp only [← Multiset.coe_add, List.map_nil, Multiset.coe_nil, add_zero]
      exact (by intros; ac_rfl : ∀ a b c : Multiset (PlacedKey P), a + (b + c) = a + b + c) _ _ _
    · simp only [writeRemainingMeasureKey, hone, ne_eq, hk1, not_false_eq_true, if_true]
      refine ⟨?_, trivial⟩
      unfold placedK
      simp only
      rw [fold_writeKey, fold_writeClef]
      simp only [writeKey]
      rw [List.map_append, List.map_append, List.map_map]
      have hc : (keyAt (runClock c0 st3.out).pos ∘ keyOut staffIndex) = fun k : KeyData P => ((runClock c0 st3.out).pos, (if 0 ≤ staffIndex then some staffIndex else none), k.isTraditional, k.content) := by
        funext k; exact keyAt_out _ _ _
      have hk : [keyAt (runClock c0 st3.out).pos ({ number := if (-1 : Int) ≥ 0 then some (-1 + 1) else none, isTraditional := k.isTraditional, content := k.content } : KeyElem P)] = [k].map (expectedKey G (-1)) := by
        simp [keyAt, expectedKey, ha3.2.1, hk2]
      rw [hc, hkeys, List.map_singleton, hk]
      simp only [← Multiset.coe_add]
      exact (by intros; ac_rfl : ∀ a b c d : Multiset (PlacedKey P), a + (b + c + d) = a + b + c + d) _ _ _ _
  · rename_i h
    have : st3.keys = [] ∧ st3.mkeys = [] := by
      simp only [Bool.or_eq_true, not_or, Bool.not_eq_true', Bool.not_eq_false, List.isEmpty_iff] at h
      exact ⟨h.2, h.1.2⟩
    unfold totalK
    rw [this.1, this.2]
    simp

theorem keys_staves {G : Int} (hG : 0 < G) {c0 : Clock} (numStaves : Int) : ∀ (ss : List (StaffData P)) (i : Int) (st : WSt P),
    (∀ s ∈ ss, ∀ v ∈ s.voices, VoiceOk v.2) → (∀ s ∈ ss, s.keys.Pairwise (fun a b => a.tick ≤ b.tick) ∧ ∀ k ∈ s.keys, TimeMet s k.tick) →
    st.mkeys.Pairwise (fun a b => a.tick < b.tick) → (∀ k ∈ st.mkeys, (∃ s ∈ ss.head?, TimeMet s k.tick) ∧ k.tick ≠ 0) → AtCursor G c0 st →
    (placedK c0 (writeStavesFrom numStaves i ss st) : Multiset (PlacedKey P)) =
      (placedK c0 st : Multiset (PlacedKey P)) + (st.mkeys.map (expectedKey G (-1)) : Multiset (PlacedKey P)) + (expectedStaffKeys G i ss : Multiset (PlacedKey P)) := by
  intro ss
  induction ss with
  | nil =>
    intro i st _ _ _ hm _
    have : st.mkeys = [] := by
      cases h : st.mkeys with
      | nil => rfl
      | cons k ks =>
        obtain ⟨⟨s, hs, _⟩, _⟩ := hm k (by rw [h]; simp)
        cases hs
    simp [writeStavesFrom, expectedStaffKeys, this]
  | cons s rest ih =>
    intro i st hv hk hs2 hm ha
    obtain ⟨_, h2⟩ := clock_staff hG (c0 := c0) numStaves i s st (hv s (by simp)) ha
    obtain ⟨h1, h3⟩ := keys_staff hG (c0 := c0) numStaves i s st (hv s (by simp)) (hk s (by simp)).1 (hk s (by simp)).2 hs2 (by
      intro k hk'
      obtain ⟨⟨w, hw, ht⟩, h0⟩ := hm k hk'
      simp only [List.head?_cons, Option.mem_def, Option.some.injEq] at hw
      subst hw
      exact ⟨ht, h0⟩) ha
    simp only [writeStavesFrom, expectedStaffKeys]
    rw [ih (i + 1) _ (fun w hw => hv w (by simp [hw])) (fun w hw => hk w (by simp [hw])) (by rw [h3]; exact .nil) (by rw [h3]; simp) h2, h1, h3]
    simp only [List.map_nil, Multiset.coe_nil, add_zero, ← Multiset.coe_add]
    ac_rfl

theorem keys_measure {G : Int} (hG : 0 < G) (env : WEnv) (m : MeasureData P) (d : ℚ) (hg : env.ticksPerQuarter = G)
    (hd : env.isFirstMeasureInPart = false → d = G) (hv : MeasureOk m) (hk : KeysMet m) :
    (placedKeys (Clock.init d) (writeMeasure env m)).Perm (expectedKeys G m) := by
  obtain ⟨hk1, hk2, hk3⟩ := hk
  unfold writeMeasure
  simp only
  have hquiet0 : ∀ e ∈ ((m.barlines.takeWhile (fun b => b.tick ≤ 0)).map barlineElem ++
      List.replicate env.printElements (Elem.other : Elem P)), e.isQuiet = true ∧ e.keyElems = [] ∧ e.divisions? = none := by
    intro e he
    rcases List.mem_append.mp he with h | h
    · obtain ⟨b, _, rfl⟩ := List.mem_map.mp h; exact ⟨rfl, rfl, rfl⟩
    · rw [(List.mem_replicate.mp h).2]; exact ⟨rfl, rfl, rfl⟩
  have hnodiv : ((m.barlines.takeWhile (fun b => b.tick ≤ 0)).map barlineElem ++
      List.replicate env.printElements (Elem.other : Elem P)).filterMap Elem.divisions? = [] := by
    rw [List.filterMap_eq_nil_iff]
    exact fun e he => (hquiet0 e he).2.2
  have hnokey : ((m.barlines.takeWhile (fun b => b.tick ≤ 0)).map barlineElem ++
      List.replicate env.printElements (Elem.other : Elem P)).flatMap Elem.keyElems = [] := by
    rw [List.flatMap_eq_nil_iff]
    exact fun e he => (hquiet0 e he).2.1
  obtain ⟨r1, r2, r3, _⟩ := runClock_quiet (fun e he => (hquiet0 e he).1) (Clock.init d)
  have ha : AtCursor G (Clock.init d)
      { tick := 0, prevChord := false, dirs := [], clefs := [], keys := [], mkeys := m.keys.dropWhile (fun k => k.tick = 0)
        buf := globals env m
        out := (m.barlines.takeWhile (fun b => b.tick ≤ 0)).map barlineElem ++ List.replicate env.printElements Elem.other } := by
    refine ⟨?_, ?_, by simp⟩
    · unfold DivOk
      simp only
      rw [globals_divisions, hg]
      cases hfm : env.isFirstMeasureInPart with
      | true => left; simp [durMicro, hG]
      | false =>
        right
        refine ⟨by simp, ?_⟩
        rw [r3 hnodiv, Clock.init, hd hfm]
    · simp only; rw [r1]; simp [Clock.init]
  have hpos : ∀ k ∈ m.keys.dropWhile (fun k => decide (k.tick = 0)), 0 < k.tick := by
    have e : ∀ l : List (KeyData P), (∀ k ∈ l, 0 ≤ k.tick) → l.dropWhile (fun k => decide (k.tick = 0)) = l.dropWhile (fun k => decide (k.tick ≤ 0)) := by
      intro l h0
      induction l with
      | nil => rfl
      | cons a l ih =>
        have ha := h0 a (by simp)
        rw [List.dropWhile_cons, List.dropWhile_cons, ih (fun x hx => h0 x (by simp [hx]))]
        by_cases h : a.tick = 0
        · simp [h]
        · simp only [h, decide_false, Bool.false_eq_true, if_false]
          rw [if_neg (by simp; omega)]
    rw [e _ (fun k hk => (hk2 k hk).1)]
    exact ticks_dropWhile (by rw [List.pairwise_map]; exact hk1.imp (fun h => h.1))
  have hstrict : (m.keys.dropWhile (fun k => decide (k.tick = 0))).Pairwise (fun a b => a.tick < b.tick) :=
    (hk1.sublist (List.dropWhile_sublist _)).imp_of_mem (fun {a b} _ hb h => h.2 (hpos b hb))
  have hmem : ∀ k ∈ m.keys.dropWhile (fun k => decide (k.tick = 0)), k ∈ m.keys := fun k hk => (List.dropWhile_sublist _).subset hk
  have g1 := keys_staves hG env.numStaves m.staves 0 _ hv hk3 hstrict (fun k hk => ⟨((hk2 k (hmem k hk)).2 (hpos k hk)).2, by have := hpos k hk; omega⟩) ha
  have g0 : placedK (Clock.init d)
      { tick := 0, prevChord := false, dirs := [], clefs := [], keys := [], mkeys := m.keys.dropWhile (fun k => k.tick = 0)
        buf := globals env m
        out := (m.barlines.takeWhile (fun b => b.tick ≤ 0)).map barlineElem ++ List.replicate env.printElements Elem.other } =
      (m.keys.takeWhile (fun k => k.tick = 0)).map (fun k => expectedKey G k.staffIndex k) := by
    unfold placedK
    simp only
    rw [placedKeys_none hnokey, r1, globals_eq]
    simp only [Clock.init, List.nil_append, List.map_map]
    apply List.map_congr_left
    intro k hk
    have h0 : k.tick = 0 := by simpa using mem_takeWhile' hk
    rw [Function.comp, keyAt_out, expectedKey, h0]
    simp
  have glater : (m.keys.dropWhile (fun k => decide (k.tick = 0))).map (expectedKey G (-1)) = (m.keys.dropWhile (fun k => decide (k.tick = 0))).map (fun k => expectedKey G k.staffIndex k) := by
    apply List.map_congr_left
    intro k hk
    have := ((hk2 k (hmem k hk)).2 (hpos k hk)).1
    simp only [expectedKey]
    rw [if_neg (by omega), if_neg (by omega)]
  rw [g0] at g1
  simp only [glater] at g1
  rw [← Multiset.coe_eq_coe, expectedKeys, ← List.takeWhile_append_dropWhile (p := fun k : KeyData P => decide (k.tick = 0)) (l := m.keys), List.map_append, ← Multiset.coe_add, ← Multiset.coe_add,
    List.takeWhile_append_dropWhile, ← g1, ← placedK_flush, placedKeys_append, placedK, flush_buf, placedKeys_none (xs := List.map barlineElem _)]
  · simp
  · rw [List.flatMap_eq_nil_iff]
    intro e he
    obtain ⟨b, _, rfl⟩ := List.mem_map.mp he; rfl

end Mx.Measure
