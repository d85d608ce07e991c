import Verif.Model.MeasureOverflow
import Verif.Spec.MeasureOverflow
import Verif.Proofs.MeasureReaderRounding

/-! No overflow. -/
namespace Mx.Measure
open Spec

variable {P : Type}

theorem need_ok {xs : List Int} (h : ∀ x ∈ xs, InInt x) : need xs = .ok () := if_pos h

theorem inInt {x : Int} (h1 : -2147483648 ≤ x) (h2 : x ≤ 2147483647) : InInt x := ⟨h1, h2⟩

/-! ### Writing -/

theorem flushO_tick (st : WSt P) : (flush st).tick = st.tick := by unfold flush; split <;> rfl
theorem flushO_dirs (st : WSt P) : (flush st).dirs = st.dirs := by unfold flush; split <;> rfl

theorem writeDirection_tick (c : WCtx) (d : DirectionData P) (st : WSt P) : (writeDirection c d st).tick = st.tick := by
  simp only [writeDirection, flushO_tick]

theorem foldl_direction_tick (c : WCtx) : ∀ (ds : List (DirectionData P)) (st : WSt P), (ds.foldl (fun s d => writeDirection c d s) st).tick = st.tick
  | [], _ => rfl
  | d :: ds, st => by rw [List.foldl_cons, foldl_direction_tick c ds, writeDirection_tick]

theorem writeDirections_tick (c : WCtx) (prev cur next : Option (NoteData P)) (st : WSt P) : (writeDirections c prev cur next st).tick = st.tick := by
  unfold writeDirections
  split
  · simp only [writeDirectionsWhile, foldl_direction_tick]
  · simp only
    split
    · simp only [writeDirectionsWhile, foldl_direction_tick]
    · split
      · rfl
      · simp only [writeDirectionsWhile, foldl_direction_tick]

theorem mem_dropWhile {α : Type} {p : α → Bool} : ∀ {l : List α} {x : α}, x ∈ l.dropWhile p → x ∈ l
  | _ :: _, x, h => (List.dropWhile_sublist p).subset h

theorem writeDirections_dirs (c : WCtx) (prev cur next : Option (NoteData P)) (st : WSt P) : ∀ d ∈ (writeDirections c prev cur next st).dirs, d ∈ st.dirs := by
  unfold writeDirections
  intro d
  split
  · simp only [writeDirectionsWhile]; exact mem_dropWhile
  · simp only
    split
    · simp only [writeDirectionsWhile]; exact mem_dropWhile
    · split
      · exact id
      · simp only [writeDirectionsWhile]; exact mem_dropWhile

theorem dueDirections_dirs (prev cur next : Option (NoteData P)) (st : WSt P) : ∀ d ∈ dueDirections prev cur next st, d ∈ st.dirs := by
  unfold dueDirections
  intro d
  split
  · exact id
  · split
    · exact fun h => (List.takeWhile_sublist _).subset h
    · split
      · simp
      · exact fun h => (List.takeWhile_sublist _).subset h

/-- The state of the writer between two notes. -/
def Good (st : WSt P) : Prop := 0 ≤ st.tick ∧ st.tick ≤ LAST_TIME ∧ ∀ d ∈ st.dirs, 0 ≤ d.tick ∧ d.tick ≤ INT_MAX

theorem writeDirectionsR_ok {c : WCtx} {prev cur next : Option (NoteData P)} {st : WSt P} (h : Good st) (hc : ∀ n, cur = some n → st.tick + max n.ticks 0 ≤ INT_MAX) :
    writeDirectionsR c prev cur next st = .ok (writeDirections c prev cur next st) ∧ Good (writeDirections c prev cur next st) := by
  obtain ⟨h1, h2, h3⟩ := h
  refine ⟨?_, by rw [writeDirections_tick]; exact h1, by rw [writeDirections_tick]; exact h2, fun d hd => h3 d (writeDirections_dirs _ _ _ _ _ d hd)⟩
  unfold writeDirectionsR
  rw [need_ok, need_ok]
  · rfl
  · intro x hx
    obtain ⟨d, hd, rfl⟩ := List.mem_map.mp hx
    have := h3 d (dueDirections_dirs _ _ _ _ d hd)
    simp only [INT_MAX, LAST_TIME] at *
    exact inInt (by omega) (by omega)
  · intro x hx
    unfold endTimeInts at hx
    split at hx
    · simp at hx
    · rename_i n
      have := hc n rfl
      simp only [INT_MAX, LAST_TIME] at *
      split at hx
      · simp at hx
      · split at hx
        · simp at hx
        · simp only [List.mem_singleton] at hx
          subst hx
          exact inInt (by omega) (by omega)

theorem move_tick {n : NoteData P} {st : WSt P} (h0 : 0 ≤ n.tick) : (writeForwardOrBackupIfNeeded n st).tick = n.tick := by
  unfold writeForwardOrBackupIfNeeded
  simp only [flushO_tick]
  rw [if_neg (by omega)]
  split
  · rename_i h
    unfold backup
    simp only [flushO_tick]
    rw [if_neg (show ¬ st.tick - -1 * (n.tick - st.tick) < 0 by omega), if_neg (by omega)]
    simp only
    omega
  · split
    · simp only [forward, flushO_tick]; omega
    · rw [flushO_tick]; omega

theorem move_dirs {n : NoteData P} {st : WSt P} : (writeForwardOrBackupIfNeeded n st).dirs = st.dirs := by
  unfold writeForwardOrBackupIfNeeded
  simp only
  split
  · exact flushO_dirs st
  · split
    · unfold backup
      simp only
      split
      · split <;> exact flushO_dirs st
      · split <;> exact flushO_dirs st
    · split
      · exact flushO_dirs st
      · exact flushO_dirs st

theorem keysAndClefs_tick (c : WCtx) (st : WSt P) : (writeKeysAndClefs c st).tick = st.tick := by
  unfold writeKeysAndClefs
  rw [flushO_tick]
  simp only [writeDueKeys, writeDueClefs]
  unfold writeMeasureKey
  split
  · split <;> rfl
  · rfl

theorem keysAndClefs_dirs (c : WCtx) (st : WSt P) : (writeKeysAndClefs c st).dirs = st.dirs := by
  unfold writeKeysAndClefs
  rw [flushO_dirs]
  simp only [writeDueKeys, writeDueClefs]
  unfold writeMeasureKey
  split
  · split <;> rfl
  · rfl

theorem moveInts_ok {n : NoteData P} {tick : Int} (h0 : 0 ≤ n.tick) (h1 : n.tick ≤ LAST_TIME) (h2 : 0 ≤ tick) (h3 : tick ≤ LAST_TIME) : ∀ x ∈ moveInts n tick, InInt x := by
  unfold moveInts backupInts
  simp only [INT_MAX, LAST_TIME] at h1 h3
  rw [if_neg (by omega)]
  simp only
  intro x hx
  split at hx
  · rw [if_neg (by omega)] at hx
    simp only [List.mem_cons, List.not_mem_nil, or_false] at hx
    exact inInt (by omega) (by omega)
  · split at hx
    · simp only [List.mem_cons, List.not_mem_nil, or_false] at hx
      exact inInt (by omega) (by omega)
    · simp only [List.mem_singleton] at hx
      exact inInt (by omega) (by omega)

theorem writeNotesR_ok {c : WCtx} (hv : c.voiceIndex < INT_MAX) : ∀ (ns : List (NoteData P)) (isFirst : Bool) (t : Int) (prev : Option (NoteData P)) (st : WSt P), Good st →
    (∀ n ∈ ns, 0 ≤ n.tick ∧ n.tick + max n.ticks 0 ≤ LAST_TIME) →
    writeNotesR c isFirst t prev ns st = .ok (writeNotes c isFirst t prev ns st) ∧ Good (writeNotes c isFirst t prev ns st) := by
  intro ns
  induction ns with
  | nil => intro _ _ _ st h _; exact ⟨rfl, h⟩
  | cons n rest ih =>
    intro isFirst t prev st h hn
    obtain ⟨hn0, hn1⟩ := hn n (by simp)
    have hmax : n.tick ≤ LAST_TIME := by omega
    have g2 : Good (writeKeysAndClefs c (writeForwardOrBackupIfNeeded n st)) :=
      ⟨by rw [keysAndClefs_tick, move_tick hn0]; exact hn0, by rw [keysAndClefs_tick, move_tick hn0]; exact hmax, by rw [keysAndClefs_dirs, move_dirs]; exact h.2.2⟩
    obtain ⟨e3, g3⟩ := writeDirectionsR_ok (c := c) (prev := prev) (cur := some n) (next := rest.head?) g2 (by
      intro m hm
      simp only [Option.some.injEq] at hm
      subst hm
      rw [keysAndClefs_tick, move_tick hn0]
      simp only [INT_MAX, LAST_TIME] at *
      omega)
    have t3 : (writeDirections c prev (some n) rest.head? (writeKeysAndClefs c (writeForwardOrBackupIfNeeded n st))).tick = n.tick := by
      rw [writeDirections_tick, keysAndClefs_tick, move_tick hn0]
    simp only [writeNotesR, writeNotes]
    rw [need_ok (moveInts_ok hn0 hmax h.1 h.2.1), e3]
    simp only [bind, Except.bind]
    rw [need_ok (by
      intro x hx
      split at hx
      · simp only [List.mem_singleton] at hx
        subst hx
        simp only [INT_MAX, LAST_TIME] at hv
        exact inInt (by omega) (by omega)
      · simp at hx)]
    simp only [addNote, t3]
    rw [need_ok (by
      intro x hx
      unfold advanceInts at hx
      split at hx
      · simp only [List.mem_cons, List.not_mem_nil, or_false] at hx
        simp only [INT_MAX, LAST_TIME] at hn1
        exact inInt (by omega) (by omega)
      · simp at hx)]
    simp only
    refine ih _ _ _ _ ⟨?_, ?_, ?_⟩ (fun m hm => hn m (by simp [hm]))
    · simp only [advanceCursorIfNeeded, t3]
      split
      · simp only [INT_MAX, LAST_TIME] at *; omega
      · simp only [t3]; exact hn0
    · simp only [advanceCursorIfNeeded, t3]
      split
      · simp only [INT_MAX, LAST_TIME] at *; omega
      · simp only [t3]; exact hmax
    · unfold advanceCursorIfNeeded
      intro d hd
      refine g3.2.2 d ?_
      split at hd <;> exact hd

theorem writeVoiceR_ok {numStaves i : Int} {v : Int × List (NoteData P)} {st : WSt P} (h : Good st) (hv : v.1 < INT_MAX) (hn : ∀ n ∈ v.2, 0 ≤ n.tick ∧ n.tick + max n.ticks 0 ≤ LAST_TIME) :
    writeVoiceR numStaves i v st = .ok (writeVoice numStaves i v st) ∧ Good (writeVoice numStaves i v st) := by
  simp only [writeVoiceR, writeVoice]
  obtain ⟨e1, g1⟩ := writeDirectionsR_ok (c := { numStaves := numStaves, staffIndex := i, voiceIndex := v.1 }) (prev := none) (cur := v.2.head?) (next := v.2.tail.head?) h (by
    intro n hc
    have := hn n (List.mem_of_mem_head? hc)
    have := h.2.1
    simp only [INT_MAX, LAST_TIME] at *
    omega)
  obtain ⟨e2, g2⟩ := writeNotesR_ok (c := { numStaves := numStaves, staffIndex := i, voiceIndex := v.1 }) hv v.2 true (-2) none _ g1 hn
  obtain ⟨e3, g3⟩ := writeDirectionsR_ok (c := { numStaves := numStaves, staffIndex := i, voiceIndex := v.1 }) (prev := v.2.getLast?) (cur := none) (next := none) g2 (by simp)
  rw [e1]
  simp only [bind, Except.bind]
  rw [e2]
  exact ⟨e3, g3⟩

theorem writeVoiceListR_ok {numStaves i : Int} : ∀ (vs : List (Int × List (NoteData P))) (st : WSt P), Good st → (∀ v ∈ vs, v.1 < INT_MAX ∧ ∀ n ∈ v.2, 0 ≤ n.tick ∧ n.tick + max n.ticks 0 ≤ LAST_TIME) →
    writeVoiceListR numStaves i vs st = .ok (vs.foldl (fun s v => writeVoice numStaves i v s) st) ∧ Good (vs.foldl (fun s v => writeVoice numStaves i v s) st)
  | [], _, h, _ => ⟨rfl, h⟩
  | v :: vs, st, h, hv => by
    obtain ⟨e, g⟩ := writeVoiceR_ok (numStaves := numStaves) (i := i) h (hv v (by simp)).1 (hv v (by simp)).2
    simp only [writeVoiceListR, List.foldl_cons, e, bind, Except.bind]
    exact writeVoiceListR_ok vs _ g (fun w hw => hv w (by simp [hw]))

theorem remaining_good {i : Int} {st : WSt P} (h : Good st) : Good (writeRemaining i st) := by
  have hm : ∀ s : WSt P, (writeRemainingMeasureKey s).tick = s.tick ∧ (writeRemainingMeasureKey s).dirs = s.dirs := by
    intro s
    unfold writeRemainingMeasureKey
    split
    · split <;> exact ⟨rfl, rfl⟩
    · exact ⟨rfl, rfl⟩
  unfold writeRemaining
  split
  · simp only
    unfold Good
    rw [flushO_tick, flushO_dirs]
    simp only [(hm _).1, (hm _).2]
    exact h
  · exact h

theorem writeVoicesR_ok {numStaves i : Int} {s : StaffData P} {st : WSt P} (h0 : 0 ≤ st.tick) (h1 : st.tick ≤ LAST_TIME) (hd : ∀ d ∈ s.directions, 0 ≤ d.tick ∧ d.tick ≤ INT_MAX)
    (hv : ∀ v ∈ s.voices, v.1 < INT_MAX ∧ ∀ n ∈ v.2, 0 ≤ n.tick ∧ n.tick + max n.ticks 0 ≤ LAST_TIME) :
    writeVoicesR numStaves i s st = .ok (writeVoices numStaves i s st) ∧ Good (writeVoices numStaves i s st) := by
  simp only [writeVoicesR, writeVoices]
  obtain ⟨e1, g1⟩ := writeVoiceListR_ok (numStaves := numStaves) (i := i) s.voices
    { st with clefs := s.clefs.dropWhile (fun x => x.tick = 0), keys := s.keys, dirs := s.directions } ⟨h0, h1, hd⟩ hv
  obtain ⟨e2, g2⟩ := writeDirectionsR_ok (c := { numStaves := numStaves, staffIndex := i, voiceIndex := 0 }) (prev := none) (cur := none) (next := none) g1 (by simp)
  rw [e1]
  simp only [bind, Except.bind]
  rw [e2]
  exact ⟨rfl, remaining_good g2⟩

theorem writeStavesFromR_ok {numStaves : Int} : ∀ (ss : List (StaffData P)) (i : Int) (st : WSt P), 0 ≤ i → i + ss.length ≤ INT_MAX → 0 ≤ st.tick → st.tick ≤ LAST_TIME →
    (∀ s ∈ ss, (∀ d ∈ s.directions, 0 ≤ d.tick ∧ d.tick ≤ INT_MAX) ∧ ∀ v ∈ s.voices, v.1 < INT_MAX ∧ ∀ n ∈ v.2, 0 ≤ n.tick ∧ n.tick + max n.ticks 0 ≤ LAST_TIME) →
    writeStavesFromR numStaves i ss st = .ok (writeStavesFrom numStaves i ss st)
  | [], _, _, _, _, _, _, _ => rfl
  | s :: ss, i, st, hi, hl, h0, h1, h => by
    obtain ⟨e, g⟩ := writeVoicesR_ok (numStaves := numStaves) (i := i) h0 h1 (h s (by simp)).1 (h s (by simp)).2
    simp only [List.length_cons] at hl
    simp only [writeStavesFromR, writeStavesFrom, e, bind, Except.bind]
    rw [need_ok (by
      intro x hx
      simp only [List.mem_singleton] at hx
      simp only [INT_MAX] at hl
      exact inInt (by omega) (by omega))]
    exact writeStavesFromR_ok ss (i + 1) _ (by omega) (by push_cast at hl; omega) g.1 g.2.1 (fun t ht => h t (by simp [ht]))

theorem writeMeasureR_ok (env : WEnv) (m : MeasureData P) (h : TimesFit m) : writeMeasureR env m = .ok (writeMeasure env m) := by
  simp only [writeMeasureR, writeMeasure]
  rw [writeStavesFromR_ok m.staves 0 _ (by omega) (by have := h.staves; omega) (by simp) (by simp [LAST_TIME])
    (fun s hs => ⟨h.direction s hs, fun v hv => ⟨h.voice s hs v hv, h.note s hs v hv⟩⟩)]
  rfl

/-! ### Reading -/

theorem converted_ok {C G d : Int} (hC : 0 < C) (hd : 0 ≤ d) (hG : 0 ≤ G) {B : ℚ} (hB : (d : ℚ) / 1000000 * (1 / (C : ℚ)) * G + 1 ≤ B) (hm : B ≤ 2147483647) :
    ∃ t, converted C G d = .ok t ∧ convertDuration C G d = some t ∧ 0 ≤ t ∧ (t : ℚ) ≤ (d : ℚ) / 1000000 * (1 / (C : ℚ)) * G + 1 / 2 := by
  obtain ⟨t, h1, h2⟩ := convert_near (G := G) (d := d) hC
  rw [abs_le] at h2
  have hCq : (0 : ℚ) < C := by exact_mod_cast hC
  have hdq : (0 : ℚ) ≤ d := by exact_mod_cast hd
  have hGq : (0 : ℚ) ≤ G := by exact_mod_cast hG
  have hx : 0 ≤ (d : ℚ) / 1000000 * (1 / (C : ℚ)) * G := mul_nonneg (mul_nonneg (div_nonneg hdq (by norm_num)) (div_nonneg (by norm_num) hCq.le)) hGq
  have ht0 : 0 ≤ t := by
    have : (-1 : ℚ) < t := by linarith
    have : (-1 : Int) < t := by exact_mod_cast this
    omega
  have ht1 : t ≤ 2147483647 := by
    have : (t : ℚ) ≤ 2147483647 := by linarith
    exact_mod_cast this
  refine ⟨t, ?_, h1, ht0, by linarith⟩
  unfold converted
  rw [h1]
  exact if_pos (inInt (by omega) ht1)

theorem roundMicro_near (o : Int) : |(roundMicro o : ℚ) - (o : ℚ) / 1000000| ≤ 1 / 2 := by
  obtain ⟨t, h1, h2⟩ := convert_near (C := 1) (G := 1) (d := o) (by decide)
  have : convertDuration 1 1 o = some (roundMicro o) := if_pos rfl
  rw [this, Option.some.injEq] at h1
  subst h1
  simpa using h2

/-- The state of the reader between two elements: `used` is what the elements in front of it add up to. -/
structure RGood (c : Clock) (used : ℚ) (st : RSt P) : Prop where
  divisions : 0 < st.ticksPerQuarter
  clock : c.division = 1 / (st.ticksPerQuarter : ℚ)
  tick : 0 ≤ st.tick ∧ (st.tick : ℚ) ≤ used
  voice : 0 ≤ st.voiceIndex ∧ (st.voiceIndex : ℚ) ≤ used

theorem noUndefined {α : Type} {o : Option α} : toRes o ≠ .error .undefined := by cases o <;> simp [toRes]

theorem readElemsR_ok {env : REnv} {G : Int} (hG : 0 < G) (hg : env.globalTicksPerQuarter = G) : ∀ (es : List (Elem P)) (c : Clock) (used : ℚ) (st : RSt P), RGood c used st →
    (∀ e ∈ es, Sensible e) → used + extent G c es ≤ 2147483647 → readElemsR env es st = toRes (readElems env false es st) := by
  intro es
  induction es with
  | nil => intro c used st _ _ _; rfl
  | cons e es ih =>
    intro c used st hr hs hu
    obtain ⟨hC, hclk, ⟨ht0, ht1⟩, hv0, hv1⟩ := hr
    have hs' : ∀ e ∈ es, Sensible e := fun x hx => hs x (by simp [hx])
    have hGq : (0 : ℚ) < G := by exact_mod_cast hG
    have hGn : 0 ≤ G := by omega
    have hCq : (0 : ℚ) < st.ticksPerQuarter := by exact_mod_cast hC
    have quart : ∀ d : Int, c.quarters d = (d : ℚ) / 1000000 * (1 / (st.ticksPerQuarter : ℚ)) := fun d => by unfold Clock.quarters; rw [hclk]
    have qpos : ∀ d : Int, 0 ≤ d → 0 ≤ c.quarters d * G := by
      intro d hd
      have hdq : (0 : ℚ) ≤ d := by exact_mod_cast hd
      rw [quart]
      exact mul_nonneg (mul_nonneg (div_nonneg hdq (by norm_num)) (div_nonneg (by norm_num) hCq.le)) hGq.le
    have hext : ∀ (fs : List (Elem P)) (c' : Clock), 0 ≤ c'.division → (∀ e ∈ fs, Sensible e) → 0 ≤ extent G c' fs := by
      intro fs
      induction fs with
      | nil => intro c' _ _; exact le_refl _
      | cons f fs ihf =>
        intro c' hc' hf
        have hf' : ∀ e ∈ fs, Sensible e := fun x hx => hf x (by simp [hx])
        have qp : ∀ d : Int, 0 ≤ d → 0 ≤ c'.quarters d * G := by
          intro d hd
          have hdq : (0 : ℚ) ≤ d := by exact_mod_cast hd
          unfold Clock.quarters
          exact mul_nonneg (mul_nonneg (div_nonneg hdq (by norm_num)) hc') hGq.le
        have hff := hf f (by simp)
        cases f with
        | note n =>
          have h1 := qp n.dur hff.1
          have h2 := ihf (c'.step (.note n)) (by simp only [Clock.step]; split <;> exact hc') hf'
          simp only [extent]; linarith
        | backup d =>
          have h1 := qp d hff
          have h2 := ihf (c'.step (P := P) (.backup d)) (by simp only [Clock.step]; exact hc') hf'
          simp only [extent]; linarith
        | forward d =>
          have h1 := qp d hff
          have h2 := ihf (c'.step (P := P) (.forward d)) (by simp only [Clock.step]; exact hc') hf'
          simp only [extent]; linarith
        | direction s o p =>
          have h1 := abs_nonneg (o : ℚ)
          have h2 := ihf c' hc' hf'
          have h3 : 0 ≤ |(o : ℚ)| / 1000000 := div_nonneg h1 (by norm_num)
          simp only [extent]; linarith
        | attributes a =>
          have h2 := ihf (c'.step (.attributes a)) (by
            simp only [Clock.step]
            cases hd : a.divisions with
            | none => exact hc'
            | some d =>
              obtain ⟨k, hk, -, rfl⟩ := hff d hd
              have : (0 : ℚ) < k := by exact_mod_cast hk
              simp only
              push_cast
              exact div_nonneg (by norm_num) (mul_nonneg this.le (by norm_num))) hf'
          simpa only [extent] using h2
        | barline l p => simpa only [extent] using ihf c' hc' hf'
        | other => simpa only [extent] using ihf c' hc' hf'
    have hc0 : 0 ≤ c.division := by rw [hclk]; exact div_nonneg (by norm_num) hCq.le
    -- one element
    have go : ∀ (c' : Clock) (used' : ℚ), parseElemR env (nextNoteIsChord false es) e st = toRes (parseElem env (nextNoteIsChord false es) e st) →
        (∀ st', parseElem env (nextNoteIsChord false es) e st = some st' → RGood c' used' st') → used' + extent G c' es ≤ 2147483647 →
        readElemsR env (e :: es) st = toRes (readElems env false (e :: es) st) := by
      intro c' used' h1 h2 h3
      simp only [readElemsR, readElems]
      rw [h1]
      cases hp : parseElem env (nextNoteIsChord false es) e st with
      | none => rfl
      | some st' =>
        simp only [toRes, bind, Except.bind, Option.bind_some]
        exact ih c' used' st' (h2 st' hp) hs' h3
    have he := hs e (by simp)
    cases e with
    | note n =>
      simp only [extent] at hu
      have hx := hext es (c.step (.note n)) (by simp only [Clock.step]; split <;> exact hc0) hs'
      have hdur : (if n.kind = .grace then 0 else n.dur) = n.dur := by
        split
        · rename_i hk; exact (he.2 hk).symm
        · rfl
      obtain ⟨t, hcv, hcd, h0, h1⟩ := converted_ok (d := n.dur) hC he.1 hGn (B := 2147483647) (by
        rw [← quart]
        have : (0 : ℚ) ≤ used := le_trans (by exact_mod_cast ht0) ht1
        linarith) (le_refl _)
      rw [← quart] at h1
      have htick : ((st.tick + t : Int) : ℚ) ≤ used + (c.quarters n.dur * G + 1) := by push_cast; linarith
      refine go (c.step (.note n)) (used + (c.quarters n.dur * G + 1)) ?_ ?_ (by linarith)
      · show parseNoteR env _ n st = _
        unfold parseNoteR
        rw [hdur, hg, hcv]
        simp only [bind, Except.bind]
        rw [need_ok]
        · rfl
        · intro x hx'
          split at hx'
          · simp only [List.mem_singleton] at hx'
            subst hx'
            have : ((st.tick + t : Int) : ℚ) ≤ 2147483647 := by linarith
            exact inInt (by omega) (by exact_mod_cast this)
          · simp at hx'
      · intro st' hst'
        simp only [parseElem, parseNote, hdur, hg, hcd, Option.bind_eq_bind, Option.bind_some] at hst'
        split at hst'
        · simp at hst'
        · simp only [Option.some.injEq] at hst'
          subst hst'
          have hq := qpos n.dur he.1
          refine ⟨hC, by simp only [Clock.step]; split <;> exact hclk, ?_, hv0, by simp only; linarith⟩
          simp only
          split
          · exact ⟨by omega, htick⟩
          · exact ⟨ht0, by linarith⟩
    | backup d =>
      simp only [extent] at hu
      have hx := hext es (c.step (P := P) (.backup d)) (by simp only [Clock.step]; exact hc0) hs'
      have hu0 : (0 : ℚ) ≤ used := le_trans (by exact_mod_cast ht0) ht1
      obtain ⟨t, hcv, hcd, h0, h1⟩ := converted_ok (d := d) hC he hGn (B := 2147483647) (by rw [← quart]; linarith) (le_refl _)
      rw [← quart] at h1
      have hq := qpos d he
      have hvi : st.voiceIndex + 1 ≤ 2147483647 := by
        have : ((st.voiceIndex + 1 : Int) : ℚ) ≤ 2147483647 := by push_cast; linarith
        exact_mod_cast this
      have hti : st.tick ≤ 2147483647 := by
        have : (st.tick : ℚ) ≤ 2147483647 := by linarith
        exact_mod_cast this
      have htt : t ≤ 2147483647 := by
        have : (t : ℚ) ≤ 2147483647 := by linarith
        exact_mod_cast this
      refine go (c.step (P := P) (.backup d)) (used + (c.quarters d * G + 1)) ?_ ?_ (by linarith)
      · show parseBackupR env d st = _
        unfold parseBackupR
        rw [need_ok, hg, hcv]
        · simp only [bind, Except.bind]
          rw [need_ok, need_ok]
          · rfl
          · intro x hx'
            split at hx'
            · simp only [List.mem_singleton] at hx'
              exact inInt (by omega) (by omega)
            · simp at hx'
          · intro x hx'
            simp only [List.mem_cons, List.not_mem_nil, or_false] at hx'
            exact inInt (by omega) (by omega)
        · intro x hx'
          split at hx'
          · simp at hx'
          · simp only [List.mem_singleton] at hx'
            exact inInt (by omega) (by omega)
      · intro st' hst'
        simp only [parseElem, parseBackup, hg, hcd, Option.bind_eq_bind, Option.bind_some, Option.some.injEq] at hst'
        subst hst'
        refine ⟨hC, by simp only [Clock.step]; exact hclk, ?_, ?_⟩
        · simp only
          split
          · exact ⟨by omega, by
              have e : st.tick + -1 * t + (st.tick + -1 * t) * -1 = 0 := by ring
              rw [e]; push_cast; linarith⟩
          · refine ⟨by omega, ?_⟩
            have : (0 : ℚ) ≤ t := by exact_mod_cast h0
            push_cast
            linarith
        · simp only
          split
          · exact ⟨hv0, by linarith⟩
          · exact ⟨by omega, by push_cast; linarith⟩
    | forward d =>
      simp only [extent] at hu
      have hx := hext es (c.step (P := P) (.forward d)) (by simp only [Clock.step]; exact hc0) hs'
      have hu0 : (0 : ℚ) ≤ used := le_trans (by exact_mod_cast ht0) ht1
      obtain ⟨t, hcv, hcd, h0, h1⟩ := converted_ok (d := d) hC he hGn (B := 2147483647) (by rw [← quart]; linarith) (le_refl _)
      rw [← quart] at h1
      have hq := qpos d he
      have htick : ((st.tick + t : Int) : ℚ) ≤ used + (c.quarters d * G + 1) := by push_cast; linarith
      refine go (c.step (P := P) (.forward d)) (used + (c.quarters d * G + 1)) ?_ ?_ (by linarith)
      · show parseForwardR env d st = _
        unfold parseForwardR
        rw [hg, hcv]
        simp only [bind, Except.bind]
        rw [need_ok]
        · rfl
        · intro x hx'
          simp only [List.mem_singleton] at hx'
          subst hx'
          have : ((st.tick + t : Int) : ℚ) ≤ 2147483647 := by linarith
          exact inInt (by omega) (by exact_mod_cast this)
      · intro st' hst'
        simp only [parseElem, parseForward, hg, hcd, Option.bind_eq_bind, Option.bind_some, Option.some.injEq] at hst'
        subst hst'
        exact ⟨hC, by simp only [Clock.step]; exact hclk, ⟨by simp only; omega, htick⟩, hv0, by simp only; linarith⟩
    | direction s o p =>
      simp only [extent] at hu
      have hx := hext es c hc0 hs'
      have hu0 : (0 : ℚ) ≤ used := le_trans (by exact_mod_cast ht0) ht1
      have hn := roundMicro_near o
      rw [abs_le] at hn
      have ho : (o : ℚ) / 1000000 ≤ |(o : ℚ)| / 1000000 := div_le_div_of_nonneg_right (le_abs_self _) (by norm_num)
      have ho' : -(|(o : ℚ)| / 1000000) ≤ (o : ℚ) / 1000000 := by
        rw [← neg_div]
        exact div_le_div_of_nonneg_right (neg_abs_le _) (by norm_num)
      have h3 : 0 ≤ |(o : ℚ)| / 1000000 := div_nonneg (abs_nonneg _) (by norm_num)
      have r1 : roundMicro o ≤ 2147483647 := by
        have : (roundMicro o : ℚ) ≤ 2147483647 := by linarith [hn.2]
        exact_mod_cast this
      have r2 : -2147483648 ≤ roundMicro o := by
        have : (-2147483648 : ℚ) ≤ (roundMicro o : ℚ) := by linarith [hn.1]
        exact_mod_cast this
      have r3 : st.tick + roundMicro o ≤ 2147483647 := by
        have : ((st.tick + roundMicro o : Int) : ℚ) ≤ 2147483647 := by push_cast; linarith [hn.2]
        exact_mod_cast this
      refine go c (used + (|(o : ℚ)| / 1000000 + 1)) ?_ ?_ (by linarith)
      · show parseDirectionR env s o p st = _
        unfold parseDirectionR
        rw [need_ok, need_ok]
        · rfl
        · intro x hx'
          simp only [List.mem_singleton] at hx'
          exact inInt (by omega) (by omega)
        · intro x hx'
          simp only [List.mem_singleton] at hx'
          exact inInt (by omega) (by omega)
      · intro st' hst'
        simp only [parseElem, parseDirection] at hst'
        split at hst'
        · simp at hst'
        · simp only [Option.some.injEq] at hst'
          subst hst'
          exact ⟨hC, hclk, ⟨ht0, by simp only; linarith⟩, hv0, by simp only; linarith⟩
    | attributes a =>
      simp only [extent] at hu
      refine go (c.step (.attributes a)) used ?_ ?_ hu
      · show parsePropertiesR env a st = _
        unfold parsePropertiesR
        rw [need_ok]
        · rfl
        · intro x hx'
          simp only [List.mem_map, Option.mem_toList, Option.mem_def] at hx'
          obtain ⟨d, hd, rfl⟩ := hx'
          obtain ⟨k, hk0, hk1, rfl⟩ := he d hd
          rw [show k * 1000000 = k * MICRO from rfl, roundMicro_mul]
          simp only [INT_MAX] at hk1
          exact inInt (by omega) hk1
      · intro st' hst'
        simp only [parseElem, parseProperties] at hst'
        split at hst'
        · simp at hst'
        · simp only [Option.some.injEq] at hst'
          subst hst'
          refine ⟨?_, ?_, ⟨ht0, ht1⟩, hv0, hv1⟩
          · simp only
            cases hd : a.divisions with
            | none => exact hC
            | some d =>
              obtain ⟨k, hk0, hk1, rfl⟩ := he d hd
              simp only
              rw [show k * 1000000 = k * MICRO from rfl, roundMicro_mul]
              exact hk0
          · simp only [Clock.step]
            cases hd : a.divisions with
            | none => exact hclk
            | some d =>
              obtain ⟨k, hk0, hk1, rfl⟩ := he d hd
              simp only
              rw [show k * 1000000 = k * MICRO from rfl, roundMicro_mul]
              have : (k : ℚ) ≠ 0 := by exact_mod_cast (by omega)
              simp only [MICRO]
              push_cast
              field_simp
    | barline l p =>
      simp only [extent] at hu
      exact go c used rfl (by
        intro st' hst'
        simp only [parseElem, Option.some.injEq] at hst'
        subst hst'
        exact ⟨hC, hclk, ⟨ht0, ht1⟩, hv0, hv1⟩) hu
    | other =>
      simp only [extent] at hu
      exact go c used rfl (by
        intro st' hst'
        simp only [parseElem, Option.some.injEq] at hst'
        subst hst'
        exact ⟨hC, hclk, ⟨ht0, ht1⟩, hv0, hv1⟩) hu

end Mx.Measure
