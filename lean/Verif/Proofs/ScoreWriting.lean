import Verif.Spec.ScoreWriting
import Verif.Props.DirectionProps

/-
Lemmas for C89.
-/
namespace Mx.Writing
open Mx.Spec Mx.Measure Mx.Directions Mx.Props

/-- A result that agrees with that of the model without exceptions, unless a direction with another tempo has been written. -/
def Outcome (r : Res (WSt Content)) (st s' : WSt Content) : Prop :=
  ∃ ds, st.dirs = ds ++ s'.dirs ∧ 0 ≤ s'.tick ∧
    (r = .error .undefined ∨ ((∃ d ∈ ds, OtherTempoIn d) → r = .error .throws) ∧ ((∀ d ∈ ds, ¬ OtherTempoIn d) → r = .ok s'))

theorem Outcome.rfl' {st : WSt Content} (h : 0 ≤ st.tick) : Outcome (.ok st) st st :=
  ⟨[], rfl, h, Or.inr ⟨by simp, fun _ => rfl⟩⟩

theorem Outcome.same {st s' : WSt Content} (hd : s'.dirs = st.dirs) (h : 0 ≤ s'.tick) : Outcome (.ok s') st s' :=
  ⟨[], by simp [hd], h, Or.inr ⟨by simp, fun _ => rfl⟩⟩

theorem Outcome.tick {r : Res (WSt Content)} {st s' : WSt Content} (h : Outcome r st s') : 0 ≤ s'.tick := by
  obtain ⟨_, _, h, _⟩ := h; exact h

theorem Outcome.bind {r : Res (WSt Content)} {f : WSt Content → Res (WSt Content)} {st s1 s2 : WSt Content} (h1 : Outcome r st s1) (h2 : Outcome (f s1) s1 s2) : Outcome (r >>= f) st s2 := by
  obtain ⟨d1, e1, t1, o1⟩ := h1
  obtain ⟨d2, e2, t2, o2⟩ := h2
  refine ⟨d1 ++ d2, by rw [e1, e2, List.append_assoc], t2, ?_⟩
  rcases o1 with rfl | ⟨a1, b1⟩
  · exact Or.inl rfl
  by_cases hb : ∃ d ∈ d1, OtherTempoIn d
  · rw [a1 hb]
    refine Or.inr ⟨fun _ => rfl, fun hn => ?_⟩
    obtain ⟨d, hd, hx⟩ := hb
    exact absurd hx (hn d (by simp [hd]))
  · have hg : ∀ d ∈ d1, ¬ OtherTempoIn d := fun d hd hx => hb ⟨d, hd, hx⟩
    rw [b1 hg]
    rcases o2 with o2 | ⟨a2, b2⟩
    · exact Or.inl o2
    refine Or.inr ⟨?_, ?_⟩
    · rintro ⟨d, hd, hx⟩
      rcases List.mem_append.mp hd with hd | hd
      · exact absurd hx (hg d hd)
      · exact a2 ⟨d, hd, hx⟩
    · intro hn
      exact b2 (fun d hd => hn d (by simp [hd]))

theorem Outcome.map {r : Res (WSt Content)} {f : WSt Content → WSt Content} {st s1 : WSt Content} (h1 : Outcome r st s1) (hd : (f s1).dirs = s1.dirs) (ht : 0 ≤ (f s1).tick) :
    Outcome (r >>= fun s => .ok (f s)) st (f s1) := h1.bind (f := fun s => .ok (f s)) (Outcome.same hd ht)

/-! ### one direction -/

theorem things_iff {i t : Int} {d : Directions.DirectionData} : getDirectionLikeThings i t d = .error .undefined ∨
    ((∃ x ∈ d.tempos, x.tempoType ≠ .beatsPerMinute) ∧ getDirectionLikeThings i t d = .error .throws) ∨
    ((∀ x ∈ d.tempos, ¬ x.tempoType ≠ .beatsPerMinute) ∧ ∃ r, getDirectionLikeThings i t d = .ok r) := by
  cases h : getDirectionLikeThings i t d with
  | error f =>
    cases f with
    | undefined => exact Or.inl rfl
    | throws => exact Or.inr (Or.inl ⟨C62_write_partial _ _ _ h, rfl⟩)
  | ok r =>
    refine Or.inr (Or.inr ⟨?_, r, rfl⟩)
    intro x hx hn
    unfold getDirectionLikeThings at h
    obtain ⟨_, _, h⟩ := bind_ok h
    obtain ⟨_, _, h⟩ := bind_ok h
    obtain ⟨_, h, _⟩ := bind_ok h
    unfold directionTypes at h
    obtain ⟨_, _, h⟩ := bind_ok h
    obtain ⟨_, _, h⟩ := bind_ok h
    obtain ⟨_, _, h⟩ := bind_ok h
    obtain ⟨_, _, h⟩ := bind_ok h
    obtain ⟨_, h, _⟩ := bind_ok h
    rw [tempos_throw ⟨x, hx, hn⟩] at h
    cases h

theorem directionE_iff {c : WCtx} {t : Int} {d : DirectionData Content} :
    directionE c t d = .error .undefined ∨ (OtherTempoIn d ∧ directionE c t d = .error .throws) ∨ (¬ OtherTempoIn d ∧ directionE c t d = .ok ()) := by
  unfold directionE OtherTempoIn
  cases hd : d.content with
  | none => exact Or.inr (Or.inr ⟨by simp, rfl⟩)
  | some x =>
    simp only [Option.some.injEq]
    rcases things_iff (i := c.staffIndex) (t := t) (d := { x with tickTimePosition := d.tick, isStaffValueSpecified := d.isStaffValueSpecified }) with h | ⟨h1, h⟩ | ⟨h1, r, h⟩
    · rw [h]; exact Or.inl rfl
    · rw [h]; exact Or.inr (Or.inl ⟨⟨x, rfl, h1⟩, rfl⟩)
    · rw [h]
      refine Or.inr (Or.inr ⟨?_, rfl⟩)
      rintro ⟨y, rfl, z, hz, hn⟩
      exact h1 z hz hn

theorem writeDirection_dirs {c : WCtx} {d : DirectionData Content} {st : WSt Content} : (writeDirection c d st).dirs = st.dirs ∧ (writeDirection c d st).tick = st.tick := by
  unfold writeDirection flush
  simp only
  split <;> exact ⟨rfl, rfl⟩

theorem fold_outcome {c : WCtx} : ∀ {l : List (DirectionData Content)} {st : WSt Content}, l.foldlM (writeDirectionE c) st = .error .undefined ∨
    ((∃ d ∈ l, OtherTempoIn d) → l.foldlM (writeDirectionE c) st = .error .throws) ∧
    ((∀ d ∈ l, ¬ OtherTempoIn d) → l.foldlM (writeDirectionE c) st = .ok (l.foldl (fun s d => writeDirection c d s) st)) := by
  intro l
  induction l with
  | nil => intro st; exact Or.inr ⟨by simp, fun _ => rfl⟩
  | cons d l ih =>
    intro st
    rw [List.foldlM_cons]
    rcases directionE_iff (c := c) (t := st.tick) (d := d) with h | ⟨hb, h⟩ | ⟨hg, h⟩
    · refine Or.inl ?_
      rw [writeDirectionE, h]
      rfl
    · refine Or.inr ⟨fun _ => ?_, fun hn => absurd hb (hn d (by simp))⟩
      rw [writeDirectionE, h]
      rfl
    · have e : writeDirectionE c st d = .ok (writeDirection c d st) := by rw [writeDirectionE, h]
      rw [e]
      rcases ih (st := writeDirection c d st) with o | ⟨a, b⟩
      · exact Or.inl o
      refine Or.inr ⟨?_, ?_⟩
      · rintro ⟨x, hx, hxb⟩
        rcases List.mem_cons.mp hx with rfl | hx
        · exact absurd hxb hg
        · exact a ⟨x, hx, hxb⟩
      · intro hn
        exact b (fun x hx => hn x (by simp [hx]))

theorem fold_tick {c : WCtx} : ∀ {l : List (DirectionData Content)} {st : WSt Content}, (l.foldl (fun s d => writeDirection c d s) st).tick = st.tick := by
  intro l
  induction l with
  | nil => intro st; rfl
  | cons d l ih => intro st; rw [List.foldl_cons, ih, writeDirection_dirs.2]

theorem while_outcome {c : WCtx} {p : Int → Bool} {st : WSt Content} (h : 0 ≤ st.tick) : Outcome (writeDirectionsWhileE c p st) st (writeDirectionsWhile c p st) := by
  refine ⟨st.dirs.takeWhile (fun d => p d.tick), ?_, ?_, ?_⟩
  · exact (List.takeWhile_append_dropWhile).symm
  · show 0 ≤ ((st.dirs.takeWhile (fun d => p d.tick)).foldl (fun s d => writeDirection c d s) st).tick
    rw [fold_tick]
    exact h
  · unfold writeDirectionsWhileE writeDirectionsWhile
    rcases fold_outcome (c := c) (l := st.dirs.takeWhile (fun d => p d.tick)) (st := st) with o | ⟨a, b⟩
    · rw [o]; exact Or.inl rfl
    · exact Or.inr ⟨fun hx => by rw [a hx]; rfl, fun hx => by rw [b hx]; rfl⟩

theorem directions_outcome {c : WCtx} {prev cur next : Option (NoteData Content)} {st : WSt Content} (h : 0 ≤ st.tick) :
    Outcome (writeDirectionsE c prev cur next st) st (writeDirections c prev cur next st) := by
  cases cur with
  | none => exact while_outcome h
  | some n =>
    simp only [writeDirectionsE, writeDirections]
    by_cases h1 : (!next.isNone && prev.isNone) = true
    · rw [if_pos h1, if_pos h1]; exact while_outcome h
    · rw [if_neg h1, if_neg h1]
      by_cases h2 : (n.isChord && !isLastNoteOfChord n next && isTickTimeSameAsPreviousNote prev n) = true
      · rw [if_pos h2, if_pos h2]; exact Outcome.rfl' h
      · rw [if_neg h2, if_neg h2]; exact while_outcome h

/-! ### moving -/

theorem flush_dirs {st : WSt Content} : (flush st).dirs = st.dirs ∧ (flush st).tick = st.tick := by
  unfold flush
  split <;> exact ⟨rfl, rfl⟩

theorem move_outcome {n : NoteData Content} {st : WSt Content} (h : 0 ≤ st.tick) : Outcome (moveE n st) st (writeForwardOrBackupIfNeeded n st) := by
  have hf := flush_dirs (st := st)
  unfold moveE writeForwardOrBackupIfNeeded
  simp only
  by_cases h1 : n.tick < 0
  · rw [if_pos h1, if_pos h1]; exact Outcome.same hf.1 (by rw [hf.2]; exact h)
  rw [if_neg h1, if_neg h1]
  by_cases h2 : n.tick - (flush st).tick < 0
  · rw [if_pos h2, if_pos h2]
    have ht : ¬ (flush st).tick < 0 := by rw [hf.2]; omega
    have hp : ¬ (flush st).tick - -1 * (n.tick - (flush st).tick) < 0 := by omega
    have hs : ¬ -1 * (n.tick - (flush st).tick) < 0 := by omega
    have hz : ¬ -1 * (n.tick - (flush st).tick) = 0 := by omega
    unfold backupE
    rw [if_neg ht]
    simp only
    rw [if_neg hp, if_neg hs]
    unfold backup
    simp only
    rw [if_neg hp, if_neg hz]
    refine Outcome.same hf.1 ?_
    show 0 ≤ (flush st).tick + -1 * (-1 * (n.tick - (flush st).tick))
    omega
  · rw [if_neg h2, if_neg h2]
    by_cases h3 : n.tick - (flush st).tick > 0
    · rw [if_pos h3, if_pos h3]
      refine Outcome.same hf.1 ?_
      show 0 ≤ (flush st).tick + (n.tick - (flush st).tick)
      omega
    · rw [if_neg h3, if_neg h3]
      exact Outcome.same hf.1 (by rw [hf.2]; exact h)

theorem keysAndClefs_dirs {c : WCtx} {st : WSt Content} : (writeKeysAndClefs c st).dirs = st.dirs ∧ (writeKeysAndClefs c st).tick = st.tick := by
  have hm : (writeMeasureKey st).dirs = st.dirs ∧ (writeMeasureKey st).tick = st.tick := by
    unfold writeMeasureKey
    split
    · split <;> exact ⟨rfl, rfl⟩
    · exact ⟨rfl, rfl⟩
  unfold writeKeysAndClefs
  rw [flush_dirs.1, flush_dirs.2]
  exact hm

theorem remaining_dirs {i : Int} {st : WSt Content} : (writeRemaining i st).dirs = st.dirs ∧ (writeRemaining i st).tick = st.tick := by
  unfold writeRemaining
  split
  · simp only
    rw [flush_dirs.1, flush_dirs.2]
    simp only [writeRemainingMeasureKey]
    split
    · split <;> exact ⟨rfl, rfl⟩
    · exact ⟨rfl, rfl⟩
  · exact ⟨rfl, rfl⟩

theorem advance_tick {n : NoteData Content} {next : Option (NoteData Content)} {st : WSt Content} (h : 0 ≤ st.tick) : 0 ≤ (advanceCursorIfNeeded n next st).tick := by
  unfold advanceCursorIfNeeded
  split
  · show 0 ≤ max st.tick 0 + max n.ticks 0
    omega
  · exact h

theorem advance_dirs {n : NoteData Content} {next : Option (NoteData Content)} {st : WSt Content} : (advanceCursorIfNeeded n next st).dirs = st.dirs := by
  unfold advanceCursorIfNeeded
  split <;> rfl

theorem Outcome.before {r : Res (WSt Content)} {st s0 s' : WSt Content} (hd : s0.dirs = st.dirs) (h : Outcome r s0 s') : Outcome r st s' := by
  obtain ⟨ds, h1, h2, h3⟩ := h
  exact ⟨ds, by rw [← hd, h1], h2, h3⟩

/-! ### loops -/

theorem notes_outcome {c : WCtx} : ∀ {l : List (NoteData Content)} {first : Bool} {t : Int} {prev : Option (NoteData Content)} {st : WSt Content}, 0 ≤ st.tick →
    Outcome (writeNotesE c first t prev l st) st (writeNotes c first t prev l st) := by
  intro l
  induction l with
  | nil => intro first t prev st h; exact Outcome.rfl' h
  | cons n l ih =>
    intro first t prev st h
    have o1 := move_outcome (n := n) h
    rw [writeNotesE, writeNotes]
    refine o1.bind ?_
    simp only
    have o2 := directions_outcome (c := c) (prev := prev) (cur := some n) (next := l.head?) (st := writeKeysAndClefs c (writeForwardOrBackupIfNeeded n st))
      (by rw [keysAndClefs_dirs.2]; exact o1.tick)
    refine (Outcome.before keysAndClefs_dirs.1 o2).bind ?_
    refine Outcome.before ?_ (ih (advance_tick ?_))
    · exact advance_dirs
    · exact o2.tick

theorem voice_outcome {numStaves i : Int} {v : Int × List (NoteData Content)} {st : WSt Content} (h : 0 ≤ st.tick) :
    Outcome (writeVoiceE numStaves i st v) st (writeVoice numStaves i v st) := by
  unfold writeVoiceE writeVoice
  simp only
  have o1 := directions_outcome (c := ⟨numStaves, i, v.1⟩) (prev := none) (cur := v.2.head?) (next := v.2.tail.head?) h
  have o2 := notes_outcome (c := ⟨numStaves, i, v.1⟩) (l := v.2) (first := true) (t := -2) (prev := none) o1.tick
  exact o1.bind (o2.bind (directions_outcome o2.tick))

theorem voices_outcome {numStaves i : Int} : ∀ {l : List (Int × List (NoteData Content))} {st : WSt Content}, 0 ≤ st.tick →
    Outcome (l.foldlM (writeVoiceE numStaves i) st) st (l.foldl (fun s v => writeVoice numStaves i v s) st) := by
  intro l
  induction l with
  | nil => intro st h; exact Outcome.rfl' h
  | cons v l ih =>
    intro st h
    rw [List.foldlM_cons, List.foldl_cons]
    have o := voice_outcome (numStaves := numStaves) (i := i) (v := v) h
    exact o.bind (ih o.tick)

/-- the same for a list of directions that is given -/
def Written {α : Type} (r : Res α) (x : α) (B : Prop) : Prop := r = .error .undefined ∨ (B → r = .error .throws) ∧ (¬ B → r = .ok x)

theorem Written.bind {α β : Type} {r : Res α} {x : α} {B C : Prop} {f : α → Res β} {y : β} (h1 : Written r x B) (h2 : Written (f x) y C) : Written (r >>= f) y (B ∨ C) := by
  rcases h1 with rfl | ⟨a, b⟩
  · exact Or.inl rfl
  by_cases hB : B
  · rw [a hB]
    exact Or.inr ⟨fun _ => rfl, fun h => absurd (Or.inl hB) h⟩
  · rw [b hB]
    rcases h2 with h2 | ⟨c, d⟩
    · exact Or.inl h2
    · exact Or.inr ⟨fun h => c (h.resolve_left hB), fun h => d (fun hC => h (Or.inr hC))⟩

theorem Written.congr {α : Type} {r : Res α} {x : α} {B C : Prop} (h : Written r x B) (hBC : B ↔ C) : Written r x C := by
  rcases h with h | ⟨a, b⟩
  · exact Or.inl h
  · exact Or.inr ⟨fun hC => a (hBC.mpr hC), fun hC => b (fun hB => hC (hBC.mp hB))⟩

theorem Written.ok {α : Type} {x : α} : Written (.ok x) x False := Or.inr ⟨fun h => h.elim, fun _ => rfl⟩

theorem dropAll {α : Type} {l : List α} : l.dropWhile (fun _ => true) = [] := by
  induction l with
  | nil => rfl
  | cons x l ih => rw [List.dropWhile_cons, if_pos rfl, ih]

theorem staff_written {numStaves i : Int} {s : StaffData Content} {st : WSt Content} (h : 0 ≤ st.tick) :
    Written (writeVoicesE numStaves i s st) (writeVoices numStaves i s st) (∃ d ∈ s.directions, OtherTempoIn d) ∧ 0 ≤ (writeVoices numStaves i s st).tick := by
  unfold writeVoicesE writeVoices
  simp only
  generalize hs0 : ({ st with clefs := s.clefs.dropWhile (fun x => x.tick = 0), keys := s.keys, dirs := s.directions } : WSt Content) = s0
  have ht : 0 ≤ s0.tick := by rw [← hs0]; exact h
  have hd : s0.dirs = s.directions := by rw [← hs0]
  have o1 := voices_outcome (numStaves := numStaves) (i := i) (l := s.voices) ht
  have o2 := directions_outcome (c := ⟨numStaves, i, 0⟩) (prev := none) (cur := none) (next := none) o1.tick
  have he : (writeDirections ⟨numStaves, i, 0⟩ none none none (s.voices.foldl (fun s v => writeVoice numStaves i v s) s0)).dirs = [] := by
    show (writeDirectionsWhile _ (fun _ => true) _).dirs = []
    unfold writeDirectionsWhile
    exact dropAll
  have o3 := o1.bind (f := fun s => writeDirectionsE ⟨numStaves, i, 0⟩ none none none s >>= fun s => .ok (writeRemaining i s))
    (o2.map (f := writeRemaining i) remaining_dirs.1 (by rw [remaining_dirs.2]; exact o2.tick))
  refine ⟨?_, o3.tick⟩
  obtain ⟨ds, h1, _, h3⟩ := o3
  rw [remaining_dirs.1, he, List.append_nil, hd] at h1
  rw [h1]
  rcases h3 with h3 | ⟨a, b⟩
  · exact Or.inl h3
  · exact Or.inr ⟨a, fun hn => b (fun d hd hx => hn ⟨d, hd, hx⟩)⟩

theorem staves_written {numStaves : Int} : ∀ {l : List (StaffData Content)} {i : Int} {st : WSt Content}, 0 ≤ st.tick →
    Written (writeStavesFromE numStaves i l st) (writeStavesFrom numStaves i l st) (∃ s ∈ l, ∃ d ∈ s.directions, OtherTempoIn d) := by
  intro l
  induction l with
  | nil => intro i st h; exact Written.ok.congr (by simp)
  | cons s l ih =>
    intro i st h
    have o := staff_written (numStaves := numStaves) (i := i) (s := s) h
    exact (o.1.bind (f := fun st => writeStavesFromE numStaves (i + 1) l st) (ih o.2)).congr (by simp)

theorem measure_written {env : WEnv} {m : MeasureData Content} : Written (writeMeasureE env m) (writeMeasure env m) (∃ d, InMeasure d m ∧ OtherTempoIn d) := by
  unfold writeMeasureE writeMeasure
  simp only
  refine ((staves_written (numStaves := env.numStaves) (l := m.staves) (i := 0) ?_).bind (f := fun st => .ok ((flush st).out ++ _)) Written.ok).congr ?_
  · exact le_refl 0
  · unfold InMeasure
    constructor
    · rintro (⟨s, hs, d, hd, hx⟩ | h)
      · exact ⟨d, ⟨s, hs, hd⟩, hx⟩
      · exact h.elim
    · rintro ⟨d, ⟨s, hs, hd⟩, hx⟩
      exact Or.inl ⟨s, hs, d, hd, hx⟩

theorem measures_written {N G : Int} : ∀ {l : List (Extras × MeasureData Content)} {first : Bool},
    Written (writeMeasuresFromE N G first l) (writeMeasuresFrom N G first l) (∃ x ∈ l, ∃ d, InMeasure d x.2 ∧ OtherTempoIn d) := by
  intro l
  induction l with
  | nil => intro first; exact Written.ok.congr (by simp)
  | cons x l ih =>
    intro first
    obtain ⟨x, m⟩ := x
    rw [writeMeasuresFromE, writeMeasuresFrom]
    refine (Written.bind (measure_written (env := x.env N G first) (m := m)) (C := (∃ x ∈ l, ∃ d, InMeasure d x.2 ∧ OtherTempoIn d) ∨ False) ?_).congr (by simp)
    exact (ih (first := false)).bind (f := fun ess => .ok (writeMeasure (x.env N G first) m :: ess)) Written.ok

theorem part_written {G : Int} {p : PartData Content} : Written (writePartE G p.transposition p.measures) (writePart G p.transposition p.measures)
    (∃ x ∈ p.measures, ∃ d, InMeasure d x.2 ∧ OtherTempoIn d) := by
  cases hm : p.measures with
  | nil =>
    cases ht : p.transposition with
    | none => exact Written.ok.congr (by simp)
    | some x =>
      refine (measures_written (N := 0) (G := G) (l := [(x, { staves := [], keys := [], barlines := [] })]) (first := true)).congr ?_
      simp [InMeasure]
  | cons y l =>
    obtain ⟨x, m⟩ := y
    cases ht : p.transposition with
    | none => exact measures_written
    | some z => exact measures_written

theorem parts_written {G : Int} : ∀ {l : List (PartData Content)},
    Written (writePartsE G l) (l.map (fun p => writePart G p.transposition p.measures)) (∃ d, InScore d l ∧ OtherTempoIn d) := by
  intro l
  induction l with
  | nil => exact Written.ok.congr (by simp [InScore])
  | cons p l ih =>
    rw [writePartsE, List.map_cons]
    have hr : Written (writePartsE G l >>= fun mss => .ok (writePart G p.transposition p.measures :: mss)) (writePart G p.transposition p.measures :: l.map (fun p => writePart G p.transposition p.measures))
        ((∃ d, InScore d l ∧ OtherTempoIn d) ∨ False) := ih.bind Written.ok
    refine ((part_written (G := G) (p := p)).bind (f := fun ms => writePartsE G l >>= fun mss => .ok (ms :: mss)) hr).congr ?_
    unfold InScore
    constructor
    · rintro (⟨x, hx, d, hd, hb⟩ | ⟨d, ⟨q, hq, x, hx, hd⟩, hb⟩ | h)
      · exact ⟨d, ⟨p, by simp, x, hx, hd⟩, hb⟩
      · exact ⟨d, ⟨q, by simp [hq], x, hx, hd⟩, hb⟩
      · exact h.elim
    · rintro ⟨d, ⟨q, hq, x, hx, hd⟩, hb⟩
      rcases List.mem_cons.mp hq with rfl | hq
      · exact Or.inl ⟨x, hx, d, hd, hb⟩
      · exact Or.inr (Or.inl ⟨d, ⟨q, hq, x, hx, hd⟩, hb⟩)

end Mx.Writing
