import Verif.Spec.MeasureSettles
import Verif.Model.MeasureWriter

/-! What is written of any measure: time goes forward and chords are on one staff. -/
namespace Mx.Measure
open Spec

variable {P : Type}

/-- The staff of the last note of some elements. -/
def staffAfter : Option Int → List (Elem P) → Option Int
  | prev, [] => prev
  | _, .note n :: es => staffAfter (some (staffNumber n)) es
  | prev, _ :: es => staffAfter prev es

theorem chordsOn_append : ∀ (xs ys : List (Elem P)) (prev : Option Int), ChordsOnOneStaff prev (xs ++ ys) ↔ ChordsOnOneStaff prev xs ∧ ChordsOnOneStaff (staffAfter prev xs) ys := by
  intro xs
  induction xs with
  | nil => intro ys prev; simp [ChordsOnOneStaff, staffAfter]
  | cons e xs ih =>
    intro ys prev
    cases e <;> simp [ChordsOnOneStaff, staffAfter, ih, and_assoc]

theorem staffAfter_append : ∀ (xs ys : List (Elem P)) (prev : Option Int), staffAfter prev (xs ++ ys) = staffAfter (staffAfter prev xs) ys := by
  intro xs
  induction xs with
  | nil => intro ys prev; rfl
  | cons e xs ih =>
    intro ys prev
    cases e <;> simp [staffAfter, ih]

/-- What holds for what has been written; `p` is the staff of the last note. -/
structure Flows (p : Option Int) (b : Attributes P) (o : List (Elem P)) : Prop where
  times : ∀ e ∈ o, TimesForward e
  divisions : ∀ d, b.divisions = some d → 0 ≤ d
  chords : ChordsOnOneStaff none o
  last : staffAfter none o = p

variable {p : Option Int}

/-- An element other than a note. -/
theorem flows_add {b : Attributes P} {o : List (Elem P)} (h : Flows p b o) {e : Elem P} (ht : TimesForward e) (hc : ∀ q, ChordsOnOneStaff q [e] ∧ staffAfter q [e] = q) : Flows p b (o ++ [e]) := by
  refine ⟨?_, h.divisions, (chordsOn_append _ _ _).mpr ⟨h.chords, (hc _).1⟩, ?_⟩
  · intro x hx
    rcases List.mem_append.mp hx with hx | hx
    · exact h.times x hx
    · rw [List.mem_singleton.mp hx]; exact ht
  · rw [staffAfter_append, (hc _).2, h.last]

theorem flows_buf {b b' : Attributes P} {o : List (Elem P)} (h : Flows p b o) (hd : b'.divisions = b.divisions) : Flows p b' o := ⟨h.times, by rw [hd]; exact h.divisions, h.chords, h.last⟩

theorem durMicro_nonneg (t : Int) : 0 ≤ durMicro t := by
  unfold durMicro MICRO
  split <;> omega

theorem flows_flush {st : WSt P} (h : Flows p st.buf st.out) : Flows p (flush st).buf (flush st).out := by
  unfold flush
  split
  · have := flows_add h (e := .attributes st.buf) h.divisions (fun q => ⟨by simp [ChordsOnOneStaff], rfl⟩)
    exact ⟨this.times, (fun d hd => by cases hd), this.chords, this.last⟩
  · exact ⟨h.times, (fun d hd => by cases hd), h.chords, h.last⟩

theorem flows_move {st : WSt P} {n : NoteData P} (h : Flows p st.buf st.out) : Flows p (writeForwardOrBackupIfNeeded n st).buf (writeForwardOrBackupIfNeeded n st).out := by
  have hf := flows_flush h
  unfold writeForwardOrBackupIfNeeded
  simp only
  split
  · exact hf
  · split
    · unfold backup
      simp only
      generalize (if (flush st).tick - -1 * (n.tick - (flush st).tick) < 0 then -1 * (n.tick - (flush st).tick) + ((flush st).tick - -1 * (n.tick - (flush st).tick)) else -1 * (n.tick - (flush st).tick)) = x
      split
      · exact hf
      · exact flows_add hf (by trivial) (fun q => ⟨by simp [ChordsOnOneStaff], rfl⟩)
    · split
      · unfold forward
        exact flows_add hf (durMicro_nonneg _) (fun q => ⟨by simp [ChordsOnOneStaff], rfl⟩)
      · exact hf

theorem flows_direction {c : WCtx} {d : DirectionData P} {st : WSt P} (h : Flows p st.buf st.out) : Flows p (writeDirection c d st).buf (writeDirection c d st).out := by
  unfold writeDirection
  exact flows_add (flows_flush h) (by trivial) (fun q => ⟨by simp [ChordsOnOneStaff], rfl⟩)

theorem flows_directionsWhile {c : WCtx} (q : Int → Bool) {st : WSt P} (h : Flows p st.buf st.out) : Flows p (writeDirectionsWhile c q st).buf (writeDirectionsWhile c q st).out := by
  unfold writeDirectionsWhile
  simp only
  generalize st.dirs.takeWhile (fun d => q d.tick) = ds
  induction ds generalizing st with
  | nil => exact h
  | cons d ds ih => exact ih (flows_direction h)

theorem flows_directions {c : WCtx} (prev cur next : Option (NoteData P)) {st : WSt P} (h : Flows p st.buf st.out) :
    Flows p (writeDirections c prev cur next st).buf (writeDirections c prev cur next st).out := by
  unfold writeDirections
  cases cur with
  | none => exact flows_directionsWhile _ h
  | some n =>
    simp only
    split
    · exact flows_directionsWhile _ h
    · split
      · exact h
      · exact flows_directionsWhile _ h

theorem writeKeys_divisions (f : KeyData P → Int) : ∀ (l : List (KeyData P)) (b : Attributes P), (l.foldl (fun b x => writeKey (f x) x b) b).divisions = b.divisions := by
  intro l
  induction l with
  | nil => intro b; rfl
  | cons x l ih => intro b; rw [List.foldl_cons, ih]; rfl

theorem writeClefs_divisions (i : Int) : ∀ (l : List (Timed P)) (b : Attributes P), (l.foldl (fun b x => writeClef i x b) b).divisions = b.divisions := by
  intro l
  induction l with
  | nil => intro b; rfl
  | cons x l ih => intro b; rw [List.foldl_cons, ih]; rfl

theorem flows_keysAndClefs {c : WCtx} {st : WSt P} (h : Flows p st.buf st.out) : Flows p (writeKeysAndClefs c st).buf (writeKeysAndClefs c st).out := by
  unfold writeKeysAndClefs
  apply flows_flush
  have h1 : Flows p (writeMeasureKey st).buf (writeMeasureKey st).out := by
    unfold writeMeasureKey
    split
    · split
      · exact flows_buf h rfl
      · exact h
    · exact h
  have h2 : Flows p (writeDueClefs c (writeMeasureKey st)).buf (writeDueClefs c (writeMeasureKey st)).out := flows_buf h1 (writeClefs_divisions _ _ _)
  exact flows_buf h2 (writeKeys_divisions (fun _ => c.staffIndex) _ _)

/-- The number of the staff that is written. -/
def staffWritten (c : WCtx) : Int := if c.numStaves > 1 ∧ c.staffIndex ≥ 0 then c.staffIndex + 1 else 1

theorem flows_note {c : WCtx} {st : WSt P} {b : Bool} {n : NoteData P} (h : Flows p st.buf st.out) (hs : b = false → n.isChord = true → p = some (staffWritten c)) :
    Flows (some (staffWritten c)) (addNote c b n st).buf (addNote c b n st).out := by
  have hn : staffNumber (noteElem c st.prevChord b n) = staffWritten c := by
    unfold staffNumber noteElem staffWritten
    simp only
    split <;> rfl
  unfold addNote
  refine ⟨?_, h.divisions, (chordsOn_append _ _ _).mpr ⟨h.chords, ?_, trivial⟩, ?_⟩
  · intro x hx
    rcases List.mem_append.mp hx with hx | hx
    · exact h.times x hx
    · rw [List.mem_singleton.mp hx]
      show 0 ≤ (if n.kind = .grace then (0 : Int) else durMicro n.ticks)
      split
      · omega
      · exact durMicro_nonneg _
  · intro hc q hq
    have hc : (n.isChord && st.prevChord && !b) = true := hc
    simp only [Bool.and_eq_true, Bool.not_eq_true'] at hc
    rw [h.last, hs hc.2 hc.1.1] at hq
    rw [hn]
    simpa using hq
  · rw [staffAfter_append]
    show some (staffNumber _) = _
    rw [hn]

theorem flows_notes (c : WCtx) : ∀ (ns : List (NoteData P)) (isFirst : Bool) (pct : Int) (prev : Option (NoteData P)) (st : WSt P) (p : Option Int), Flows p st.buf st.out →
    (isFirst = false → p = some (staffWritten c)) → ∃ p', Flows p' (writeNotes c isFirst pct prev ns st).buf (writeNotes c isFirst pct prev ns st).out := by
  intro ns
  induction ns with
  | nil => intro _ _ _ st p h _; exact ⟨p, h⟩
  | cons n rest ih =>
    intro isFirst pct prev st p h hf
    rw [writeNotes]
    simp only
    refine ih _ _ _ _ (some (staffWritten c)) ?_ (fun _ => rfl)
    have h3 := flows_directions (c := c) prev (some n) rest.head? (flows_keysAndClefs (c := c) (flows_move (n := n) h))
    have h4 := flows_note (c := c) (b := n.isChord && (isFirst || (writeForwardOrBackupIfNeeded n st).tick != pct)) (n := n) h3 (by
      intro e1 e2
      rw [e2, Bool.true_and, Bool.or_eq_false_iff] at e1
      exact hf e1.1)
    unfold advanceCursorIfNeeded
    split <;> exact h4

theorem flows_voice (numStaves staffIndex : Int) (v : Int × List (NoteData P)) {st : WSt P} {p : Option Int} (h : Flows p st.buf st.out) :
    ∃ p', Flows p' (writeVoice numStaves staffIndex v st).buf (writeVoice numStaves staffIndex v st).out := by
  unfold writeVoice
  simp only
  obtain ⟨p', h'⟩ := flows_notes { numStaves := numStaves, staffIndex := staffIndex, voiceIndex := v.1 } v.2 true (-2) none _ p (flows_directions none v.2.head? v.2.tail.head? h) (by simp)
  exact ⟨p', flows_directions _ _ _ h'⟩

theorem flows_remaining (i : Int) {st : WSt P} (h : Flows p st.buf st.out) : Flows p (writeRemaining i st).buf (writeRemaining i st).out := by
  unfold writeRemaining
  split
  · apply flows_flush
    have h1 : Flows p (st.clefs.foldl (fun b x => writeClef i x b) st.buf) st.out := flows_buf h (writeClefs_divisions _ _ _)
    refine flows_buf ?_ (writeKeys_divisions (fun _ => i) _ _)
    unfold writeRemainingMeasureKey
    split
    · split
      · exact flows_buf h1 rfl
      · exact h1
    · exact h1
  · exact h

theorem flows_voices (numStaves staffIndex : Int) (s : StaffData P) {st : WSt P} {p : Option Int} (h : Flows p st.buf st.out) :
    ∃ p', Flows p' (writeVoices numStaves staffIndex s st).buf (writeVoices numStaves staffIndex s st).out := by
  unfold writeVoices
  simp only
  have hv : ∀ (vs : List (Int × List (NoteData P))) (t : WSt P) (p : Option Int), Flows p t.buf t.out →
      ∃ p', Flows p' (vs.foldl (fun s v => writeVoice numStaves staffIndex v s) t).buf (vs.foldl (fun s v => writeVoice numStaves staffIndex v s) t).out := by
    intro vs
    induction vs with
    | nil => intro t p ht; exact ⟨p, ht⟩
    | cons v vs ih =>
      intro t p ht
      obtain ⟨p1, h1⟩ := flows_voice numStaves staffIndex v ht
      exact ih _ p1 h1
  obtain ⟨p', h'⟩ := hv s.voices { st with clefs := s.clefs.dropWhile (fun x => x.tick = 0), keys := s.keys, dirs := s.directions } p h
  exact ⟨p', flows_remaining _ (flows_directions _ _ _ h')⟩

theorem flows_staves (numStaves : Int) : ∀ (ss : List (StaffData P)) (i : Int) (st : WSt P) (p : Option Int), Flows p st.buf st.out →
    ∃ p', Flows p' (writeStavesFrom numStaves i ss st).buf (writeStavesFrom numStaves i ss st).out := by
  intro ss
  induction ss with
  | nil => intro i st p h; exact ⟨p, h⟩
  | cons s ss ih =>
    intro i st p h
    obtain ⟨p1, h1⟩ := flows_voices numStaves i s h
    exact ih _ _ p1 h1

theorem flows_quiet {b : Attributes P} : ∀ (es o : List (Elem P)), Flows p b o → (∀ e ∈ es, e = .other ∨ ∃ l c, e = .barline l c) → Flows p b (o ++ es) := by
  intro es
  induction es with
  | nil => intro o h _; simpa using h
  | cons e es ih =>
    intro o h he
    have h1 : Flows p b (o ++ [e]) := by
      rcases he e (by simp) with rfl | ⟨l, c, rfl⟩
      · exact flows_add h trivial (fun q => ⟨by simp [ChordsOnOneStaff], rfl⟩)
      · exact flows_add h trivial (fun q => ⟨by simp [ChordsOnOneStaff], rfl⟩)
    have := ih (o ++ [e]) h1 (fun x hx => he x (by simp [hx]))
    simpa using this

theorem globalClefs_keepDivisions (numStaves : Int) : ∀ (ss : List (StaffData P)) (i : Int) (a : Attributes P), (globalClefs numStaves i ss a).divisions = a.divisions := by
  intro ss
  induction ss with
  | nil => intro i a; rfl
  | cons s ss ih => intro i a; rw [globalClefs, ih, writeClefs_divisions]

/-- **Any measure** is written so that time goes forward and chords are on one staff. -/
theorem written_forward (env : WEnv) (m : MeasureData P) : (∀ e ∈ writeMeasure env m, TimesForward e) ∧ ChordsOnOneStaff none (writeMeasure env m) := by
  have hb : ∀ (bs : List (BarlineData P)), ∀ e ∈ bs.map barlineElem, e = .other ∨ ∃ l c, e = .barline l c := by
    intro bs e he
    obtain ⟨b, _, rfl⟩ := List.mem_map.mp he
    exact Or.inr ⟨_, _, rfl⟩
  have h0 : Flows none (globals env m) ([] : List (Elem P)) := by
    refine ⟨by simp, ?_, trivial, rfl⟩
    intro d hd
    unfold globals at hd
    simp only at hd
    rw [writeKeys_divisions (fun k => k.staffIndex), globalClefs_keepDivisions] at hd
    simp only at hd
    split at hd
    · simp only [Option.some.injEq] at hd
      rw [← hd]; exact durMicro_nonneg _
    · cases hd
  have h1 := flows_quiet _ _ h0 (hb (m.barlines.takeWhile (fun b => b.tick ≤ 0)))
  have h2 := flows_quiet (List.replicate env.printElements .other) _ h1 (fun e he => Or.inl (List.eq_of_mem_replicate he))
  rw [List.nil_append] at h2
  obtain ⟨p', h3⟩ := flows_staves env.numStaves m.staves 0
    { tick := 0, prevChord := false, dirs := [], clefs := [], keys := [], mkeys := m.keys.dropWhile (fun k => k.tick = 0), buf := globals env m
      out := (m.barlines.takeWhile (fun b => b.tick ≤ 0)).map barlineElem ++ List.replicate env.printElements .other } none h2
  have h4 := flows_quiet _ _ (flows_flush h3) (hb ((m.barlines.dropWhile (fun b => b.tick ≤ 0)).takeWhile (fun b => b.tick ≤ TICK_TIME_INFINITY)))
  exact ⟨h4.times, h4.chords⟩

end Mx.Measure
