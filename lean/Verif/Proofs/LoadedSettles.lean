import Verif.Proofs.MeasureRenumbered
import Verif.Proofs.MeasureReader

/-! Measures that are read from any file. -/
namespace Mx.Measure
open Spec

variable {P : Type}

/-- The notes of one voice of one staff, as they come. -/
def line (i k : Int) (notes : List (ReadNote P)) : List (NoteData P) := ((notes.filter (fun r => r.staff = i)).filter (fun r => r.voice = k)).map (·.note)

theorem line_append (i k : Int) (notes : List (ReadNote P)) (r : ReadNote P) :
    line i k (notes ++ [r]) = line i k notes ++ (if r.staff = i ∧ r.voice = k then [r.note] else []) := by
  unfold line
  by_cases h1 : r.staff = i <;> by_cases h2 : r.voice = k <;> simp [List.filter_append, h1, h2]

theorem mem_line {i k : Int} {notes : List (ReadNote P)} {n : NoteData P} (h : n ∈ line i k notes) : ∃ r ∈ notes, r.note = n ∧ r.staff = i ∧ r.voice = k := by
  unfold line at h
  obtain ⟨r, hr, e⟩ := List.mem_map.mp h
  simp only [List.mem_filter, decide_eq_true_eq] at hr
  exact ⟨r, hr.1.1, e, hr.1.2, hr.2⟩

/-- What holds while any file is read; `es` is what is left of it and `prev` the staff of the last note. -/
structure Reading (es : List (Elem P)) (prev : Option Int) (st : RSt P) : Prop where
  tick : 0 ≤ st.tick
  scale : 0 ≤ st.ticksPerQuarter
  voices : ∀ r ∈ st.notes, r.voice ≤ st.voiceIndex ∧ (st.isBackupInProgress = true → r.voice < st.voiceIndex)
  notes : ∀ r ∈ st.notes, NoteKept r.note
  pairs : ∀ i k, (line i k st.notes).IsChain PairKept
  last : ∀ i a, (line i st.voiceIndex st.notes).getLast? = some a → a.isChord = true →
    a.ticks = 0 ∨ a.tick < st.tick ∨ (nextNoteIsChord false es = true ∧ ∃ p, prev = some p ∧ i = (if p - 1 < 0 then 0 else p - 1))

theorem noteStaffIndex_number (n : NoteElem P) : noteStaffIndex n = (if staffNumber n - 1 < 0 then 0 else staffNumber n - 1) := by
  unfold noteStaffIndex staffNumber
  cases n.staff <;> simp

theorem convertDuration_zero {C G t : Int} (hC : 0 ≤ C) (h : convertDuration C G 0 = some t) : t = 0 := by
  by_cases h0 : C = 0
  · subst h0
    unfold convertDuration at h
    split at h
    · simp only [Option.some.injEq] at h
      rw [← h]
      exact roundMicro_mul 0
    · simp at h
  · rw [convertDuration_exact (t := 0) (by omega) (by simp)] at h
    cases h; rfl

theorem reading_note {env : REnv} (hG : 0 ≤ env.globalTicksPerQuarter) {n : NoteElem P} {es : List (Elem P)} {prev : Option Int} {st st' : RSt P} (h : Reading (.note n :: es) prev st)
    (hd : 0 ≤ n.dur) (hc : n.chord = true → ∀ p, prev = some p → staffNumber n = p) (he : parseNote env (nextNoteIsChord false es) n st = some st') :
    Reading es (some (staffNumber n)) st' := by
  unfold parseNote at he
  simp only [Option.bind_eq_bind, Option.bind_eq_some_iff] at he
  obtain ⟨ticks, h1, he⟩ := he
  have h0 : 0 ≤ ticks := by
    refine convertDuration_nonneg h.scale hG ?_ h1
    split
    · omega
    · exact hd
  have hgrace : n.kind = .grace → ticks = 0 := by
    intro hk
    rw [if_pos hk] at h1
    have h2 := convertDuration_zero h.scale h1
    exact h2
  split at he
  · cases he
  · simp only [Option.some.injEq] at he
    generalize hnc : nextNoteIsChord false es = nc at he
    subst he
    have hcur : nextNoteIsChord false (.note n :: es) = n.chord := rfl
    have hmono : st.tick ≤ (if (!(n.chord || nc) || !nc) = true then st.tick + ticks else st.tick) := by split <;> omega
    refine ⟨le_trans h.tick hmono, h.scale, ?_, ?_, ?_, ?_⟩
    · intro r hr
      refine ⟨?_, fun e => by cases e⟩
      rcases List.mem_append.mp hr with hr | hr
      · exact (h.voices r hr).1
      · rw [List.mem_singleton.mp hr]
    · intro r hr
      rcases List.mem_append.mp hr with hr | hr
      · exact h.notes r hr
      · rw [List.mem_singleton.mp hr]
        exact ⟨h.tick, hgrace, h0⟩
    · intro i k
      simp only
      rw [line_append]
      split
      · rename_i hik
        simp only at hik
        refine List.isChain_append.mpr ⟨h.pairs i k, List.IsChain.singleton _, ?_⟩
        intro a ha b hb
        simp only [List.head?_cons, Option.mem_some_iff] at hb
        subst hb
        intro c1 c2 c3
        have c2 : st.tick = a.tick := c2
        have c3 : (n.chord || nc) = false := c3
        rw [← hik.2] at ha
        rcases h.last i a ha c1 with h2 | h2 | ⟨h2, _⟩
        · exact h2
        · omega
        · rw [hcur] at h2
          rw [h2] at c3
          simp at c3
      · rw [List.append_nil]; exact h.pairs i k
    · intro i a ha hac
      simp only at ha
      rw [line_append] at ha
      simp only [and_true] at ha
      split at ha
      · rename_i hi
        rw [List.getLast?_append] at ha
        simp only [List.getLast?_singleton, Option.some_or, Option.some.injEq] at ha
        subst ha
        rw [hnc]
        cases nc with
        | true =>
          refine Or.inr (Or.inr ⟨rfl, _, rfl, ?_⟩)
          rw [← hi, noteStaffIndex_number]
        | false =>
          by_cases hz : ticks = 0
          · exact Or.inl hz
          · refine Or.inr (Or.inl ?_)
            show st.tick < _
            simp only [Bool.not_false, Bool.or_true, if_true]
            omega
      · rename_i hi
        rw [List.append_nil] at ha
        rcases h.last i a ha hac with h2 | h2 | ⟨h2, p, h3, h4⟩
        · exact Or.inl h2
        · exact Or.inr (Or.inl (lt_of_lt_of_le h2 hmono))
        · rw [hcur] at h2
          have := hc h2 p h3
          rw [noteStaffIndex_number, this] at hi
          exact absurd h4.symm hi

theorem reading_quiet {e : Elem P} {es : List (Elem P)} {prev : Option Int} {st st' : RSt P} (h : Reading (e :: es) prev st) (hn : nextNoteIsChord false (e :: es) = nextNoteIsChord false es)
    (h1 : st.tick ≤ st'.tick) (h2 : 0 ≤ st'.ticksPerQuarter) (h3 : st'.notes = st.notes) (h4 : st'.voiceIndex = st.voiceIndex) (h5 : st'.isBackupInProgress = false) : Reading es prev st' := by
  refine ⟨le_trans h.tick h1, h2, ?_, ?_, ?_, ?_⟩
  · rw [h3, h4, h5]
    exact fun r hr => ⟨(h.voices r hr).1, fun e => by cases e⟩
  · rw [h3]; exact h.notes
  · rw [h3]; exact h.pairs
  · rw [h3, h4, ← hn]
    intro i a ha hc
    rcases h.last i a ha hc with x | x | x
    · exact Or.inl x
    · exact Or.inr (Or.inl (lt_of_lt_of_le x h1))
    · exact Or.inr (Or.inr x)

theorem reading_backup {env : REnv} {d : Int} {es : List (Elem P)} {prev : Option Int} {st st' : RSt P} (h : Reading (.backup d :: es) prev st) (he : parseBackup env d st = some st') :
    Reading es prev st' := by
  unfold parseBackup at he
  simp only [Option.bind_eq_bind, Option.bind_eq_some_iff, Option.some.injEq] at he
  obtain ⟨x, _, rfl⟩ := he
  have hlt : ∀ r ∈ st.notes, r.voice < (if st.isBackupInProgress = true then st.voiceIndex else st.voiceIndex + 1) := by
    intro r hr
    split
    · rename_i hb; exact (h.voices r hr).2 hb
    · have := (h.voices r hr).1; omega
  refine ⟨?_, h.scale, fun r hr => ⟨le_of_lt (hlt r hr), fun _ => hlt r hr⟩, h.notes, h.pairs, ?_⟩
  · simp only
    split <;> omega
  · intro i a ha
    obtain ⟨r, hr, _, _, hv⟩ := mem_line (List.mem_of_getLast? ha)
    have h1 := hlt r hr
    simp only at hv
    rw [hv] at h1
    exact absurd h1 (lt_irrefl _)

/-- Reading any file. -/
theorem reading_elems {env : REnv} (hG : 0 ≤ env.globalTicksPerQuarter) : ∀ (es : List (Elem P)) (prev : Option Int) (st st' : RSt P), Reading es prev st → (∀ e ∈ es, TimesForward e) →
    ChordsOnOneStaff prev es → readElems env false es st = some st' → ∃ prev', Reading [] prev' st' := by
  intro es
  induction es with
  | nil =>
    intro prev st st' h _ _ he
    simp only [readElems, Option.some.injEq] at he
    subst he
    exact ⟨prev, h⟩
  | cons e es ih =>
    intro prev st st' h ht hc he
    rw [readElems] at he
    simp only [Option.bind_eq_bind, Option.bind_eq_some_iff] at he
    obtain ⟨s1, h1, h2⟩ := he
    have ht' : ∀ e ∈ es, TimesForward e := fun x hx => ht x (by simp [hx])
    have hte := ht e (by simp)
    cases e with
    | note n => exact ih _ s1 st' (reading_note hG h hte hc.1 h1) ht' hc.2 h2
    | backup d => exact ih _ s1 st' (reading_backup h h1) ht' hc h2
    | forward d =>
      refine ih prev s1 st' ?_ ht' hc h2
      simp only [parseElem, parseForward, Option.bind_eq_bind, Option.bind_eq_some_iff, Option.some.injEq] at h1
      obtain ⟨x, hx, rfl⟩ := h1
      have := convertDuration_nonneg h.scale hG hte hx
      exact reading_quiet h rfl (by simp only; omega) h.scale rfl rfl rfl
    | direction s o c =>
      refine ih prev s1 st' ?_ ht' hc h2
      simp only [parseElem, parseDirection] at h1
      split at h1
      · cases h1
      · simp only [Option.some.injEq] at h1
        subst h1
        exact reading_quiet h rfl (le_refl _) h.scale rfl rfl rfl
    | attributes a =>
      refine ih prev s1 st' ?_ ht' hc h2
      simp only [parseElem, parseProperties] at h1
      split at h1
      · cases h1
      · simp only [Option.some.injEq] at h1
        subst h1
        refine reading_quiet h rfl (le_refl _) ?_ rfl rfl rfl
        simp only
        cases hd : a.divisions with
        | none => exact h.scale
        | some d =>
          have := hte d hd
          exact roundMicro_nonneg this
    | barline l c =>
      refine ih prev s1 st' ?_ ht' hc h2
      simp only [parseElem, parseBarline, Option.some.injEq] at h1
      subst h1
      exact reading_quiet h rfl (le_refl _) h.scale rfl rfl rfl
    | other =>
      refine ih prev s1 st' ?_ ht' hc h2
      simp only [parseElem, Option.some.injEq] at h1
      subst h1
      exact reading_quiet h rfl (le_refl _) h.scale rfl rfl rfl

theorem consolidate_numbered (vs : List (Int × List (NoteData P))) (hn : NoEmpty vs) : (∀ w ∈ consolidate vs, 0 ≤ w.1) ∧ Ascending (consolidate vs) := by
  refine ⟨?_, (consolidate_spec vs).1⟩
  unfold consolidate
  split
  · rename_i h
    intro w hw
    obtain ⟨v, hv, rfl⟩ := ((takeUserVoices_spec vs h).2.2 w).mp hw
    have hc := ((allConsistent_iff vs []).mp h).1 v hv
    have := ((isConsistent_iff v.2 (hn v hv)).mp hc.1).1
    simp only
    omega
  · exact (collapseFrom_spec vs 0).2.1

/-- **A measure that is read** has voices that are numbered and keep the times of their notes. -/
theorem loaded_kept {env : REnv} (hG : 0 ≤ env.globalTicksPerQuarter) {d : Int} (hd : 0 ≤ d) {es : List (Elem P)} {m : MeasureData P} (h : readMeasure env d es = some m)
    (ht : ∀ e ∈ es, TimesForward e) (hc : ChordsOnOneStaff none es) : MeasureKept m ∧ (∀ s ∈ m.staves, VoicesNumbered s) ∧ m.staves.length = env.numStaves.toNat := by
  unfold readMeasure at h
  simp only [Option.bind_eq_bind, Option.bind_eq_some_iff, Option.some.injEq] at h
  obtain ⟨st, h1, rfl⟩ := h
  obtain ⟨prev, hr⟩ := reading_elems hG es none (initRSt d) st ⟨by simp [initRSt], by simpa [initRSt] using hd, by simp [initRSt], by simp [initRSt], by simp [initRSt, line],
    by simp [initRSt, line]⟩ ht hc h1
  refine ⟨?_, ?_, by simp⟩
  · intro s hs v hv
    obtain ⟨i, _, rfl⟩ := List.mem_map.mp hs
    obtain ⟨w, hw, e⟩ := (consolidate_spec _).2.2 v hv
    obtain ⟨a1, a2, _, a4⟩ := voicesOf_spec (i : Int) st.notes
    have hline : w.2 = line i w.1 st.notes := by rw [← notesAt_of_mem a1 hw, a4]; rfl
    rw [e, hline]
    refine ⟨?_, hr.pairs _ _⟩
    intro n hn
    obtain ⟨r, hr1, rfl, _, _⟩ := mem_line hn
    exact hr.notes r hr1
  · intro s hs
    obtain ⟨i, _, rfl⟩ := List.mem_map.mp hs
    exact consolidate_numbered _ (voicesOf_spec (i : Int) st.notes).2.1

end Mx.Measure
