import Verif.Spec.PassThrough
import Verif.Proofs.ScoreSettles
import Verif.Proofs.ScoreTime
import Verif.Proofs.PartGroups

/-! Files that are loaded and saved. -/
namespace Mx.Measure
open _root_.Spec Mx.Props

variable {P : Type}

/-- What holds while a plain measure is read. -/
structure Passing (env : REnv) (es : List (Elem P)) (base : Option Int) (g : Bool) (st : RSt P) : Prop where
  tick : 0 ≤ st.tick
  voices : ∀ r ∈ st.notes, r.voice ≤ st.voiceIndex ∧ (st.isBackupInProgress = true → r.voice < st.voiceIndex)
  notes : ∀ r ∈ st.notes, NoteOk r.note ∧ 0 ≤ r.staff ∧ r.staff < env.numStaves
  pairs : st.notes.Pairwise (fun a b => a.voice = b.voice → PairOk a.note b.note)
  now : ∀ r ∈ st.notes, r.voice = st.voiceIndex →
    (r.note.tick + r.note.ticks ≤ st.tick ∧ (r.note.isChord = true → r.note.tick = st.tick → g = true)) ∨
    (nextIsChord es = true ∧ r.note.tick = st.tick ∧ r.note.isChord = true ∧
      ∃ b, base = some b ∧ convertDuration st.ticksPerQuarter env.globalTicksPerQuarter b = some r.note.ticks)

theorem passing_note {env : REnv} (hG : 0 < env.globalTicksPerQuarter) {n : NoteElem P} {es : List (Elem P)} {c : Clock} {base cb : Option Int} {g : Bool} {st st' : RSt P}
    (h : Passing env (.note n :: es) base g st) (hC : 0 < st.ticksPerQuarter) (hdiv : c.division = 1 / (st.ticksPerQuarter : ℚ))
    (hw : WellTimed env.globalTicksPerQuarter c cb (.note n :: es)) (hp : PlainChords base g (.note n :: es)) (he : parseNote env (nextNoteIsChord false es) n st = some st') :
    Passing env es (if n.chord then base else some n.dur) (if n.kind = .grace then g || n.chord || nextIsChord es else false) st' := by
  obtain ⟨⟨t, ht⟩, hd, hgr, _, _⟩ := hw
  obtain ⟨p1, p2, p3, _⟩ := hp
  have hconv : convertDuration st.ticksPerQuarter env.globalTicksPerQuarter n.dur = some t := quarters_convert hC hdiv ht
  have hdur : (if n.kind = .grace then 0 else n.dur) = n.dur := by
    split
    · rename_i hk; exact (hgr hk).symm
    · rfl
  have h0 : 0 ≤ t := convertDuration_nonneg (le_of_lt hC) (le_of_lt hG) hd hconv
  have hgrace : n.kind = .grace → t = 0 := by
    intro hk
    rw [hgr hk] at hconv
    exact convertDuration_zero (le_of_lt hC) hconv
  have hpos : n.kind ≠ .grace → 0 < t := by
    intro hk
    have hx : (0 : ℚ) < (t : ℚ) := by
      rw [← ht]
      unfold Clock.quarters
      rw [hdiv]
      have a1 : (0 : ℚ) < n.dur := by exact_mod_cast p1 hk
      have a2 : (0 : ℚ) < st.ticksPerQuarter := by exact_mod_cast hC
      have a3 : (0 : ℚ) < env.globalTicksPerQuarter := by exact_mod_cast hG
      positivity
    exact_mod_cast hx
  unfold parseNote at he
  rw [hdur, hconv] at he
  simp only [Option.bind_eq_bind, Option.bind_some] at he
  rw [← nextIsChord_eq] at he
  split at he
  · cases he
  rename_i hst
  simp only [Option.some.injEq] at he
  generalize hnc : nextIsChord es = nc at he p3 ⊢
  subst he
  have hcur : nextIsChord (.note n :: es) = n.chord := rfl
  have htick : (if (!(n.chord || nc) || !nc) = true then st.tick + t else st.tick) = if nc = true then st.tick else st.tick + t := by
    cases nc <;> cases n.chord <;> rfl
  have hnew : ∀ a ∈ st.notes, a.voice = st.voiceIndex → PairOk a.note (parseNoteData (n.chord || nc) st.tick t n) := by
    intro a ha hv c1 c2
    have c2 : st.tick = a.note.tick := c2
    have hok := (h.notes a ha).1
    have hlen : 0 ≤ a.note.ticks := by
      by_cases hk : a.note.kind = .grace
      · rw [hok.2.1 hk]
      · exact le_of_lt (hok.2.2 hk)
    show if (n.chord || nc) = true then t = a.note.ticks else a.note.ticks = 0
    rcases h.now a ha hv with ⟨d1, d2⟩ | ⟨o1, o2, o3, b, o4, o5⟩
    · have hz : a.note.ticks = 0 := by omega
      split
      · rename_i hb
        by_cases hk : n.kind = .grace
        · rw [hgrace hk, hz]
        · have := p3 hk hb
          rw [d2 c1 c2.symm] at this
          cases this
      · exact hz
    · rw [hcur] at o1
      rw [if_pos (by simp [o1])]
      have := p2 o1
      rw [o4] at this
      simp only [Option.some.injEq] at this
      rw [this, hconv] at o5
      exact Option.some.inj o5
  refine ⟨?_, ?_, ?_, ?_, ?_⟩
  · simp only
    rw [htick]
    have := h.tick
    split <;> omega
  · intro r hr
    refine ⟨?_, fun e => by cases e⟩
    rcases List.mem_append.mp hr with hr | hr
    · exact (h.voices r hr).1
    · rw [List.mem_singleton.mp hr]
  · intro r hr
    rcases List.mem_append.mp hr with hr | hr
    · exact h.notes r hr
    · rw [List.mem_singleton.mp hr]
      refine ⟨⟨h.tick, hgrace, hpos⟩, ?_, by simp only; omega⟩
      simp only [noteStaffIndex]
      split <;> omega
  · refine List.pairwise_append.mpr ⟨h.pairs, List.pairwise_singleton _ _, ?_⟩
    intro a ha b hb hv
    rw [List.mem_singleton.mp hb] at hv ⊢
    exact hnew a ha hv
  · intro r hr hv
    simp only at hv ⊢
    rw [htick, hnc]
    rcases List.mem_append.mp hr with hr | hr
    · have hok := (h.notes r hr).1
      have hlen : 0 ≤ r.note.ticks := by
        by_cases hk : r.note.kind = .grace
        · rw [hok.2.1 hk]
        · exact le_of_lt (hok.2.2 hk)
      rcases h.now r hr hv with ⟨d1, d2⟩ | ⟨o1, o2, o3, b, o4, o5⟩
      · left
        cases hn : nc with
        | true =>
          simp only [if_true]
          refine ⟨d1, fun c1 c2 => ?_⟩
          have hg := d2 c1 c2
          split
          · simp [hg]
          · rename_i hk
            have := p3 hk (by simp [hn])
            rw [hg] at this; cases this
        | false =>
          simp only [Bool.false_eq_true, if_false]
          refine ⟨by omega, fun c1 c2 => ?_⟩
          split
          · rename_i hk
            have hz := hgrace hk
            simp [d2 c1 (by omega)]
          · rename_i hk
            have := hpos hk
            omega
      · rw [hcur] at o1
        have hb := p2 o1
        cases hn : nc with
        | true =>
          right
          simp only [if_true]
          exact ⟨trivial, o2, o3, b, by rw [if_pos o1]; exact o4, o5⟩
        | false =>
          left
          simp only [Bool.false_eq_true, if_false]
          have hbt : r.note.ticks = t := by
            rw [hb] at o4
            simp only [Option.some.injEq] at o4
            rw [← o4, hconv] at o5
            exact (Option.some.inj o5).symm
          refine ⟨by omega, fun c1 c2 => ?_⟩
          split
          · simp [o1]
          · rename_i hk
            have := hpos hk
            omega
    · rw [List.mem_singleton.mp hr]
      simp only [parseNoteData]
      cases hn : nc with
      | true =>
        right
        simp only [if_true, Bool.or_true, true_and]
        refine ⟨n.dur, ?_, hconv⟩
        split
        · rename_i hch; exact p2 hch
        · rfl
      | false =>
        left
        simp only [Bool.false_eq_true, if_false, Bool.or_false]
        refine ⟨le_refl _, fun c1 c2 => ?_⟩
        split
        · simp [c1]
        · rename_i hk
          have := hpos hk
          omega

theorem passing_quiet {env : REnv} {e : Elem P} {es : List (Elem P)} {base : Option Int} {g : Bool} {st st' : RSt P} (h : Passing env (e :: es) base g st)
    (hn : nextIsChord (e :: es) = nextIsChord es) (h1 : st.tick ≤ st'.tick)
    (h2 : nextIsChord es = true → st'.tick = st.tick ∧ st'.ticksPerQuarter = st.ticksPerQuarter) (h3 : st'.notes = st.notes) (h4 : st'.voiceIndex = st.voiceIndex)
    (h5 : st'.isBackupInProgress = false) : Passing env es base g st' := by
  refine ⟨le_trans h.tick h1, ?_, by rw [h3]; exact h.notes, by rw [h3]; exact h.pairs, ?_⟩
  · rw [h3, h4, h5]
    exact fun r hr => ⟨(h.voices r hr).1, fun e => by cases e⟩
  · rw [h3, h4]
    intro r hr hv
    have hok := (h.notes r hr).1
    have hlen : 0 ≤ r.note.ticks := by
      by_cases hk : r.note.kind = .grace
      · rw [hok.2.1 hk]
      · exact le_of_lt (hok.2.2 hk)
    rcases h.now r hr hv with ⟨d1, d2⟩ | ⟨o1, o2, o3, o4⟩
    · exact .inl ⟨by omega, fun c1 c2 => d2 c1 (by omega)⟩
    · rw [hn] at o1
      obtain ⟨e1, e2⟩ := h2 o1
      exact .inr ⟨o1, by rw [e1]; exact o2, o3, by rw [e2]; exact o4⟩

theorem passing_elems {env : REnv} (hG : 0 < env.globalTicksPerQuarter) : ∀ (es : List (Elem P)) (c : Clock) (cb base : Option Int) (g : Bool) (st st' : RSt P),
    WellTimed env.globalTicksPerQuarter c cb es → PlainChords base g es → 0 < st.ticksPerQuarter → c.division = 1 / (st.ticksPerQuarter : ℚ) → Passing env es base g st →
    readElems env false es st = some st' → ∃ base' g', Passing env [] base' g' st' := by
  intro es
  induction es with
  | nil =>
    intro c cb base g st st' _ _ _ _ h he
    simp only [readElems, Option.some.injEq] at he
    subst he
    exact ⟨base, g, h⟩
  | cons e es ih =>
    intro c cb base g st st' hw hp hC hdiv h he
    rw [readElems] at he
    simp only [Option.bind_eq_bind, Option.bind_eq_some_iff] at he
    obtain ⟨s1, h1, h2⟩ := he
    cases e with
    | note n =>
      have hs : s1.ticksPerQuarter = st.ticksPerQuarter := by
        simp only [parseElem, parseNote, Option.bind_eq_bind, Option.bind_eq_some_iff] at h1
        obtain ⟨t, _, h1⟩ := h1
        split at h1
        · cases h1
        · simp only [Option.some.injEq] at h1
          rw [← h1]
      refine ih (c.step (.note n)) _ _ _ s1 st' hw.2.2.2.2 hp.2.2.2 (by rw [hs]; exact hC) ?_ (passing_note hG h hC hdiv hw hp h1) h2
      rw [hs]
      simp only [Clock.step]
      split <;> exact hdiv
    | backup d =>
      simp only [parseElem, parseBackup, Option.bind_eq_bind, Option.bind_eq_some_iff, Option.some.injEq] at h1
      obtain ⟨x, hx, rfl⟩ := h1
      refine ih (c.step (P := P) (.backup d)) _ base false _ st' hw.2.2 hp (by exact hC) (by exact hdiv) ?_ h2
      have hlt : ∀ r ∈ st.notes, r.voice < (if st.isBackupInProgress = true then st.voiceIndex else st.voiceIndex + 1) := by
        intro r hr
        split
        · rename_i hb; exact (h.voices r hr).2 hb
        · have := (h.voices r hr).1; omega
      refine ⟨?_, fun r hr => ⟨le_of_lt (hlt r hr), fun _ => hlt r hr⟩, h.notes, h.pairs, ?_⟩
      · simp only
        split <;> omega
      · intro r hr hv
        have h1 := hlt r hr
        simp only at hv
        rw [hv] at h1
        exact absurd h1 (lt_irrefl _)
    | forward d =>
      simp only [parseElem, parseForward, Option.bind_eq_bind, Option.bind_eq_some_iff, Option.some.injEq] at h1
      obtain ⟨x, hx, rfl⟩ := h1
      have h0 := convertDuration_nonneg (le_of_lt hC) (le_of_lt hG) hw.2.1 hx
      have hno := wellTimed_none hw.2.2
      refine ih (c.step (P := P) (.forward d)) _ base g _ st' hw.2.2 hp (by exact hC) (by exact hdiv) ?_ h2
      exact passing_quiet h rfl (by simp only; omega) (fun e => by rw [hno] at e; cases e) rfl rfl rfl
    | direction s o x =>
      simp only [parseElem, parseDirection] at h1
      split at h1
      · cases h1
      · simp only [Option.some.injEq] at h1
        subst h1
        exact ih c cb base g _ st' hw hp (by exact hC) (by exact hdiv) (by exact passing_quiet h rfl (le_refl _) (fun _ => ⟨rfl, rfl⟩) rfl rfl rfl) h2
    | attributes a =>
      simp only [parseElem, parseProperties] at h1
      split at h1
      · cases h1
      · simp only [Option.some.injEq] at h1
        subst h1
        obtain ⟨w1, w2⟩ := hw
        cases ha : a.divisions with
        | none =>
          simp only [ha, Option.isSome_none, Bool.false_eq_true, if_false] at w2 h2
          have hc : c.step (.attributes a) = c := by simp [Clock.step, ha]
          rw [hc] at w2
          exact ih c cb base g _ st' w2 hp (by exact hC) (by exact hdiv) (by exact passing_quiet h rfl (le_refl _) (fun _ => ⟨rfl, rfl⟩) rfl rfl rfl) h2
        | some d =>
          obtain ⟨k, hk, rfl⟩ := w1 d ha
          simp only [ha, Option.isSome_some, if_true] at w2 h2
          have hr : roundMicro (k * 1000000) = k := roundMicro_mul k
          rw [hr] at h2
          have hno := wellTimed_none w2
          refine ih (c.step (.attributes a)) _ base g _ st' w2 hp (by exact hk) ?_ (by exact passing_quiet h rfl (le_refl _) (fun e => by rw [hno] at e; cases e) rfl rfl rfl) h2
          simp only [Clock.step, ha]
          have : (k : ℚ) ≠ 0 := by exact_mod_cast (by omega)
          push_cast
          field_simp
    | barline l x =>
      simp only [parseElem, parseBarline, Option.some.injEq] at h1
      subst h1
      exact ih c cb base g _ st' hw hp (by exact hC) (by exact hdiv) (by exact passing_quiet h rfl (le_refl _) (fun _ => ⟨rfl, rfl⟩) rfl rfl rfl) h2
    | other =>
      simp only [parseElem, Option.some.injEq] at h1
      subst h1
      exact ih c cb base g _ st' hw hp (by exact hC) (by exact hdiv) (by exact passing_quiet h rfl (le_refl _) (fun _ => ⟨rfl, rfl⟩) rfl rfl rfl) h2

/-- A plain measure that is read can be placed. -/
theorem passing_ok {env : REnv} {base : Option Int} {g : Bool} {st : RSt P} (h : Passing env [] base g st) : MeasureOk (measureOf env st) := by
  intro s hs v hv
  obtain ⟨i, _, rfl⟩ := List.mem_map.mp hs
  obtain ⟨w, hw, e⟩ := (consolidate_spec _).2.2 v hv
  obtain ⟨a1, a2, _, a4⟩ := voicesOf_spec (i : Int) st.notes
  have hline : w.2 = line i w.1 st.notes := by rw [← notesAt_of_mem a1 hw, a4]; rfl
  rw [e, hline]
  refine ⟨?_, ?_⟩
  · intro n hn
    obtain ⟨r, hr1, rfl, _, _⟩ := mem_line hn
    exact (h.notes r hr1).1
  · apply List.Pairwise.isChain
    unfold line
    refine List.pairwise_map.mpr ?_
    have hp := (h.pairs.filter (fun r => decide (r.staff = (i : Int)))).filter (fun r => decide (r.voice = w.1))
    refine hp.imp_of_mem ?_
    intro a b ha hb hab
    have ha := of_decide_eq_true (List.mem_filter.mp ha).2
    have hb := of_decide_eq_true (List.mem_filter.mp hb).2
    exact hab (ha.trans hb.symm)

/-! ### the notes of a measure that was read -/

/-- A note that was read, as it is heard. -/
def ReadNote.heard (G : Int) (r : ReadNote P) : ℚ × ℚ × Int × P := ((r.note.tick : ℚ) / G, (r.note.ticks : ℚ) / G, r.staff, r.note.content)

theorem heard_of_place {G : Int} {rs : List (ReadNote P)} {ps : List (Placed P)} (h : rs.map (ReadNote.place G) = ps.map Placed.place) : rs.map (ReadNote.heard G) = ps.map Placed.heard := by
  have := congrArg (List.map (fun x : ℚ × ℚ × Int × Int × P => (x.1, x.2.1, x.2.2.1, x.2.2.2.2))) h
  rw [List.map_map, List.map_map] at this
  exact this

theorem expected_staff (G : Int) (N : Nat) (i : Nat) (hi : i < N) (st : RSt P) :
    (((staffOf st i).voices.flatMap (fun v => v.2.map (expectedNote G N i v.1))).map Placed.heard).Perm ((st.notes.filter (fun r => r.staff = (i : Int))).map (ReadNote.heard G)) := by
  have h1 : ((staffOf st i).voices.flatMap (fun v => v.2.map (expectedNote G N i v.1))).map Placed.heard =
      (allNotes (staffOf st i).voices).map (fun n : NoteData P => (((n.tick : ℚ) / G, (n.ticks : ℚ) / G, (i : Int), n.content) : ℚ × ℚ × Int × P)) := by
    unfold allNotes
    rw [List.map_flatMap, List.map_flatMap]
    refine List.flatMap_congr (fun v _ => ?_)
    rw [List.map_map]
    refine List.map_congr_left (fun n _ => ?_)
    simp only [Function.comp_apply, Placed.heard, expectedNote, Placed.staffIndex, Prod.mk.injEq, true_and, and_true]
    split
    · simp
    · simp; omega
  rw [h1]
  have h2 := (consolidate_spec (voicesOf (i : Int) st.notes)).2.1.trans (voicesOf_spec (i : Int) st.notes).2.2.1
  refine (h2.map _).trans ?_
  rw [List.map_map]
  refine List.Perm.of_eq (List.map_congr_left (fun r hr => ?_))
  have := of_decide_eq_true (List.mem_filter.mp hr).2
  simp only [Function.comp_apply, ReadNote.heard, this]

theorem expected_range (G : Int) (N : Nat) (st : RSt P) : ∀ (k i : Nat), i + k ≤ N →
    ((expectedFrom G N i ((List.range' i k).map (fun j : Nat => staffOf st (j : Int)))).map Placed.heard).Perm
      ((st.notes.filter (fun r => decide ((i : Int) ≤ r.staff ∧ r.staff < (i : Int) + (k : Int)))).map (ReadNote.heard G)) := by
  intro k
  induction k with
  | zero =>
    intro i _
    rw [List.filter_eq_nil_iff.mpr (fun r _ => by simp only [decide_eq_true_eq]; omega)]
    exact List.Perm.refl _
  | succ k ih =>
    intro i hi
    rw [List.range'_succ, List.map_cons]
    simp only [expectedFrom, List.map_append]
    have h1 := expected_staff G N i (by omega) st
    have h2 := ih (i + 1) (by omega)
    rw [Nat.cast_add i 1, Nat.cast_one] at h2
    refine (h1.append h2).trans ?_
    rw [← List.map_append]
    refine List.Perm.map _ ?_
    clear h1 h2
    refine (Mx.filter_split st.notes _ _ _ (fun r _ => ?_)).symm
    by_cases e1 : r.staff = (i : Int)
    · have e2 : ¬ ((i : Int) + 1 ≤ r.staff ∧ r.staff < (i : Int) + 1 + (k : Int)) := by omega
      have e3 : (i : Int) ≤ r.staff ∧ r.staff < (i : Int) + ((k + 1 : Nat) : Int) := by omega
      rw [decide_eq_true e1, decide_eq_false e2, decide_eq_true e3]
      exact ⟨rfl, rfl⟩
    · have e3 : ((i : Int) ≤ r.staff ∧ r.staff < (i : Int) + ((k + 1 : Nat) : Int)) ↔ ((i : Int) + 1 ≤ r.staff ∧ r.staff < (i : Int) + 1 + (k : Int)) := by omega
      rw [decide_eq_false e1, decide_eq_decide.mpr e3]
      exact ⟨rfl, rfl⟩

/-- The notes of a measure that was read are those that were read. -/
theorem expected_read {env : REnv} {G : Int} {N : Nat} (hN : env.numStaves = N) {st : RSt P} (h : ∀ r ∈ st.notes, 0 ≤ r.staff ∧ r.staff < env.numStaves) :
    ((expectedNotes G N (measureOf env st)).map Placed.heard).Perm (st.notes.map (ReadNote.heard G)) := by
  unfold expectedNotes measureOf
  simp only
  rw [hN, Int.toNat_natCast, List.range_eq_range']
  have := expected_range G N st N 0 (by omega)
  rw [List.filter_eq_self.mpr (fun r hr => by have := h r hr; rw [hN] at this; simp only [decide_eq_true_eq]; omega)] at this
  exact this

/-! ### the measures of a part that is written -/

theorem divisionsAfter_said {t : Int} : ∀ (es : List (Elem P)) (d : Int), (∀ a, Elem.attributes a ∈ es → ∀ x, a.divisions = some x → x = t * MICRO) →
    (∃ a, Elem.attributes a ∈ es ∧ a.divisions = some (t * MICRO)) → divisionsAfter d es = t := by
  intro es
  induction es with
  | nil => rintro d _ ⟨a, ha, _⟩; cases ha
  | cons e es ih =>
    intro d h hs
    have h' : ∀ a, Elem.attributes a ∈ es → ∀ x, a.divisions = some x → x = t * MICRO := fun a ha => h a (by simp [ha])
    cases e with
    | attributes a =>
      simp only [divisionsAfter]
      cases hd : a.divisions with
      | none =>
        obtain ⟨b, hb, hb2⟩ := hs
        rcases List.mem_cons.mp hb with hb | hb
        · cases hb; rw [hd] at hb2; cases hb2
        · exact ih _ h' ⟨b, hb, hb2⟩
      | some x =>
        have hx := h a (by simp) x hd
        have : x / 1000000 = t := by rw [hx]; unfold MICRO; omega
        simp only [this]
        exact divisionsAfter_same es h'
    | note n => exact ih d h' (by obtain ⟨b, hb, hb2⟩ := hs; rcases List.mem_cons.mp hb with hb | hb; cases hb; exact ⟨b, hb, hb2⟩)
    | backup n => exact ih d h' (by obtain ⟨b, hb, hb2⟩ := hs; rcases List.mem_cons.mp hb with hb | hb; cases hb; exact ⟨b, hb, hb2⟩)
    | forward n => exact ih d h' (by obtain ⟨b, hb, hb2⟩ := hs; rcases List.mem_cons.mp hb with hb | hb; cases hb; exact ⟨b, hb, hb2⟩)
    | direction s o p => exact ih d h' (by obtain ⟨b, hb, hb2⟩ := hs; rcases List.mem_cons.mp hb with hb | hb; cases hb; exact ⟨b, hb, hb2⟩)
    | barline l p => exact ih d h' (by obtain ⟨b, hb, hb2⟩ := hs; rcases List.mem_cons.mp hb with hb | hb; cases hb; exact ⟨b, hb, hb2⟩)
    | other => exact ih d h' (by obtain ⟨b, hb, hb2⟩ := hs; rcases List.mem_cons.mp hb with hb | hb; cases hb; exact ⟨b, hb, hb2⟩)

theorem partPlaced_rest {tpq : Int} (ht : 0 < tpq) (N : Nat) : ∀ (ms : List (Extras × MeasureData P)), (∀ x ∈ ms, MeasureOk x.2) →
    partPlaced tpq (writeMeasuresFrom N tpq false ms) = ms.map (fun x => expectedNotes tpq N x.2) := by
  intro ms
  induction ms with
  | nil => intro _; rfl
  | cons x ms ih =>
    intro h
    obtain ⟨x, m⟩ := x
    simp only [writeMeasuresFrom, partPlaced, List.map_cons]
    rw [divisionsAfter_same _ (measure_divisions ht (x.env N tpq false) rfl m), ih (fun y hy => h y (by simp [hy]))]
    congr 1
    exact clock_measure ht (x.env N tpq false) m tpq rfl (fun _ => rfl) (h (x, m) (by simp))

/-- The notes of a written part are where they should be. -/
theorem partPlaced_written {tpq : Int} (ht : 0 < tpq) (tr : Option Extras) (N : Nat) (ms : List (Extras × MeasureData P)) (hne : ms ≠ []) (hN : ∀ x ∈ ms, x.2.staves.length = N)
    (h : ∀ x ∈ ms, MeasureOk x.2) (d : Int) : partPlaced d (writePart tpq tr ms) = ms.map (fun x => expectedNotes tpq N x.2) := by
  obtain ⟨⟨x, m⟩, rest, rfl⟩ := List.exists_cons_of_ne_nil hne
  have hl := hN (x, m) (by simp)
  simp only at hl
  unfold writePart
  simp only
  rw [hl]
  simp only [writeMeasuresFrom, partPlaced, List.map_cons]
  have hs := (written_divisions tpq ht none [(x, m)] (by simp)).1
  unfold writePart at hs
  simp only [writeMeasuresFrom, List.mem_singleton, exists_eq_left] at hs
  rw [hl] at hs
  rw [divisionsAfter_said _ d (measure_divisions ht (x.env N tpq true) rfl m) hs, partPlaced_rest ht N rest (fun y hy => h y (by simp [hy]))]
  congr 1
  exact clock_measure ht (x.env N tpq true) m d rfl (fun e => by cases e) (h (x, m) (by simp))

/-! ### parts and scores -/

theorem readMeasures_passing {G : Int} (hG : 0 < G) {N : Int} : ∀ (ms : List (List (Elem P))) (d : Int), 0 < d → d ∣ G →
    PartTimed N d ms → (∀ m ∈ ms, DividesAll G m) → (∀ m ∈ ms, PlainChords none false m) →
    ∃ rs t, readMeasures ⟨N, G⟩ d ms = some (rs, t) ∧
      List.Forall₂ (fun ps r => (r.notes.map (ReadNote.heard G) = ps.map Placed.heard) ∧ ∃ base g, Passing ⟨N, G⟩ [] base g r) (partPlaced d ms) rs := by
  intro ms
  induction ms with
  | nil => intro d _ _ _ _ _; exact ⟨[], d, rfl, .nil⟩
  | cons m ms ih =>
    intro d h1 h2 hp hd hc
    obtain ⟨w, s, hp'⟩ := hp
    have hdiv : (Clock.init (d : ℚ)).division = 1 / (d : ℚ) := rfl
    have hw : WellTimed G (Clock.init d) none m := wellTimed_of_whole m _ none d h1 hdiv h2 (hd m (by simp)) w
    obtain ⟨r, g1, g2⟩ := read_follows (env := ⟨N, G⟩) hG rfl m (Clock.init d) none (initRSt d) hw s ⟨h1, rfl, by simp [initRSt, Clock.init], wellTimed_none hw⟩
    have g2 : r.notes.map (ReadNote.place G) = (placedNotes (Clock.init d) m).map Placed.place := by simpa [initRSt] using g2
    have htpq := readElems_tpq m (initRSt d) r (wholeDivisions_of_whole m _ none w) g1
    have htpq : r.ticksPerQuarter = divisionsAfter d m := htpq
    obtain ⟨o1, o2⟩ := divisionsAfter_ok m d h1 h2 (wholeDivisions_of_whole m _ none w) (hd m (by simp))
    obtain ⟨rs, t, i1, i2⟩ := ih (divisionsAfter d m) o1 o2 hp' (fun x hx => hd x (by simp [hx])) (fun x hx => hc x (by simp [hx]))
    have hpass := passing_elems (env := ⟨N, G⟩) hG m (Clock.init d) none none false (initRSt d) r hw (hc m (by simp)) h1 rfl
      ⟨by simp [initRSt], by simp [initRSt], by simp [initRSt], by simp [initRSt], by simp [initRSt]⟩ g1
    refine ⟨r :: rs, t, ?_, ?_⟩
    · simp only [readMeasures, Option.bind_eq_bind]
      rw [g1]
      simp only [Option.bind_some]
      rw [htpq, i1]; rfl
    · exact .cons ⟨heard_of_place g2, hpass⟩ i2

/-- What is known of a plain part that was loaded, compared with the notes of the file. -/
def Loaded (G : Int) (p : List (List (Child P))) (ms : List (MeasureData P)) : Prop :=
  ∃ N : Nat, 1 ≤ N ∧ ms ≠ [] ∧ (∀ m ∈ ms, m.staves.length = N ∧ MeasureOk m) ∧
    List.Forall₂ (fun ps m => SoundsLike (expectedNotes G N m) ps) (partPlaced 1 (partElems p)) ms

theorem getPartData_passing {G : Int} (hG : 0 < G) (dv : Int) {p : List (List (Child P))} (hp : PlainPart p) (hd : ∀ m ∈ partElems p, DividesAll G m) :
    ∃ ms t, getPartData G dv p = some (ms, t) ∧ Loaded G p ms := by
  obtain ⟨N, hN, ht⟩ := hp.timed
  have hs := calculateNumStaves_spec p
  have hN' : calculateNumStaves p = N := staffCount_unique hs hN
  have hne : partElems p ≠ [] := by
    intro e
    exact hp.nonempty (List.map_eq_nil_iff.mp e)
  obtain ⟨rs, t, h1, h2⟩ := readMeasures_passing hG (partElems p) 1 (by omega) (one_dvd _) ht hd hp.chords
  have henv : partEnv G p = ⟨N, G⟩ := by unfold partEnv; rw [hN']
  refine ⟨rs.map (measureOf ⟨N, G⟩), t, ?_, N.toNat, by have := hN.one; omega, ?_, ?_, ?_⟩
  · unfold getPartData readPart
    rw [henv, readMeasures_declares hp.declared hne _ 1, h1]
    rfl
  · intro e
    have := h2.length_eq
    rw [List.map_eq_nil_iff.mp e] at this
    cases hq : partElems p with
    | nil => exact hne hq
    | cons x xs => rw [hq] at this; simp [partPlaced] at this
  · intro m hm
    obtain ⟨r, hr, rfl⟩ := List.mem_map.mp hm
    obtain ⟨i, hi⟩ := List.getElem?_of_mem hr
    have hlt := (List.getElem?_eq_some_iff.mp hi).1
    have hpair := h2.get (i := i) (by rw [h2.length_eq]; exact hlt) hlt
    obtain ⟨_, base, g, hpass⟩ := hpair
    have e : rs.get ⟨i, hlt⟩ = r := (List.getElem?_eq_some_iff.mp hi).2
    rw [e] at hpass
    exact ⟨by simp [measureOf], passing_ok hpass⟩
  · rw [List.forall₂_map_right_iff]
    refine h2.imp ?_
    rintro ps r ⟨e, base, g, hpass⟩
    have hone := hN.one
    have := expected_read (env := ⟨N, G⟩) (G := G) (N := N.toNat) (by simp only; omega) (st := r) (fun x hx => (hpass.notes x hx).2)
    rw [e] at this
    exact this

theorem getParts_passing {G : Int} (hG : 0 < G) : ∀ (ps : List (List (List (Child P)))) (dv : Int), (∀ p ∈ ps, PlainPart p ∧ ∀ m ∈ partElems p, DividesAll G m) →
    ∃ o, getParts G dv ps = some o ∧ List.Forall₂ (Loaded G) ps o := by
  intro ps
  induction ps with
  | nil => intro dv _; exact ⟨[], rfl, .nil⟩
  | cons p ps ih =>
    intro dv h
    obtain ⟨ms, t, h1, h2⟩ := getPartData_passing hG dv (h p (by simp)).1 (h p (by simp)).2
    obtain ⟨o, h3, h4⟩ := ih t (fun q hq => h q (by simp [hq]))
    refine ⟨ms :: o, ?_, .cons h2 h4⟩
    simp only [getParts, Option.bind_eq_bind]
    rw [h1]
    simp only [Option.bind_some]
    rw [h3]; rfl

/-- What is written of a loaded part sounds like the file. -/
theorem loaded_written {G : Int} (hG : 0 < G) {p : List (List (Child P))} {q : PartData P} (h : Loaded G p (q.measures.map (·.2))) (d : Int) :
    List.Forall₂ SoundsLike (partPlaced 1 (partElems p)) (partPlaced d (writePart G q.transposition q.measures)) := by
  obtain ⟨N, _, hne, hm, hf⟩ := h
  have hne : q.measures ≠ [] := by intro e; exact hne (by rw [e]; rfl)
  rw [partPlaced_written hG q.transposition N q.measures hne (fun x hx => (hm _ (List.mem_map_of_mem hx)).1) (fun x hx => (hm _ (List.mem_map_of_mem hx)).2) d]
  rw [List.forall₂_map_right_iff] at hf ⊢
  exact hf.imp (fun _ _ h => h.symm)

theorem reconcile_all {X : Type} (file : List (Str × X)) (h : (file.map (·.1)).Nodup) : reconcileParts (file.map (·.1)) file = file.map (·.2) := by
  have key : ∀ p ∈ file, file.find? (fun q => decide (q.1 = p.1)) = some p := by
    intro p hp
    cases hq : file.find? (fun q => decide (q.1 = p.1)) with
    | none =>
      have := List.find?_eq_none.mp hq p hp
      simp at this
    | some q =>
      have h1 := List.find?_some hq
      have h1 := of_decide_eq_true h1
      have h2 := List.mem_of_find?_eq_some hq
      rw [List.inj_on_of_nodup_map h h2 hp h1]
  unfold reconcileParts
  rw [List.filterMap_map]
  have : ∀ p ∈ file, ((fun i => Option.map (·.2) (file.find? (fun q => decide (q.1 = i)))) ∘ (·.1)) p = some p.2 := by
    intro p hp
    simp only [Function.comp_apply]
    rw [key p hp]; rfl
  rw [List.filterMap_congr this]
  simp

end Mx.Measure
