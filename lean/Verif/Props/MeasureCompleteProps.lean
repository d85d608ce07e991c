import Verif.Proofs.MeasureComplete
import Verif.Proofs.MeasureRoundTrip
import Verif.Props.RoundTripProps

/-!
# Property C71: nothing of a measure is lost or put onto another staff, whatever the times are
Specification: `Verif/Spec/MeasureComplete.lean`.
-/
namespace Mx.Props
open Spec Mx.Measure

variable {P : Type}

/-- All facts about the result. -/
theorem complete_facts (env : WEnv) (divisionsBefore : Int) (m : MeasureData P) (h : Suits env divisionsBefore m) :
    ∃ m' r, writeThenRead env divisionsBefore m = some m' ∧ m'.staves.length = m.staves.length ∧
      (∀ (i : Nat) (s : StaffData P), m.staves[i]? = some s → m'.staves[i]? = some (staffOf r i)) ∧
      r.notes.map readRec = (stavesNotes env.numStaves 0 m.staves).map noteFound ∧
      r.directions.map (fun d => (d.1, d.2.content)) = (stavesDirs 0 m.staves).map dirFound ∧
      r.clefs.map (fun c => (c.1, c.2.content)) = (earlyClefsOut env.numStaves 0 m.staves ++ stavesClefs 0 m.staves).map (fun c => (clefStaff c, c.content)) ∧
      m'.keys.map (fun k => (k.isTraditional, k.content)) = (keysIn (writeMeasure env m)).map (fun k => (k.isTraditional, k.content)) ∧
      m'.barlines.map (·.content) = (m.barlines.takeWhile (fun b => b.tick ≤ 0) ++ (m.barlines.dropWhile (fun b => b.tick ≤ 0)).takeWhile (fun b => b.tick ≤ TICK_TIME_INFINITY)).map (·.content) := by
  obtain ⟨a1, a2, a3, a4, a5, _, _⟩ := measure_complete env m h.positive (le_of_eq h.staves)
  have hk : (!env.isFirstMeasureInPart) = true → (initRSt divisionsBefore : RSt P).ticksPerQuarter = env.ticksPerQuarter := fun hf => h.known (by simpa using hf)
  obtain ⟨r, b0, b1, b2, b3, b4, b5⟩ := read_timely (env := ⟨env.numStaves, env.ticksPerQuarter⟩) h.positive h.scale false (writeMeasure env m) _ (initRSt divisionsBefore) a1 hk
  have i1 : (initRSt divisionsBefore : RSt P).notes = [] := rfl
  have i2 : (initRSt divisionsBefore : RSt P).directions = [] := rfl
  have i3 : (initRSt divisionsBefore : RSt P).clefs = [] := rfl
  have i4 : (initRSt divisionsBefore : RSt P).keys = [] := rfl
  have i5 : (initRSt divisionsBefore : RSt P).barlines = [] := rfl
  rw [i1, List.map_nil, List.nil_append, a2] at b1
  rw [i2, List.map_nil, List.nil_append, a4] at b2
  rw [i3, List.map_nil, List.nil_append, a5] at b3
  rw [i4, List.map_nil, List.nil_append] at b4
  rw [i5, List.map_nil, List.nil_append, a3] at b5
  have hkeys : (writeMeasure env m).flatMap Elem.keyElems = keysIn (writeMeasure env m) := by
    unfold keysIn
    congr 1
  rw [hkeys] at b4
  refine ⟨_, r, (by unfold writeThenRead readMeasure; rw [b0]; rfl), ?_, ?_, b1, b2, b3, b4, b5⟩
  · have := h.staves; simp; omega
  · intro i s hi
    have hlt := (List.getElem?_eq_some_iff.mp hi).1
    have := h.staves
    rw [List.getElem?_map, List.getElem?_range (by simp only; omega)]
    rfl

/-! ## C71 -/

/-- **C71** Whatever times, lengths and chord flags the notes have: writing a measure and reading it back gives on each staff exactly the notes
of this staff, each as often as before, with their kind, length, voice and content. -/
theorem C71_notes (env : WEnv) (divisionsBefore : Int) (m : MeasureData P) (h : Suits env divisionsBefore m) :
    ∃ m', writeThenRead env divisionsBefore m = some m' ∧ m'.staves.length = m.staves.length ∧
      ∀ (i : Nat) (s s' : StaffData P), m.staves[i]? = some s → m'.staves[i]? = some s' → (readNotes s').Perm (staffNotes s) := by
  obtain ⟨m', r, h1, h2, h3, h4, _⟩ := complete_facts env divisionsBefore m h
  refine ⟨m', h1, h2, ?_⟩
  intro i s s' hi hi'
  rw [h3 i s hi] at hi'
  simp only [Option.some.injEq] at hi'
  rw [← hi']
  have hp := (C33_no_note_lost r (i : Int)).map (fun n : NoteData P => (n.kind, n.ticks, n.userVoice, n.content))
  have e1 : readNotes (staffOf r i) = ((staffOf r (i : Int)).voices.flatMap (·.2)).map (fun n : NoteData P => (n.kind, n.ticks, n.userVoice, n.content)) := by
    unfold readNotes
    rw [List.map_flatMap]
  have e2 : ((r.notes.filter (fun r => decide (r.staff = (i : Int)))).map (·.note)).map (fun n : NoteData P => (n.kind, n.ticks, n.userVoice, n.content)) =
      ((r.notes.map readRec).filter (fun x => decide (x.1 = (i : Int)))).map (·.2) := by
    rw [List.filter_map, List.map_map, List.map_map]; rfl
  have e3 := found_staves (n := env.numStaves) m.staves 0 (le_refl _) (by have := h.staves; omega) i s hi
  simp only [zero_add] at e3
  rw [e1, ← e3, ← h4, ← e2]
  exact hp

theorem dirsFound_tagged : ∀ (ss : List (StaffData P)) (i : Int), 0 ≤ i → (stavesDirs i ss).map dirFound = tagged (fun _ s => s.directions.map (·.content)) i ss
  | [], i, _ => rfl
  | s :: ss, i, h0 => by
    rw [stavesDirs, tagged, List.map_append, dirsFound_tagged ss (i + 1) (by omega), List.map_map, List.map_map]
    congr 1
    apply List.map_congr_left
    intro d _
    simp only [Function.comp, dirRec, dirFound]
    by_cases hc : (d.isStaffValueSpecified || i != 0) = true
    · rw [if_pos hc]; simp
    · rw [if_neg hc]
      have : i = 0 := by simp at hc; exact hc.2
      simp [this]

/-- **C71** On each staff the same directions come back in the same order. -/
theorem C71_directions (env : WEnv) (divisionsBefore : Int) (m : MeasureData P) (h : Suits env divisionsBefore m) :
    ∃ m', writeThenRead env divisionsBefore m = some m' ∧
      m'.staves.map (fun s => s.directions.map (·.content)) = m.staves.map (fun s => s.directions.map (·.content)) := by
  obtain ⟨m', r, h1, h2, h3, _, h5, _⟩ := complete_facts env divisionsBefore m h
  refine ⟨m', h1, staves_ext _ _ h2 (fun i s hi => ⟨_, h3 i s hi, ?_⟩)⟩
  show ((r.directions.filter _).map _).map _ = _
  have hswap : ((r.directions.filter (fun c => decide (c.1 = (i : Int)))).map (·.2)).map (·.content) =
      ((r.directions.map (fun c => (c.1, c.2.content))).filter (fun c => decide (c.1 = (i : Int)))).map (·.2) := by
    rw [List.filter_map, List.map_map, List.map_map]; rfl
  have e1 := filter_tagged (fun _ s => s.directions.map (·.content)) m.staves 0 i s hi
  simp only [zero_add] at e1
  rw [hswap, h5, dirsFound_tagged m.staves 0 (le_refl _), e1]

theorem earlyFound_tagged (n : Int) : ∀ (ss : List (StaffData P)) (i : Int), 0 ≤ i → i + ss.length ≤ n →
    (earlyClefsOut n i ss).map (fun c => (clefStaff c, c.content)) = tagged (fun _ s => (s.clefs.takeWhile (fun x => x.tick = 0)).map (·.content)) i ss
  | [], i, _, _ => rfl
  | s :: ss, i, h0, hl => by
    rw [List.length_cons] at hl
    push_cast at hl
    rw [earlyClefsOut, tagged, List.map_append, earlyFound_tagged n ss (i + 1) (by omega) (by omega), List.map_map, List.map_map]
    congr 1
    apply List.map_congr_left
    intro x _
    simp only [Function.comp_def, clefOut, clefStaff]
    by_cases hn : n > 1
    · simp [hn, h0]
    · have : i = 0 := by omega
      simp [hn, this]

theorem lateFound_tagged : ∀ (ss : List (StaffData P)) (i : Int), 0 ≤ i →
    (stavesClefs i ss).map (fun c => (clefStaff c, c.content)) = tagged (fun _ s => (s.clefs.dropWhile (fun x => x.tick = 0)).map (·.content)) i ss
  | [], i, _ => rfl
  | s :: ss, i, h0 => by
    rw [stavesClefs, tagged, List.map_append, lateFound_tagged ss (i + 1) (by omega), List.map_map, List.map_map]
    congr 1
    apply List.map_congr_left
    intro x _
    simp [Function.comp_def, clefOut, clefStaff, h0]

/-- **C71** On each staff the same clefs come back in the same order. -/
theorem C71_clefs (env : WEnv) (divisionsBefore : Int) (m : MeasureData P) (h : Suits env divisionsBefore m) :
    ∃ m', writeThenRead env divisionsBefore m = some m' ∧
      m'.staves.map (fun s => s.clefs.map (·.content)) = m.staves.map (fun s => s.clefs.map (·.content)) := by
  obtain ⟨m', r, h1, h2, h3, _, _, h6, _⟩ := complete_facts env divisionsBefore m h
  refine ⟨m', h1, staves_ext _ _ h2 (fun i s hi => ⟨_, h3 i s hi, ?_⟩)⟩
  show ((r.clefs.filter _).map _).map _ = _
  have hswap : ((r.clefs.filter (fun c => decide (c.1 = (i : Int)))).map (·.2)).map (·.content) =
      ((r.clefs.map (fun c => (c.1, c.2.content))).filter (fun c => decide (c.1 = (i : Int)))).map (·.2) := by
    rw [List.filter_map, List.map_map, List.map_map]; rfl
  rw [hswap, h6, List.map_append, earlyFound_tagged env.numStaves m.staves 0 (le_refl _) (by have := h.staves; omega), lateFound_tagged m.staves 0 (le_refl _), List.filter_append, List.map_append]
  have e1 := filter_tagged (fun _ s => (s.clefs.takeWhile (fun x => x.tick = 0)).map (·.content)) m.staves 0 i s hi
  have e2 := filter_tagged (fun _ s => (s.clefs.dropWhile (fun x => x.tick = 0)).map (·.content)) m.staves 0 i s hi
  simp only [zero_add] at e1 e2
  rw [e1, e2, ← List.map_append, List.takeWhile_append_dropWhile]

/-- **C71** The same barlines come back in the same order (times are machine integers, so none is later than the largest one). -/
theorem C71_barlines (env : WEnv) (divisionsBefore : Int) (m : MeasureData P) (h : Suits env divisionsBefore m) (hb : ∀ b ∈ m.barlines, b.tick ≤ TICK_TIME_INFINITY) :
    ∃ m', writeThenRead env divisionsBefore m = some m' ∧ m'.barlines.map (·.content) = m.barlines.map (·.content) := by
  obtain ⟨m', r, h1, _, _, _, _, _, _, h8⟩ := complete_facts env divisionsBefore m h
  refine ⟨m', h1, ?_⟩
  rw [h8]
  have : (m.barlines.dropWhile (fun b => decide (b.tick ≤ 0))).takeWhile (fun b => decide (b.tick ≤ TICK_TIME_INFINITY)) =
      m.barlines.dropWhile (fun b => decide (b.tick ≤ 0)) := by
    apply takeWhile_all
    intro b hb'
    simpa using hb b (List.dropWhile_subset _ hb')
  rw [this, List.takeWhile_append_dropWhile]

/-- **C71** All keys of a document are read, in the order of the document (see `C71_keys_written` for the keys that are written). -/
theorem C71_keys_read (env : WEnv) (divisionsBefore : Int) (m : MeasureData P) (h : Suits env divisionsBefore m) :
    ∃ m', writeThenRead env divisionsBefore m = some m' ∧
      m'.keys.map (fun k => (k.isTraditional, k.content)) = (keysIn (writeMeasure env m)).map (fun k => (k.isTraditional, k.content)) := by
  obtain ⟨m', r, h1, _, _, _, _, _, h7, _⟩ := complete_facts env divisionsBefore m h
  exact ⟨m', h1, h7⟩

/-- The keys at the beginning of a measure, and those after it. -/
def keysAtBeginning (m : MeasureData P) : List (KeyData P) := m.keys.takeWhile (fun k => k.tick = 0)
def laterKeys (m : MeasureData P) : List (KeyData P) := m.keys.dropWhile (fun k => k.tick = 0)

def keyGist (k : KeyData P) : Bool × P := (k.isTraditional, k.content)

theorem keyOut_gist (i : Int) (k : KeyData P) : ((keyOut i k).isTraditional, (keyOut i k).content) = keyGist k := rfl

/-- **C71** Keys for all staves: those at the beginning and then the later ones are written in order.  Missing may only be
keys at the end of the list, and only if there is more than one key after the beginning of the measure (see below for a witness). -/
theorem C71_keys_written_partial (env : WEnv) (divisionsBefore : Int) (m : MeasureData P) (h : Suits env divisionsBefore m) :
    ∃ lost, wholeKeysIn (writeMeasure env m) ++ lost = ((keysAtBeginning m).filter (fun k => k.staffIndex < 0) ++ laterKeys m).map keyGist ∧
      ((laterKeys m).length ≤ 1 → lost = []) := by
  obtain ⟨_, _, _, _, _, _, lost, b1, b2⟩ := measure_complete env m h.positive (le_of_eq h.staves)
  have hne : m.staves ≠ [] := by
    intro he
    have h1 := h.staves
    have h2 := h.positive
    rw [he] at h1
    simp only [List.length_nil, Nat.cast_zero] at h1
    omega
  have hkeys : (writeMeasure env m).flatMap Elem.keyElems = keysIn (writeMeasure env m) := by
    unfold keysIn
    congr 1
  rw [hkeys] at b1
  refine ⟨lost.map (fun k => (k.isTraditional, k.content)), ?_, fun hl => by rw [b2 hne hl]; rfl⟩
  unfold wholeKeysIn
  rw [← List.map_append, b1, List.map_append, List.map_append]
  congr 1
  · rw [List.filter_map, List.map_map]
    unfold keysAtBeginning
    congr 1
    apply List.filter_congr
    intro k _
    simp only [Function.comp, keyOut]
    by_cases hk : k.staffIndex ≥ 0
    · rw [if_pos hk]; simp; omega
    · rw [if_neg hk]; simp; omega
  · rw [List.map_map]; rfl

theorem stavesKeys_at : ∀ (ss : List (StaffData P)) (i : Int), 0 ≤ i → ∀ (j : Nat) (s : StaffData P), ss[j]? = some s →
    ((stavesKeys i ss).filter (fun k => decide (k.number = some (i + j + 1)))).map (fun k => (k.isTraditional, k.content)) = s.keys.map keyGist
  | [], i, _, j, s, h => by simp at h
  | t :: ss, i, h0, j, s, h => by
    have hge : ∀ (ss : List (StaffData P)) (i : Int), 0 ≤ i → ∀ k ∈ stavesKeys i ss, ∃ n, k.number = some n ∧ i + 1 ≤ n := by
      intro ss
      induction ss with
      | nil => intro i _ k hk; simp [stavesKeys] at hk
      | cons u ss ih =>
        intro i h0 k hk
        rcases List.mem_append.mp hk with hk | hk
        · obtain ⟨x, _, rfl⟩ := List.mem_map.mp hk
          exact ⟨i + 1, if_pos h0, le_refl _⟩
        · obtain ⟨n, a, b⟩ := ih (i + 1) (by omega) k hk
          exact ⟨n, a, by omega⟩
    rw [stavesKeys, List.filter_append, List.map_append]
    cases j with
    | zero =>
      simp only [List.getElem?_cons_zero, Option.some.injEq] at h
      subst h
      have f1 : (t.keys.map (keyOut i)).filter (fun k => decide (k.number = some (i + ((0 : Nat) : Int) + 1))) = t.keys.map (keyOut i) := by
        rw [List.filter_eq_self]
        intro k hk
        obtain ⟨x, _, rfl⟩ := List.mem_map.mp hk
        simp [keyOut, h0]
      have f2 : (stavesKeys (i + 1) ss).filter (fun k => decide (k.number = some (i + ((0 : Nat) : Int) + 1))) = [] := by
        rw [List.filter_eq_nil_iff]
        intro k hk
        obtain ⟨n, a, b⟩ := hge ss (i + 1) (by omega) k hk
        simp only [a, decide_eq_true_eq, Option.some.injEq]
        omega
      rw [f1, f2, List.map_nil, List.append_nil, List.map_map]
      rfl
    | succ j =>
      have f1 : (t.keys.map (keyOut i)).filter (fun k => decide (k.number = some (i + ((j + 1 : Nat) : Int) + 1))) = [] := by
        rw [List.filter_eq_nil_iff]
        intro k hk
        obtain ⟨x, _, rfl⟩ := List.mem_map.mp hk
        simp only [keyOut, ge_iff_le, h0, if_true, decide_eq_true_eq, Option.some.injEq]
        omega
      rw [f1, List.map_nil, List.nil_append]
      have := stavesKeys_at ss (i + 1) (by omega) j s (by simpa using h)
      have e : (i + ((j + 1 : Nat) : Int) + 1) = i + 1 + (j : Int) + 1 := by push_cast; omega
      rw [e]; exact this

/-- **C71** Keys for one staff: all keys of the staff are written for this staff, after those at the beginning of the measure that name this staff; none is lost. -/
theorem C71_staff_keys_written (env : WEnv) (divisionsBefore : Int) (m : MeasureData P) (h : Suits env divisionsBefore m) (i : Nat) (s : StaffData P) (hi : m.staves[i]? = some s) :
    staffKeysIn i (writeMeasure env m) = ((keysAtBeginning m).filter (fun k => decide (k.staffIndex = (i : Int))) ++ s.keys).map keyGist := by
  obtain ⟨_, _, _, _, _, b1, _⟩ := measure_complete env m h.positive (le_of_eq h.staves)
  have hkeys : (writeMeasure env m).flatMap Elem.keyElems = keysIn (writeMeasure env m) := by
    unfold keysIn
    congr 1
  rw [hkeys] at b1
  unfold staffKeysIn
  have e0 : (keysIn (writeMeasure env m)).filter (fun k => decide (k.number = some ((i : Int) + 1))) =
      ((keysIn (writeMeasure env m)).filter (fun k => k.number.isSome)).filter (fun k => decide (k.number = some ((i : Int) + 1))) := by
    rw [List.filter_filter]
    apply List.filter_congr
    intro k _
    cases k.number <;> simp
  rw [e0, b1, List.filter_append, List.map_append, List.map_append]
  congr 1
  · rw [List.filter_filter, List.filter_map, List.map_map]
    unfold keysAtBeginning
    congr 1
    apply List.filter_congr
    intro k _
    have hn : (keyOut k.staffIndex k).number = if k.staffIndex ≥ 0 then some (k.staffIndex + 1) else none := rfl
    simp only [Function.comp]
    by_cases hk : k.staffIndex ≥ 0
    · rw [if_pos hk] at hn; simp [hn]
    · rw [if_neg hk] at hn; simp [hn]; omega
  · have := stavesKeys_at m.staves 0 (le_refl _) i s hi
    simp only [zero_add] at this
    exact this

/-! ## C49, C50 for all measures -/

/-- Reading elements that are not barlines. -/
theorem read_no_bars {env : REnv} : ∀ (la : Bool) (es : List (Elem P)) (r r' : RSt P), es.flatMap Elem.barRecs = [] → readElems env la es r = some r' → r'.barlines = r.barlines
  | la, [], r, r', _, h => by cases h; rfl
  | la, e :: es, r, r', hb, h => by
    rw [List.flatMap_cons, List.append_eq_nil_iff] at hb
    rw [readElems] at h
    cases h1 : parseElem env (nextNoteIsChord la es) e r with
    | none => rw [h1] at h; cases h
    | some r1 =>
      rw [h1] at h
      have h2 := read_no_bars la es r1 r' hb.2 h
      rw [h2]
      cases e with
      | note x =>
        simp only [parseElem, parseNote] at h1
        cases hc : convertDuration r.ticksPerQuarter env.globalTicksPerQuarter (if x.kind = .grace then 0 else x.dur) with
        | none => rw [hc] at h1; cases h1
        | some d =>
          rw [hc] at h1
          simp only [Option.bind_eq_bind, Option.bind_some] at h1
          split at h1
          · cases h1
          · cases h1; rfl
      | backup d =>
        simp only [parseElem, parseBackup] at h1
        cases hc : convertDuration r.ticksPerQuarter env.globalTicksPerQuarter d with
        | none => rw [hc] at h1; cases h1
        | some d => rw [hc] at h1; cases h1; rfl
      | forward d =>
        simp only [parseElem, parseForward] at h1
        cases hc : convertDuration r.ticksPerQuarter env.globalTicksPerQuarter d with
        | none => rw [hc] at h1; cases h1
        | some d => rw [hc] at h1; cases h1; rfl
      | direction s o c =>
        simp only [parseElem, parseDirection] at h1
        split at h1
        · cases h1
        · cases h1; rfl
      | attributes a =>
        simp only [parseElem, parseProperties] at h1
        split at h1
        · cases h1
        · cases h1; rfl
      | barline l c => simp [Elem.barRecs] at hb
      | other => simp only [parseElem] at h1; cases h1; rfl

/-- Barlines at the right are read the same at any time. -/
theorem read_right_bars {env : REnv} (la : Bool) : ∀ (bs : List (BarlineData P)) (r : RSt P), (∀ b ∈ bs, b.tick = TICK_TIME_INFINITY ∧ b.location = .right) →
    ∃ r', readElems env la (bs.map barlineElem) r = some r' ∧ r'.barlines = r.barlines ++ bs
  | [], r, _ => ⟨r, rfl, by simp⟩
  | b :: bs, r, h => by
    obtain ⟨h1, h2⟩ := h b (by simp)
    obtain ⟨r', a1, a2⟩ := read_right_bars la bs (parseBarline (some .right) b.content r) fun x hx => h x (by simp [hx])
    refine ⟨r', ?_, ?_⟩
    · rw [List.map_cons, readElems]
      have : barlineElem b = .barline (some .right) b.content := by unfold barlineElem; rw [h2]; rfl
      rw [this]
      exact a1
    · rw [a2]
      cases b
      simp only at h1 h2
      subst h1 h2
      simp [parseBarline]

/-- **C49** Barlines at the left (time 0) and the right (end of measure) come back unchanged in every measure, whatever the notes are. -/
theorem C49_outer_barlines_unchanged (env : WEnv) (divisionsBefore : Int) (m : MeasureData P) (h : Suits env divisionsBefore m) (hb : BarlinesOk m.barlines) :
    ∃ m', writeThenRead env divisionsBefore m = some m' ∧ m'.barlines = m.barlines := by
  obtain ⟨ls, rs, hb, hl, hrs⟩ := hb
  have hl' : ∀ b ∈ ls, (decide (b.tick ≤ 0)) = true := by intro b hb; simp [(hl b hb).1]
  have hr' : ∀ b ∈ rs, (decide (b.tick ≤ TICK_TIME_INFINITY)) = true := by intro b hb; simp [(hrs b hb).1]
  have e1 : rs.takeWhile (fun b => decide (b.tick ≤ 0)) = [] := by
    cases rs with
    | nil => rfl
    | cons b t => simp [List.takeWhile, (hrs b (by simp)).1, TICK_TIME_INFINITY]
  have e2 : rs.dropWhile (fun b => decide (b.tick ≤ 0)) = rs := by
    cases rs with
    | nil => rfl
    | cons b t => simp [List.dropWhile, (hrs b (by simp)).1, TICK_TIME_INFINITY]
  have e3 : rs.takeWhile (fun b => decide (b.tick ≤ TICK_TIME_INFINITY)) = rs := takeWhile_all hr'
  obtain ⟨m', r, h1, _⟩ := complete_facts env divisionsBefore m h
  refine ⟨m', h1, ?_⟩
  unfold writeThenRead readMeasure at h1
  cases hr : readElems ⟨env.numStaves, env.ticksPerQuarter⟩ false (writeMeasure env m) (initRSt divisionsBefore : RSt P) with
  | none => rw [hr] at h1; cases h1
  | some rf =>
    rw [hr] at h1
    cases h1
    show rf.barlines = m.barlines
    have hes := measure_bars env m h.positive (le_of_eq h.staves)
    rw [hb, List.takeWhile_append_of_pos hl', List.dropWhile_append_of_pos hl', e1, e2, e3, List.append_nil] at hes
    obtain ⟨mid, hes, hmid⟩ := hes
    rw [hes, readElems_append, read_barlines _ _ _ rfl] at hr
    simp only [Option.bind_some] at hr
    rw [readElems_append] at hr
    generalize hq : readElems _ (nextNoteIsChord false (rs.map barlineElem)) mid _ = q at hr
    cases q with
    | none => cases hr
    | some q =>
      have hb1 := read_no_bars _ _ _ _ hmid hq
      obtain ⟨q', c1, c2⟩ := read_right_bars (env := ⟨env.numStaves, env.ticksPerQuarter⟩) false rs q hrs
      simp only [Option.bind_some] at hr
      rw [c1] at hr
      cases hr
      rw [c2, hb1, hb]
      show [] ++ ls.map (barRead 0) ++ rs = ls ++ rs
      rw [List.nil_append]
      congr 1
      conv_rhs => rw [← List.map_id ls]
      apply List.map_congr_left
      intro b hb
      obtain ⟨h1, h2⟩ := hl b hb
      unfold barRead barlineLocation
      cases b; simp only at h1 h2; subst h1 h2; rfl

/-- **C49** No barline is lost in any measure (`C71_barlines`); **C50** no clef is lost or put onto another staff in any measure (`C71_clefs`). -/
theorem C49_no_barline_lost (env : WEnv) (divisionsBefore : Int) (m : MeasureData P) (h : Suits env divisionsBefore m) (hb : ∀ b ∈ m.barlines, b.tick ≤ TICK_TIME_INFINITY) :
    ∃ m', writeThenRead env divisionsBefore m = some m' ∧ m'.barlines.map (·.content) = m.barlines.map (·.content) := C71_barlines env divisionsBefore m h hb

theorem C50_clefs_of_each_staff_kept (env : WEnv) (divisionsBefore : Int) (m : MeasureData P) (h : Suits env divisionsBefore m) :
    ∃ m', writeThenRead env divisionsBefore m = some m' ∧
      m'.staves.map (fun s => s.clefs.map (·.content)) = m.staves.map (fun s => s.clefs.map (·.content)) := C71_clefs env divisionsBefore m h

/-! ### Cases -/

/-- Overlapping notes, a chord of unequal lengths at different times, a note before the beginning, notes in any order, negative length, unnumbered voice. -/
def messyMeasure : MeasureData String :=
  { staves := [
      { clefs := [⟨0, "treble"⟩, ⟨-3, "bass"⟩], keys := [⟨2, -1, true, "D"⟩]
        voices := [(0, [exNote 3 4 true "c", exNote 0 9 true "e", exNote (-2) 1 false "g"]), (-5, [exNote 7 (-3) false "f"]), (1, [exNote 3 2 true "h"])]
        directions := [⟨5, false, "p"⟩, ⟨1, true, "ff"⟩] },
      { clefs := [⟨9, "alto"⟩], keys := [], voices := [(0, [exNote 100 12 false "C", exNote 0 1 false "D"])], directions := [⟨50, false, "x"⟩] }]
    keys := [⟨0, -1, true, "C"⟩, ⟨0, 0, true, "G"⟩, ⟨3, -1, true, "F"⟩]
    barlines := [⟨4, .center, "dashed"⟩, ⟨0, .left, "heavy"⟩] }

example : Suits exEnv 1 messyMeasure := ⟨by decide, by decide, by decide, by decide⟩
example : ((writeThenRead exEnv 1 messyMeasure).map (fun m => m.staves.map fun s => (readNotes s).map fun n => (n.2.1, n.2.2))) =
    some [[(4, 1, "c"), (9, 1, "e"), (1, 1, "g"), (0, -1, "f"), (2, 2, "h")], [(12, 1, "C"), (1, 1, "D")]] := by decide +kernel
example : ((writeThenRead exEnv 1 messyMeasure).map (fun m => m.staves.map fun s => (s.directions.map (·.content), s.clefs.map (·.content)))) =
    some [(["p", "ff"], ["treble", "bass"]), (["x"], ["alto"])] := by decide +kernel
example : wholeKeysIn (writeMeasure exEnv messyMeasure) = [(true, "C"), (true, "F")] ∧ staffKeysIn 0 (writeMeasure exEnv messyMeasure) = [(true, "G"), (true, "D")] := by decide +kernel
example : ((writeThenRead exEnv 1 messyMeasure).map (fun m => m.barlines.map (·.content))) = some ["dashed", "heavy"] := by decide +kernel

/-- **C45 is false if a chord note is followed by a note of the same time outside the chord**: this note and all directions after it move by the length of the chord note. -/
theorem C45_direction_moves_after_mixed_chord :
    ((writeThenRead { exEnv with numStaves := 1 } 1
      { staves := [{ clefs := [], keys := [], voices := [(0, [exNote 0 1 true "c", exNote 0 3 false "d"])], directions := [⟨5, false, "p"⟩] }], keys := []
        barlines := [] }).map (fun m => m.staves.map (·.directions))) = some [[⟨6, false, "p"⟩]] := by decide +kernel

def twoKeyChanges (k : Int) : MeasureData String :=
  { staves := [{ clefs := [], keys := [], voices := [(0, [exNote 0 4 false "c"])], directions := [] }]
    keys := [⟨1, k, true, "G"⟩, ⟨2, k, true, "D"⟩], barlines := [] }

/-- **C71 is false for several changes of key within a measure**: of the changes after the last note at most one is written. -/
theorem C71_second_key_change_lost : ((writeThenRead { exEnv with numStaves := 1 } 1 (twoKeyChanges (-1))).map (fun m => m.keys.map (·.content))) = some ["G"] := by decide +kernel

/-- **C71 is false for a change of key on one staff given with the measure**: the staff gets lost, the key then holds for all staves. -/
theorem C71_key_change_for_all_staves : ((writeThenRead exEnv 1 { messyMeasure with keys := [⟨3, 1, true, "F"⟩], staves := messyMeasure.staves.map fun s => { s with keys := [] } }).map (fun m => m.keys.map fun k => (k.staffIndex, k.content))) = some [(-1, "F")] := by decide +kernel

end Mx.Props
