import Verif.Proofs.MeasureReader
import Verif.Proofs.MeasureVoices
import Verif.Proofs.MeasureClock

/-! Reading what the writer wrote: both cursors agree all the time. -/
namespace Mx.Measure
open Spec

variable {P : Type}

/-- how a written direction is read back -/
def dirRead (s : Int) (d : DirectionData P) : Int × DirectionData P :=
  (s, { d with isStaffValueSpecified := d.isStaffValueSpecified || s != 0 })

/-- how a direction element is read at a position -/
def dirOfElem (numStaves tick : Int) (x : Option Int × Int × P) : Int × DirectionData P :=
  let staffIndex := match x.1 with | some s => s - 1 | none => 0
  let sane := x.1.isSome && decide (staffIndex < numStaves)
  (if sane then staffIndex else 0, { tick := tick + roundMicro x.2.1, isStaffValueSpecified := sane, content := x.2.2 })

theorem dirOfElem_dirOut {numStaves s tick : Int} (h0 : 0 ≤ s) (h1 : s < numStaves) (d : DirectionData P) :
    dirOfElem numStaves tick (dirOut s tick d) = dirRead s d := by
  have hoff : tick + roundMicro (if d.tick ≠ tick then (d.tick - tick) * MICRO else 0) = d.tick := by
    split
    · rw [roundMicro_mul]; omega
    · rename_i h
      have : d.tick = tick := by simpa using h
      have h0 := roundMicro_mul 0
      simp at h0
      rw [h0, this]; omega
  unfold dirOfElem dirOut dirRead
  simp only
  rw [hoff]
  by_cases hs : (d.isStaffValueSpecified || s != 0) = true
  · simp [hs, h1]
  · have hs' : (d.isStaffValueSpecified || s != 0) = false := by simpa using hs
    have h2 : d.isStaffValueSpecified = false ∧ s = 0 := by simpa using hs'
    simp [h2.1, h2.2]

/-- Reading attributes and directions. -/
theorem read_plain {env : REnv} (h1 : 1 ≤ env.numStaves) (la : Bool) : ∀ (xs : List (Elem P)) (r : RSt P),
    (∀ e ∈ xs, e.isPlain = true) → (∀ c ∈ xs.flatMap Elem.clefElems, clefStaff c < env.numStaves) →
    ∃ r', readElems env la xs r = some r' ∧ r'.tick = r.tick ∧ (r.isBackupInProgress = false → r'.isBackupInProgress = false) ∧
      r'.notes = r.notes ∧ r'.voiceIndex = r.voiceIndex ∧
      r'.directions = r.directions ++ (xs.filterMap Elem.direction?).map (dirOfElem env.numStaves r.tick) ∧
      (xs.filterMap Elem.divisions? = [] → r'.ticksPerQuarter = r.ticksPerQuarter) ∧
      (∀ d, xs.filterMap Elem.divisions? = [d] → r'.ticksPerQuarter = roundMicro d) ∧
      r'.barlines = r.barlines ∧
      r'.clefs = r.clefs ++ (xs.flatMap Elem.clefElems).map (fun c => (clefStaff c, { tick := r.tick, content := c.content })) := by
  intro xs
  induction xs with
  | nil => intro r _ _; exact ⟨r, rfl, rfl, id, rfl, rfl, by simp, by simp, by simp, rfl, by simp⟩
  | cons e es ih =>
    intro r hp hc
    have hp' : ∀ e ∈ es, e.isPlain = true := fun x hx => hp x (by simp [hx])
    have hc' : ∀ c ∈ es.flatMap Elem.clefElems, clefStaff c < env.numStaves := fun c h => hc c (by
      simp only [List.flatMap_cons, List.mem_append]; exact .inr h)
    have he := hp e (by simp)
    cases e with
    | note n => simp [Elem.isPlain] at he
    | backup n => simp [Elem.isPlain] at he
    | forward n => simp [Elem.isPlain] at he
    | barline n m => simp [Elem.isPlain] at he
    | other => simp [Elem.isPlain] at he
    | direction s o c =>
      simp only [readElems, parseElem, parseDirection, Option.bind_eq_bind]
      rw [if_neg (by omega)]
      simp only [Option.bind_some]
      obtain ⟨r', g1, g2, g3, g4, g5, g6, g7, g8, g9, g10⟩ := ih
        { r with
          isBackupInProgress := false
          directions := r.directions ++ [dirOfElem env.numStaves r.tick (s, o, c)] } hp' hc'
      refine ⟨r', g1, g2, fun _ => g3 rfl, g4, g5, ?_, ?_, ?_, g9, by rw [g10]; simp [Elem.clefElems]⟩
      · rw [g6]; simp [List.filterMap_cons, Elem.direction?]
      · intro h; exact g7 (by simpa only [List.filterMap_cons, Elem.divisions?] using h)
      · intro d h; exact g8 d (by simpa only [List.filterMap_cons, Elem.divisions?] using h)
    | attributes a =>
      have hcl : a.clefs.any (fun c => decide (env.numStaves ≤ clefStaff c)) = false := by
        rw [List.any_eq_false]
        intro x hx
        have := hc x (by simp [Elem.clefElems, hx])
        simp; omega
      simp only [readElems, parseElem, parseProperties, hcl, Option.bind_eq_bind, Bool.false_eq_true, if_false, Option.bind_some]
      cases hd : a.divisions with
      | none =>
        obtain ⟨r', g1, g2, g3, g4, g5, g6, g7, g8, g9, g10⟩ := ih
          { r with
            isBackupInProgress := false
            ticksPerQuarter := r.ticksPerQuarter
            keys := r.keys ++ a.keys.map (parseKey env r.tick)
            clefs := r.clefs ++ a.clefs.map (fun c => (clefStaff c, { tick := r.tick, content := c.content })) } hp' hc'
        refine ⟨r', g1, g2, fun _ => g3 rfl, g4, g5, ?_, ?_, ?_, g9, by rw [g10]; simp [Elem.clefElems]⟩
        · rw [g6]; simp [List.filterMap_cons, Elem.direction?]
        · intro h; exact g7 (by simpa only [List.filterMap_cons, Elem.divisions?, hd] using h)
        · intro d h; exact g8 d (by simpa only [List.filterMap_cons, Elem.divisions?, hd] using h)
      | some d =>
        obtain ⟨r', g1, g2, g3, g4, g5, g6, g7, g8, g9, g10⟩ := ih
          { r with
            isBackupInProgress := false
            ticksPerQuarter := roundMicro d
            keys := r.keys ++ a.keys.map (parseKey env r.tick)
            clefs := r.clefs ++ a.clefs.map (fun c => (clefStaff c, { tick := r.tick, content := c.content })) } hp' hc'
        refine ⟨r', g1, g2, fun _ => g3 rfl, g4, g5, ?_, ?_, ?_, g9, by rw [g10]; simp [Elem.clefElems]⟩
        · rw [g6]; simp [List.filterMap_cons, Elem.direction?]
        · intro h; simp [List.filterMap_cons, Elem.divisions?, hd] at h
        · intro d' h
          simp only [List.filterMap_cons, Elem.divisions?, hd, List.cons.injEq] at h
          rw [g7 h.2, ← h.1]

/-- Writer and reader are at the same place. -/
structure Sync (env : REnv) (st : WSt P) (r : RSt P) : Prop where
  tick : r.tick = st.tick
  back : r.isBackupInProgress = false
  tpq : st.buf.divisions = some (env.globalTicksPerQuarter * MICRO) ∨
    (st.buf.divisions = none ∧ r.ticksPerQuarter = env.globalTicksPerQuarter)
  clefs : ∀ c ∈ st.buf.clefs, clefStaff c < env.numStaves

/-- The clefs of a staff that were read, with those still to come (staff and content). -/
def clefsOf (s : Int) (st : WSt P) (r : RSt P) : List (Int × P) :=
  r.clefs.map (fun c => (c.1, c.2.content)) ++
    (st.buf.clefs ++ st.clefs.map (clefOut s)).map (fun c => (clefStaff c, c.content))

theorem read_quiet {env : REnv} {s : Int} {st st' : WSt P} {xs ds} (la : Bool) {r : RSt P} (hq : Quiet s st st' xs ds)
    (h0 : 0 ≤ s) (h1 : s < env.numStaves) (h : Sync env st r) :
    ∃ r', readElems env la xs r = some r' ∧ Sync env st' r' ∧ r'.notes = r.notes ∧ r'.voiceIndex = r.voiceIndex ∧
      r'.directions = r.directions ++ ds.map (dirRead s) ∧ r'.barlines = r.barlines ∧ clefsOf s st' r' = clefsOf s st r := by
  have hcl : ∀ c ∈ xs.flatMap Elem.clefElems ++ (st'.buf.clefs ++ st'.clefs.map (clefOut s)), clefStaff c < env.numStaves := by
    rw [hq.clefs]
    intro c hc
    rcases List.mem_append.mp hc with hc | hc
    · exact h.clefs c hc
    · obtain ⟨x, _, rfl⟩ := List.mem_map.mp hc
      unfold clefOut clefStaff
      simp [h0]; omega
  obtain ⟨r', g1, g2, g3, g4, g5, g6, g7, g8, g9, g10⟩ := read_plain (env := env) (by omega) la xs r hq.plain
    (fun c hc => hcl c (List.mem_append_left _ hc))
  refine ⟨r', g1, ⟨by rw [g2, h.tick, hq.tick], g3 h.back, ?_, fun c hc => hcl c (by simp [hc])⟩, g4, g5, ?_, g9, ?_⟩
  · have hd := hq.divs
    rcases h.tpq with ht | ⟨ht1, ht2⟩
    · rw [ht] at hd
      cases hb : st'.buf.divisions with
      | none =>
        right
        refine ⟨rfl, ?_⟩
        rw [hb] at hd
        have := g8 (env.globalTicksPerQuarter * MICRO) (by simpa using hd)
        rw [this, roundMicro_mul]
      | some d =>
        left
        rw [hb] at hd
        generalize xs.filterMap Elem.divisions? = l at hd
        cases l with
        | nil => simpa using hd
        | cons a t => simp at hd
    · rw [ht1] at hd
      simp at hd
      right
      exact ⟨hd.2, by rw [g7 (by simpa [List.filterMap_eq_nil_iff] using hd.1), ht2]⟩
  · rw [g6, hq.dirsOut, List.map_map]
    congr 1
    apply List.map_congr_left
    intro d _
    simp only [Function.comp_def, h.tick]
    exact dirOfElem_dirOut h0 h1 d
  · unfold clefsOf
    rw [← hq.clefs, g10]
    simp [Function.comp_def]

/-! ### what a voice looks like to the reader -/

/-- `b` continues the chord of `a` -/
def continues (a b : NoteData P) : Bool := a.isChord && b.isChord && b.tick == a.tick

/-- is the next note in the chord of `n`? -/
def chordGoesOn (n : NoteData P) (next : Option (NoteData P)) : Bool :=
  match next with
  | some b => continues n b
  | none => false

/-- The notes of a voice as they are read; `tick` is the position before, `vi` the reader's voice counter,
`inChord` whether the note before was in the same chord. -/
def asRead (staff voice : Int) : Int → Int → Bool → List (NoteData P) → List (ReadNote P)
  | _, _, _, [] => []
  | tick, vi, inChord, n :: rest =>
    let vi' := if n.tick < tick then vi + 1 else vi
    let goesOn := chordGoesOn n rest.head?
    { staff := staff, voice := vi', note := { n with isChord := inChord || goesOn, userVoice := voice } } ::
      asRead staff voice (if goesOn then n.tick else n.tick + n.ticks) vi' goesOn rest

/-- the position after the notes -/
def tickAfter : Int → List (NoteData P) → Int
  | tick, [] => tick
  | _, n :: rest => tickAfter (if chordGoesOn n rest.head? then n.tick else n.tick + n.ticks) rest

/-- the voice counter after the notes -/
def voiceAfter : Int → Int → List (NoteData P) → Int
  | _, vi, [] => vi
  | tick, vi, n :: rest =>
    voiceAfter (if chordGoesOn n rest.head? then n.tick else n.tick + n.ticks) (if n.tick < tick then vi + 1 else vi) rest

theorem convert_durMicro {env : REnv} {r : RSt P} {t : Int} (ht : 0 ≤ t) (h : r.ticksPerQuarter = env.globalTicksPerQuarter) :
    convertDuration r.ticksPerQuarter env.globalTicksPerQuarter (durMicro t) = some t := by
  unfold convertDuration durMicro
  rw [if_pos h]
  by_cases h0 : 0 < t
  · rw [if_pos h0, roundMicro_mul]
  · rw [if_neg h0, show t = 0 by omega]
    rfl

/-- Reading the backup or forward before a note. -/
theorem read_forwardOrBackup {env : REnv} {s : Int} {st : WSt P} (la : Bool) {r : RSt P} {n : NoteData P} (hn : 0 ≤ n.tick)
    (h0 : 0 ≤ s) (h1 : s < env.numStaves) (h : Sync env st r) :
    let st1 := writeForwardOrBackupIfNeeded n st
    ∃ xs r', st1.out = st.out ++ xs ∧ readElems env la xs r = some r' ∧ nextNoteIsChord la xs = la ∧
      r'.tick = n.tick ∧ st1.tick = n.tick ∧ st1.buf = {} ∧ r'.ticksPerQuarter = env.globalTicksPerQuarter ∧ r'.notes = r.notes ∧
      r'.directions = r.directions ∧ r'.voiceIndex = (if n.tick < st.tick then r.voiceIndex + 1 else r.voiceIndex) ∧
      st1.prevChord = st.prevChord ∧ st1.dirs = st.dirs ∧ r'.barlines = r.barlines ∧ clefsOf s st1 r' = clefsOf s st r := by
  have hq := quiet_flush' s st
  obtain ⟨r1, g1, g2, g3, g4, g5, g6, g7⟩ := read_quiet la hq h0 h1 h
  have hnx := nextNoteIsChord_quiet (la := la) hq.quiet
  have htpq : r1.ticksPerQuarter = env.globalTicksPerQuarter := by
    rcases g2.tpq with h | h
    · rw [flush_buf_divisions] at h; cases h
    · exact h.2
  have hdirs : (flush st).dirs = st.dirs := by have := hq.dirs; simpa using this.symm
  have hb := flush_buf st
  simp only
  unfold writeForwardOrBackupIfNeeded
  simp only
  rw [if_neg (by omega), hq.tick]
  split
  · rename_i hlt
    unfold backup
    simp only
    rw [hq.tick]
    rw [if_neg (c := st.tick - -1 * (n.tick - st.tick) < 0) (by omega), if_neg (by omega)]
    have hpos : 0 < -1 * (n.tick - st.tick) := by omega
    refine ⟨flushed st ++ [.backup (durMicro (-1 * (n.tick - st.tick)))], ?_⟩
    have hread : readElems env la (flushed st ++ [.backup (durMicro (-1 * (n.tick - st.tick)))]) r =
        parseBackup env (durMicro (-1 * (n.tick - st.tick))) r1 := by
      rw [readElems_append]
      show (readElems env la _ r).bind _ = _
      rw [g1]
      simp only [Option.bind_some, readElems, parseElem, Option.bind_eq_bind]
      cases parseBackup env (durMicro (-1 * (n.tick - st.tick))) r1 <;> rfl
    rw [hread]
    unfold parseBackup
    rw [convert_durMicro (le_of_lt hpos) htpq]
    simp only [Option.bind_eq_bind, Option.bind_some]
    refine ⟨_, ?_, rfl, ?_, ?_, ?_, hb, htpq, g3, ?_, ?_, hq.prevChord, hdirs, g6, g7⟩
    · rw [hq.out]; simp
    · rw [nextNoteIsChord_append]; exact hnx
    · simp only; rw [g2.tick, hq.tick]
      rw [if_neg (by omega)]; omega
    · omega
    · rw [g5]; simp
    · have hlt' : n.tick < st.tick := by omega
      simp only [g2.back, g4, hlt', if_true, Bool.false_eq_true, if_false]
  · split
    · rename_i hge hgt
      unfold forward
      have hpos : 0 < n.tick - st.tick := by omega
      refine ⟨flushed st ++ [.forward (durMicro (n.tick - st.tick))], ?_⟩
      have hread : readElems env la (flushed st ++ [.forward (durMicro (n.tick - st.tick))]) r =
          parseForward env (durMicro (n.tick - st.tick)) r1 := by
        rw [readElems_append]
        show (readElems env la _ r).bind _ = _
        rw [g1]
        simp only [Option.bind_some, readElems, parseElem, Option.bind_eq_bind]
        cases parseForward env (durMicro (n.tick - st.tick)) r1 <;> rfl
      rw [hread]
      unfold parseForward
      rw [convert_durMicro (le_of_lt hpos) htpq]
      simp only [Option.bind_eq_bind, Option.bind_some]
      refine ⟨_, ?_, rfl, ?_, ?_, ?_, hb, htpq, g3, ?_, ?_, hq.prevChord, hdirs, g6, g7⟩
      · rw [hq.out]; simp
      · rw [nextNoteIsChord_append]; exact hnx
      · simp only; rw [g2.tick, hq.tick]; omega
      · rw [hq.tick]; omega
      · rw [g5]; simp
      · rw [if_neg (by omega), g4]
    · have he : n.tick = st.tick := by omega
      refine ⟨flushed st, r1, hq.out, g1, hnx, ?_, ?_, hb, htpq, g3, ?_, ?_, hq.prevChord, hdirs, g6, g7⟩
      · rw [g2.tick, hq.tick, he]
      · rw [hq.tick, he]
      · rw [g5]; simp
      · rw [if_neg (by omega), g4]

/-- The state between two notes: what the writer remembers of the note before. -/
def Remembers (prev : Option (NoteData P)) (isFirst : Bool) (pct : Int) (st : WSt P) : Prop :=
  isFirst = prev.isNone ∧ ∀ p, prev = some p → st.prevChord = p.isChord ∧ (p.isChord = true → pct = p.tick)

/-- was the note before in the same chord? -/
def cameFrom (prev : Option (NoteData P)) (n : NoteData P) : Bool :=
  match prev with
  | some p => continues p n
  | none => false

/-- does the first of the notes continue a chord? -/
def headFrom (prev : Option (NoteData P)) : List (NoteData P) → Bool
  | n :: _ => cameFrom prev n
  | [] => false

theorem noteElem_chord {prev : Option (NoteData P)} {isFirst : Bool} {pct : Int} {st : WSt P} {n : NoteData P} {ctx : WCtx}
    (h : Remembers prev isFirst pct st) :
    (noteElem ctx st.prevChord (n.isChord && (isFirst || n.tick != pct)) n).chord = cameFrom prev n := by
  unfold noteElem cameFrom continues
  simp only
  obtain ⟨h1, h2⟩ := h
  cases hp : prev with
  | none =>
    rw [hp] at h1
    simp only [Option.isNone_none] at h1
    rw [h1]; cases n.isChord <;> simp
  | some p =>
    rw [hp] at h1
    simp only [Option.isNone_some] at h1
    obtain ⟨h3, h4⟩ := h2 p hp
    rw [h1, h3]
    cases hpc : p.isChord with
    | false => simp [hpc]
    | true =>
      rw [h4 hpc]
      cases n.isChord <;> simp [hpc, bne]

/-- All notes of a voice. -/
theorem read_notes {env : REnv} (ctx : WCtx) (hnum : ctx.numStaves = env.numStaves) (hvi : 0 ≤ ctx.voiceIndex)
    (h0 : 0 ≤ ctx.staffIndex) (h1 : ctx.staffIndex < env.numStaves) :
    ∀ (ns : List (NoteData P)) (isFirst : Bool) (pct : Int) (prev : Option (NoteData P)) (st : WSt P) (r : RSt P),
    (∀ n ∈ ns, NoteKept n) → ns.IsChain PairKept → Remembers prev isFirst pct st → Sync env st r →
    ∃ xs r' ds, (writeNotes ctx isFirst pct prev ns st).out = st.out ++ xs ∧
      readElems env false xs r = some r' ∧ Sync env (writeNotes ctx isFirst pct prev ns st) r' ∧
      nextNoteIsChord false xs = (headFrom prev ns) ∧
      r'.notes = r.notes ++ asRead ctx.staffIndex (ctx.voiceIndex + 1) st.tick r.voiceIndex
        (headFrom prev ns) ns ∧
      r'.voiceIndex = voiceAfter st.tick r.voiceIndex ns ∧
      r'.tick = tickAfter st.tick ns ∧
      st.dirs = ds ++ (writeNotes ctx isFirst pct prev ns st).dirs ∧
      r'.directions = r.directions ++ ds.map (dirRead ctx.staffIndex) ∧ r'.barlines = r.barlines ∧
      clefsOf ctx.staffIndex (writeNotes ctx isFirst pct prev ns st) r' = clefsOf ctx.staffIndex st r := by
  intro ns
  induction ns with
  | nil =>
    intro isFirst pct prev st r _ _ _ hs
    exact ⟨[], r, [], by simp [writeNotes], rfl, hs, rfl, by simp [asRead], by simp [voiceAfter], by simp [tickAfter, hs.tick], by simp [writeNotes], by simp, rfl, rfl⟩
  | cons n rest ih =>
    intro isFirst pct prev st r hok hch hrem hs
    have hn := hok n (by simp)
    simp only [writeNotes]
    -- look-ahead at the next note
    generalize hla : chordGoesOn n rest.head? = la
    obtain ⟨xs1, r1, a1, a2, a3, a4, a5, a6, a7, a8, a9, a10, a11, a12, a13, a14⟩ := read_forwardOrBackup (cameFrom prev n) hn.1 h0 h1 hs
    generalize hst1 : writeForwardOrBackupIfNeeded n st = st1 at *
    obtain ⟨xs2, hq2⟩ := quiet_writeKeysAndClefs ctx st1
    obtain ⟨xs3, ds, hq3, hq3b⟩ := quiet_writeDirections ctx prev (some n) rest.head? (writeKeysAndClefs ctx st1)
    have hq := hq2.trans hq3
    have hbuf := hq3b (writeKeysAndClefs_buf ctx st1)
    generalize hst3 : writeDirections ctx prev (some n) rest.head? (writeKeysAndClefs ctx st1) = st3 at *
    -- the reader's flag may be set after a backup, so read the quiet part without it
    have hcl : ∀ c ∈ (xs2 ++ xs3).flatMap Elem.clefElems, clefStaff c < env.numStaves := by
      intro c hc
      have : c ∈ (xs2 ++ xs3).flatMap Elem.clefElems ++ (st3.buf.clefs ++ st3.clefs.map (clefOut ctx.staffIndex)) :=
        List.mem_append_left _ hc
      rw [hq.clefs, a6] at this
      simp only [List.nil_append] at this
      obtain ⟨x, _, rfl⟩ := List.mem_map.mp this
      unfold clefOut clefStaff
      simp [h0]; omega
    obtain ⟨r3, b1, b2, _, b4, b5, b6, b7, b8, b9, b10⟩ := read_plain (env := env) (by omega) (cameFrom prev n) (xs2 ++ xs3) r1 hq.plain hcl
    have hnodiv : (xs2 ++ xs3).filterMap Elem.divisions? = [] ∧ st3.buf.divisions = none := by
      have hd := hq.divs
      rw [a6] at hd
      simpa only [Option.toList_none, List.append_eq_nil_iff, Option.toList_eq_nil_iff] using hd
    have htpq3 : r3.ticksPerQuarter = env.globalTicksPerQuarter := by rw [b7 hnodiv.1, a7]
    have htick3 : st3.tick = n.tick := by rw [hq.tick, a5]
    have hrem3 : Remembers prev isFirst pct st3 := by
      refine ⟨hrem.1, fun p hp => ?_⟩
      rw [hq.prevChord, a11]; exact hrem.2 p hp
    generalize hstart : (n.isChord && (isFirst || st1.tick != pct)) = isStart
    have hchord : (noteElem ctx st3.prevChord isStart n).chord = cameFrom prev n := by
      rw [← hstart, a5]; exact noteElem_chord hrem3
    -- the state after the note
    let st5 : WSt P := { advanceCursorIfNeeded n rest.head? (addNote ctx isStart n st3) with prevChord := n.isChord }
    have hst5out : st5.out = st3.out ++ [.note (noteElem ctx st3.prevChord isStart n)] := by
      show (advanceCursorIfNeeded _ _ _).out = _
      unfold advanceCursorIfNeeded; split <;> rfl
    have hst5buf : st5.buf = st3.buf := by
      show (advanceCursorIfNeeded _ _ _).buf = _
      unfold advanceCursorIfNeeded; split <;> rfl
    have hst5dirs : st5.dirs = st3.dirs := by
      show (advanceCursorIfNeeded _ _ _).dirs = _
      unfold advanceCursorIfNeeded; split <;> rfl
    have hst5clefs : st5.clefs = st3.clefs := by
      show (advanceCursorIfNeeded _ _ _).clefs = _
      unfold advanceCursorIfNeeded; split <;> rfl
    have hst5tick : st5.tick = (if la = true then n.tick else n.tick + n.ticks) := by
      show (advanceCursorIfNeeded _ _ _).tick = _
      have hnn := hn.2.2
      have hn0 := hn.1
      have hadd : (addNote ctx isStart n st3).tick = n.tick := htick3
      unfold advanceCursorIfNeeded isAdvanceNeeded
      rw [← hla]
      unfold chordGoesOn continues
      cases hc : n.isChord with
      | false =>
        simp only [Bool.false_eq_true, if_false, if_true, hadd]
        cases rest.head? <;> simp <;> omega
      | true =>
        cases rest with
        | nil => simp only [List.head?_nil, if_true, hadd, Bool.false_eq_true, if_false]; omega
        | cons b t =>
          simp only [List.head?_cons, if_true, Bool.true_and]
          by_cases hbt : b.tick = n.tick
          · have hp := (List.isChain_cons_cons.mp hch).1 hc hbt
            cases hbc : b.isChord with
            | true => simp [hbt, hadd]
            | false => simp [hbt, hadd, hp hbc]
          · have : (b.tick == n.tick) = false := by simpa using hbt
            simp [hbt, hadd]; omega
    -- reading the note
    have hconv : convertDuration r3.ticksPerQuarter env.globalTicksPerQuarter
        (if (noteElem ctx st3.prevChord isStart n).kind = .grace then 0 else (noteElem ctx st3.prevChord isStart n).dur) = some n.ticks := by
      show convertDuration r3.ticksPerQuarter env.globalTicksPerQuarter (if n.kind = .grace then 0 else (if n.kind = .grace then 0 else durMicro n.ticks)) = _
      by_cases hk : n.kind = .grace
      · rw [if_pos hk, hn.2.1 hk]
        unfold convertDuration
        rw [if_pos htpq3]
        have := roundMicro_mul 0
        simp at this
        rw [this]
      · rw [if_neg hk, if_neg hk]
        exact convert_durMicro hn.2.2 htpq3
    have hstaff : noteStaffIndex (noteElem ctx st3.prevChord isStart n) = ctx.staffIndex := by
      unfold noteStaffIndex noteElem
      simp only
      by_cases hc : ctx.numStaves > 1 ∧ ctx.staffIndex ≥ 0
      · rw [if_pos hc]; simp; omega
      · rw [if_neg hc]
        have : ctx.staffIndex = 0 := by omega
        simp [this]
    have hvoice : (noteElem ctx st3.prevChord isStart n).voice.getD (-1) = ctx.voiceIndex + 1 := by
      unfold noteElem; simp [hvi]
    let r5 : RSt P := { r3 with
      isBackupInProgress := false
      tick := if la = true then n.tick else n.tick + n.ticks
      notes := r3.notes ++ [ReadNote.mk ctx.staffIndex r3.voiceIndex
        { n with isChord := cameFrom prev n || la, userVoice := ctx.voiceIndex + 1 }] }
    have hparse : parseElem env la (.note (noteElem ctx st3.prevChord isStart n)) r3 = some r5 := by
      unfold parseElem parseNote
      simp only
      rw [hconv]
      simp only [Option.bind_eq_bind, Option.bind_some, hstaff]
      rw [if_neg (by omega), hchord]
      unfold parseNoteData
      rw [hvoice, b2, a4]
      show some _ = some _
      congr 1
      cases la <;> simp [r5, noteElem]
    have hsync5 : Sync env st5 r5 := by
      refine ⟨?_, rfl, .inr ⟨by rw [hst5buf]; exact hnodiv.2, htpq3⟩, ?_⟩
      · rw [hst5tick]
      · rw [hst5buf]
        intro c hc
        have : c ∈ (xs2 ++ xs3).flatMap Elem.clefElems ++ (st3.buf.clefs ++ st3.clefs.map (clefOut ctx.staffIndex)) := by simp [hc]
        rw [hq.clefs, a6] at this
        simp only [List.nil_append] at this
        obtain ⟨x, _, rfl⟩ := List.mem_map.mp this
        unfold clefOut clefStaff
        simp [h0]; omega
    have hrem5 : Remembers (some n) false (if n.isChord = true then st1.tick else pct) st5 := by
      refine ⟨rfl, fun p hp => ?_⟩
      cases hp
      exact ⟨rfl, fun hc => by rw [if_pos hc, a5]⟩
    have hok' : ∀ m ∈ rest, NoteKept m := fun m hm => hok m (by simp [hm])
    have hch' : rest.IsChain PairKept := by
      cases rest with
      | nil => exact .nil
      | cons b t => exact (List.isChain_cons_cons.mp hch).2
    obtain ⟨ys, r', ds', c1, c2, c3, c4, c5, c6, c7, c8, c9, c10, c11⟩ := ih false _ (some n) st5 r5 hok' hch' hrem5 hsync5
    have hnext : headFrom (some n) rest = la := by
      rw [← hla]; cases rest <;> rfl
    have hnextla : nextNoteIsChord false ys = la := by rw [c4]; exact hnext
    refine ⟨xs1 ++ ((xs2 ++ xs3) ++ (.note (noteElem ctx st3.prevChord isStart n) :: ys)), r', ds ++ ds', ?_, ?_, c3, ?_, ?_, ?_, ?_, ?_, ?_, ?_, ?_⟩
    · refine c1.trans ?_
      rw [hst5out, hq.out, a1]; simp
    · have e3 : readElems env false (.note (noteElem ctx st3.prevChord isStart n) :: ys) r3 = some r' := by
        simp only [readElems, Option.bind_eq_bind]
        rw [hnextla, hparse]; exact c2
      rw [readElems_append]
      have l2 : nextNoteIsChord false (Elem.note (noteElem ctx st3.prevChord isStart n) :: ys) = cameFrom prev n := hchord
      have l1 := nextNoteIsChord_quiet (la := cameFrom prev n) hq.quiet
      rw [nextNoteIsChord_append, l2, l1, a2]
      simp only [Option.bind_some]
      rw [readElems_append, l2, b1]; exact e3
    · rw [nextNoteIsChord_append, nextNoteIsChord_append]
      have l2 : nextNoteIsChord false (Elem.note (noteElem ctx st3.prevChord isStart n) :: ys) = cameFrom prev n := hchord
      rw [l2, nextNoteIsChord_quiet hq.quiet, a3]; rfl
    · rw [c5, hnext, hst5tick]
      show (r3.notes ++ _) ++ asRead _ _ _ r3.voiceIndex _ _ = _
      rw [b4, a8, b5, a10]
      simp only [asRead, hla, List.append_assoc, List.cons_append, List.nil_append, headFrom]
    · rw [c6, hst5tick]
      show voiceAfter _ r3.voiceIndex _ = _
      rw [b5, a10]
      simp only [voiceAfter, hla]
    · rw [c7, hst5tick]
      simp only [tickAfter, hla]
    · have := hq.dirs
      rw [a12] at this
      rw [this, ← hst5dirs]
      simp only [List.nil_append, List.append_assoc]
      exact congrArg (ds ++ ·) c8
    · rw [c9]
      show r3.directions ++ _ = _
      rw [b6, hq.dirsOut, a9, a4]
      simp only [List.nil_append, List.map_append, List.append_assoc, List.map_map]
      congr 2
      apply List.map_congr_left
      intro d _
      simp only [Function.comp_def, a5]
      exact dirOfElem_dirOut h0 h1 d
    · rw [c10]; show r3.barlines = _; rw [b9, a13]
    · refine c11.trans ?_
      rw [← a14]
      unfold clefsOf
      rw [← hq.clefs, hst5buf, hst5clefs]
      show r3.clefs.map _ ++ _ = _
      rw [b10]
      simp [Function.comp_def]

/-- What the reader gets from a sequence of voices: its position and voice counter afterwards. -/
def voicesEnd (acc : Int × Int) : List (Int × List (NoteData P)) → Int × Int
  | [] => acc
  | v :: vs => voicesEnd (tickAfter acc.1 v.2, voiceAfter acc.1 acc.2 v.2) vs

/-- The notes of a sequence of voices as they are read. -/
def voicesRead (staff : Int) (acc : Int × Int) : List (Int × List (NoteData P)) → List (ReadNote P)
  | [] => []
  | v :: vs => asRead staff (v.1 + 1) acc.1 acc.2 false v.2 ++
      voicesRead staff (tickAfter acc.1 v.2, voiceAfter acc.1 acc.2 v.2) vs

/-- The notes of a sequence of staves as they are read. -/
def stavesRead : Int → (Int × Int) → List (StaffData P) → List (ReadNote P)
  | _, _, [] => []
  | i, acc, s :: rest => voicesRead i acc s.voices ++ stavesRead (i + 1) (voicesEnd acc s.voices) rest

/-- The result of one step of the writer, as the reader sees it. -/
structure Step (env : REnv) (s : Int) (st st' : WSt P) (r : RSt P) (notes : List (ReadNote P)) (acc : Int × Int)
    (ds : List (DirectionData P)) (xs : List (Elem P)) (r' : RSt P) : Prop where
  out : st'.out = st.out ++ xs
  read : readElems env false xs r = some r'
  sync : Sync env st' r'
  next : nextNoteIsChord false xs = false
  notes : r'.notes = r.notes ++ notes
  tick : r'.tick = acc.1
  voice : r'.voiceIndex = acc.2
  dirs : st.dirs = ds ++ st'.dirs
  directions : r'.directions = r.directions ++ ds.map (dirRead s)
  barlines : r'.barlines = r.barlines
  clefs : clefsOf s st' r' = clefsOf s st r

theorem Step.trans {env : REnv} {s : Int} {a b c : WSt P} {r r' r'' : RSt P} {ns ms acc acc' ds es xs ys}
    (h1 : Step env s a b r ns acc ds xs r') (h2 : Step env s b c r' ms acc' es ys r'') :
    Step env s a c r (ns ++ ms) acc' (ds ++ es) (xs ++ ys) r'' where
  out := by rw [h2.out, h1.out, List.append_assoc]
  read := by rw [readElems_append, h2.next, h1.read]; exact h2.read
  sync := h2.sync
  next := by rw [nextNoteIsChord_append, h2.next, h1.next]
  notes := by rw [h2.notes, h1.notes, List.append_assoc]
  tick := h2.tick
  voice := h2.voice
  dirs := by rw [h1.dirs, h2.dirs, List.append_assoc]
  directions := by rw [h2.directions, h1.directions, List.map_append, List.append_assoc]
  barlines := by rw [h2.barlines, h1.barlines]
  clefs := by rw [h2.clefs, h1.clefs]

theorem step_quiet {env : REnv} {s : Int} {st st' : WSt P} {xs ds} {r : RSt P} (hq : Quiet s st st' xs ds)
    (h0 : 0 ≤ s) (h1 : s < env.numStaves) (h : Sync env st r) :
    ∃ r', Step env s st st' r [] (r.tick, r.voiceIndex) ds xs r' := by
  obtain ⟨r', g1, g2, g3, g4, g5, g6, g7⟩ := read_quiet false hq h0 h1 h
  exact ⟨r', hq.out, g1, g2, nextNoteIsChord_quiet hq.quiet, by simp [g3], by rw [g2.tick, h.tick, hq.tick], g4, hq.dirs, g5, g6, g7⟩

theorem step_voice {env : REnv} (i : Int) (v : Int × List (NoteData P)) (st : WSt P) (r : RSt P)
    (h0 : 0 ≤ i) (h1 : i < env.numStaves) (hv0 : 0 ≤ v.1) (hv : VoiceKept v.2) (h : Sync env st r) :
    ∃ xs r', Step env i st (writeVoice env.numStaves i v st) r (asRead i (v.1 + 1) r.tick r.voiceIndex false v.2)
      (tickAfter r.tick v.2, voiceAfter r.tick r.voiceIndex v.2) st.dirs xs r' ∧ (writeVoice env.numStaves i v st).dirs = [] := by
  unfold writeVoice
  simp only
  generalize hctx : ({ numStaves := env.numStaves, staffIndex := i, voiceIndex := v.1 } : WCtx) = ctx
  have e1 : ctx.staffIndex = i := by rw [← hctx]
  have e2 : ctx.numStaves = env.numStaves := by rw [← hctx]
  have e3 : ctx.voiceIndex = v.1 := by rw [← hctx]
  obtain ⟨xs, ds, hq, _⟩ := quiet_writeDirections ctx none v.2.head? v.2.tail.head? st
  rw [e1] at hq
  obtain ⟨r1, s1⟩ := step_quiet hq h0 h1 h
  generalize writeDirections ctx none v.2.head? v.2.tail.head? st = st1 at *
  obtain ⟨ys, r2, ds2, c1, c2, c3, c4, c5, c6, c7, c8, c9, c10, c11⟩ := read_notes ctx e2 (by omega) (by omega) (by omega) v.2 true (-2) none st1 r1
    hv.1 hv.2 ⟨rfl, by simp⟩ s1.sync
  have hhead : headFrom (none : Option (NoteData P)) v.2 = false := by cases v.2 <;> rfl
  rw [hhead] at c4 c5
  rw [e1] at c5 c9 c11
  rw [e3] at c5
  have ht : st1.tick = r.tick := by rw [← s1.sync.tick, s1.tick]
  rw [ht, s1.voice] at c5 c6
  rw [ht] at c7
  have s2 : Step env i st1 (writeNotes ctx true (-2) none v.2 st1) r1 (asRead i (v.1 + 1) r.tick r.voiceIndex false v.2)
      (tickAfter r.tick v.2, voiceAfter r.tick r.voiceIndex v.2) ds2 ys r2 :=
    ⟨c1, c2, c3, c4, c5, c7, c6, c8, c9, c10, c11⟩
  generalize writeNotes ctx true (-2) none v.2 st1 = st2 at *
  obtain ⟨zs, ds3, hq3, _⟩ := quiet_writeDirections ctx v.2.getLast? none none st2
  rw [e1] at hq3
  obtain ⟨r3, s3⟩ := step_quiet hq3 h0 h1 s2.sync
  have hend := writeDirections_end_dirs ctx v.2.getLast? none st2
  have := (s1.trans s2).trans s3
  have hds := this.dirs
  rw [hend, List.append_nil] at hds
  refine ⟨xs ++ ys ++ zs, r3, ?_, hend⟩
  rw [hds]
  simpa [s2.tick, s2.voice] using this

theorem step_voices {env : REnv} (i : Int) (h0 : 0 ≤ i) (h1 : i < env.numStaves) : ∀ (vs : List (Int × List (NoteData P))) (st : WSt P) (r : RSt P),
    (∀ v ∈ vs, 0 ≤ v.1 ∧ VoiceKept v.2) → Sync env st r →
    ∃ xs r' ds, Step env i st (vs.foldl (fun s v => writeVoice env.numStaves i v s) st) r (voicesRead i (r.tick, r.voiceIndex) vs)
      (voicesEnd (r.tick, r.voiceIndex) vs) ds xs r' := by
  intro vs
  induction vs with
  | nil =>
    intro st r _ h
    exact ⟨[], r, [], by simp, rfl, h, rfl, by simp [voicesRead], rfl, rfl, by simp, by simp, rfl, rfl⟩
  | cons v vs ih =>
    intro st r hv h
    obtain ⟨xs, r1, s1, _⟩ := step_voice i v st r h0 h1 (hv v (by simp)).1 (hv v (by simp)).2 h
    obtain ⟨ys, r2, ds, s2⟩ := ih _ r1 (fun w hw => hv w (by simp [hw])) s1.sync
    refine ⟨xs ++ ys, r2, st.dirs ++ ds, ?_⟩
    have := s1.trans s2
    rw [s1.tick, s1.voice] at this
    exact this

theorem step_staff {env : REnv} (i : Int) (s : StaffData P) (st : WSt P) (r : RSt P)
    (h0 : 0 ≤ i) (h1 : i < env.numStaves) (hv : ∀ v ∈ s.voices, 0 ≤ v.1 ∧ VoiceKept v.2) (h : Sync env st r) :
    ∃ xs r', Step env i { st with clefs := s.clefs.dropWhile (fun x => x.tick = 0), keys := s.keys, dirs := s.directions }
        (writeVoices env.numStaves i s st) r (voicesRead i (r.tick, r.voiceIndex) s.voices)
        (voicesEnd (r.tick, r.voiceIndex) s.voices) s.directions xs r' ∧
      (writeVoices env.numStaves i s st).clefs = [] := by
  unfold writeVoices
  simp only
  have hsync0 : Sync env { st with clefs := s.clefs.dropWhile (fun x => x.tick = 0), keys := s.keys, dirs := s.directions } r :=
    ⟨h.tick, h.back, h.tpq, h.clefs⟩
  generalize hst0 : ({ st with clefs := s.clefs.dropWhile (fun x => x.tick = 0), keys := s.keys, dirs := s.directions } : WSt P) = st0 at *
  obtain ⟨xs, r1, ds, s1⟩ := step_voices i h0 h1 s.voices st0 r hv hsync0
  generalize List.foldl (fun s v => writeVoice env.numStaves i v s) st0 s.voices = st1 at *
  obtain ⟨ys, ds2, hq2, _⟩ := quiet_writeDirections { numStaves := env.numStaves, staffIndex := i, voiceIndex := 0 } none none none st1
  obtain ⟨r2, s2⟩ := step_quiet hq2 h0 h1 s1.sync
  have hend := writeDirections_end_dirs { numStaves := env.numStaves, staffIndex := i, voiceIndex := 0 } none none st1
  generalize writeDirections { numStaves := env.numStaves, staffIndex := i, voiceIndex := 0 } none none none st1 = st2 at *
  obtain ⟨zs, hq3⟩ := quiet_writeRemaining i st2
  obtain ⟨r3, s3⟩ := step_quiet hq3 h0 h1 s2.sync
  have hcl := writeRemaining_clefs i st2
  have hd3 := hq3.dirs
  simp only [List.nil_append] at hd3
  have := (s1.trans s2).trans s3
  have hds := this.dirs
  rw [← hd3, hend, List.append_nil] at hds
  refine ⟨xs ++ ys ++ zs, r3, ?_, hcl⟩
  have hd0 : st0.dirs = s.directions := by rw [← hst0]
  rw [← hd0, hds]
  simpa [s1.tick, s1.voice, s2.tick, s2.voice] using this

/-- the directions of a sequence of staves as they are read -/
def dirsRead : Int → List (StaffData P) → List (Int × DirectionData P)
  | _, [] => []
  | i, s :: rest => s.directions.map (dirRead i) ++ dirsRead (i + 1) rest

/-- the clefs not at the beginning -/
def lateClefs : Int → List (StaffData P) → List (Int × P)
  | _, [] => []
  | i, s :: rest => (s.clefs.dropWhile (fun x => x.tick = 0)).map (fun x => (i, x.content)) ++ lateClefs (i + 1) rest

theorem read_staves {env : REnv} : ∀ (ss : List (StaffData P)) (i : Int) (st : WSt P) (r : RSt P), 0 ≤ i → i + ss.length ≤ env.numStaves →
    (∀ s ∈ ss, ∀ v ∈ s.voices, 0 ≤ v.1 ∧ VoiceKept v.2) → Sync env st r →
    let st' := writeStavesFrom env.numStaves i ss st
    ∃ xs r', st'.out = st.out ++ xs ∧ readElems env false xs r = some r' ∧ Sync env st' r' ∧ nextNoteIsChord false xs = false ∧
      r'.notes = r.notes ++ stavesRead i (r.tick, r.voiceIndex) ss ∧ r'.directions = r.directions ++ dirsRead i ss ∧
      r'.barlines = r.barlines ∧
      r'.clefs.map (fun c => (c.1, c.2.content)) ++ st'.buf.clefs.map (fun c => (clefStaff c, c.content)) =
        r.clefs.map (fun c => (c.1, c.2.content)) ++ st.buf.clefs.map (fun c => (clefStaff c, c.content)) ++ lateClefs i ss := by
  intro ss
  induction ss with
  | nil =>
    intro i st r _ _ _ h
    exact ⟨[], r, by simp [writeStavesFrom], rfl, h, rfl, by simp [stavesRead], by simp [dirsRead], rfl, by simp [lateClefs, writeStavesFrom]⟩
  | cons s rest ih =>
    intro i st r h0 h1 hv h
    simp only [List.length_cons] at h1
    have h1' : i + 1 + rest.length ≤ env.numStaves := by push_cast at h1; omega
    obtain ⟨xs, r1, s1, hc1⟩ := step_staff i s st r h0 (by omega) (hv s (by simp)) h
    obtain ⟨ys, r2, g1, g2, g3, g4, g5, g6, g7, g8⟩ := ih (i + 1) _ r1 (by omega) h1' (fun w hw => hv w (by simp [hw])) s1.sync
    have hout := s1.out
    have hcl := s1.clefs
    unfold clefsOf at hcl
    simp only [hc1, List.map_nil, List.append_nil] at hcl
    refine ⟨xs ++ ys, r2, ?_, ?_, g3, ?_, ?_, ?_, ?_, ?_⟩
    · simp only [writeStavesFrom]; rw [g1, hout, List.append_assoc]
    · rw [readElems_append, g4, s1.read]; exact g2
    · rw [nextNoteIsChord_append, g4, s1.next]
    · rw [g5, s1.notes, s1.tick, s1.voice]; simp only [stavesRead, List.append_assoc]
    · rw [g6, s1.directions]; simp only [dirsRead, List.append_assoc]
    · rw [g7, s1.barlines]
    · simp only [writeStavesFrom, lateClefs]
      rw [g8, hcl]
      simp only [List.map_append, List.map_map, List.append_assoc]
      congr 3
      apply List.map_congr_left
      intro x _
      simp [clefOut, clefStaff, h0]

/-- the location a barline is written with -/
def barlineLocation (b : BarlineData P) : Location :=
  if b.location ≠ .unspecified then b.location else if b.tick = 0 then .left else .right

/-- a barline as it is read when the reader is at `tick` -/
def barRead (tick : Int) (b : BarlineData P) : BarlineData P :=
  { tick := if barlineLocation b = .right then TICK_TIME_INFINITY else tick, location := barlineLocation b, content := b.content }

theorem read_barlines {env : REnv} (la : Bool) : ∀ (bs : List (BarlineData P)) (r : RSt P), r.isBackupInProgress = false →
    readElems env la (bs.map barlineElem) r = some { r with barlines := r.barlines ++ bs.map (barRead r.tick) } := by
  intro bs
  induction bs with
  | nil => intro r _; simp [readElems]
  | cons b bs ih =>
    intro r hr
    simp only [List.map_cons, readElems, parseElem, barlineElem, Option.bind_eq_bind, Option.bind_some]
    rw [ih (parseBarline _ _ r) rfl]
    simp only [parseBarline, Option.getD_some]
    rw [hr, List.append_assoc]
    rfl

theorem read_others {env : REnv} (la : Bool) : ∀ (n : Nat) (r : RSt P), r.isBackupInProgress = false →
    readElems env la (List.replicate n Elem.other) r = some r := by
  intro n
  induction n with
  | zero => intro r _; rfl
  | succ n ih =>
    intro r hr
    simp only [List.replicate_succ, readElems, parseElem, Option.bind_eq_bind, Option.bind_some]
    have : ({ r with isBackupInProgress := false } : RSt P) = r := by cases r; simp only at hr; subst hr; rfl
    rw [this]; exact ih r hr

theorem next_barlines (la : Bool) (bs : List (BarlineData P)) : nextNoteIsChord la (bs.map barlineElem) = la := by
  induction bs with
  | nil => rfl
  | cons b bs ih => simpa [nextNoteIsChord, barlineElem] using ih

theorem next_others (la : Bool) (n : Nat) : nextNoteIsChord la (List.replicate n (Elem.other : Elem P)) = la := by
  induction n with
  | zero => rfl
  | succ n ih => simpa [nextNoteIsChord, List.replicate_succ] using ih

/-- something per staff, with the index of the staff -/
def tagged {X : Type} (f : Int → StaffData P → List X) : Int → List (StaffData P) → List (Int × X)
  | _, [] => []
  | i, s :: rest => (f i s).map (fun x => (i, x)) ++ tagged f (i + 1) rest

theorem tagged_ge {X : Type} {f : Int → StaffData P → List X} : ∀ {ss : List (StaffData P)} {j : Int} {x},
    x ∈ tagged f j ss → j ≤ x.1 := by
  intro ss
  induction ss with
  | nil => intro j x h; simp [tagged] at h
  | cons s rest ih =>
    intro j x h
    simp only [tagged, List.mem_append, List.mem_map] at h
    rcases h with ⟨y, _, rfl⟩ | h
    · simp
    · have := ih h; omega

theorem filter_tagged {X : Type} (f : Int → StaffData P → List X) : ∀ (ss : List (StaffData P)) (j : Int) (k : Nat) (s : StaffData P),
    ss[k]? = some s → ((tagged f j ss).filter (fun x => x.1 = j + k)).map (·.2) = f (j + k) s := by
  intro ss
  induction ss with
  | nil => intro j k s h; simp at h
  | cons s0 rest ih =>
    intro j k s h
    simp only [tagged, List.filter_append, List.map_append]
    cases k with
    | zero =>
      simp at h
      subst h
      have h2 : (tagged f (j + 1) rest).filter (fun x => decide (x.1 = j + (0 : Nat))) = [] := by
        rw [List.filter_eq_nil_iff]
        intro x hx
        have := tagged_ge hx
        simp; omega
      rw [h2]
      have h1 : ((f j s0).map (fun x => (j, x))).filter (fun x => decide (x.1 = j + (0 : Nat))) = (f j s0).map (fun x => (j, x)) := by
        rw [List.filter_eq_self]
        intro x hx
        obtain ⟨y, _, rfl⟩ := List.mem_map.mp hx
        simp
      rw [h1]
      simp [List.map_map, Function.comp_def]
    | succ k =>
      have h1 : ((f j s0).map (fun x => (j, x))).filter (fun x => decide (x.1 = j + ((k + 1 : Nat) : Int))) = [] := by
        rw [List.filter_eq_nil_iff]
        intro x hx
        obtain ⟨y, _, rfl⟩ := List.mem_map.mp hx
        simp; omega
      have h2 := ih (j + 1) k s (by simpa using h)
      have e : j + ((k + 1 : Nat) : Int) = j + 1 + k := by push_cast; ring
      rw [h1, e, h2]; simp

theorem dirsRead_eq (ss : List (StaffData P)) : ∀ i, dirsRead i ss =
    tagged (fun i s => s.directions.map (fun d => (dirRead i d).2)) i ss := by
  induction ss with
  | nil => intro i; rfl
  | cons s rest ih => intro i; simp [dirsRead, tagged, ih, dirRead, List.map_map, Function.comp_def]

theorem lateClefs_eq (ss : List (StaffData P)) : ∀ i, lateClefs i ss =
    tagged (fun _ s => (s.clefs.dropWhile (fun x => x.tick = 0)).map (·.content)) i ss := by
  induction ss with
  | nil => intro i; rfl
  | cons s rest ih => intro i; simp [lateClefs, tagged, ih, List.map_map, Function.comp_def]

/-- the clefs at the beginning -/
def earlyClefs (ss : List (StaffData P)) : List (Int × P) :=
  tagged (fun _ s => (s.clefs.takeWhile (fun x => x.tick = 0)).map (·.content)) 0 ss

theorem globalClefs_clefs (numStaves : Int) (ss : List (StaffData P)) : ∀ (i : Int) (a : Attributes P), 0 ≤ i →
    i + ss.length ≤ numStaves →
    (globalClefs numStaves i ss a).clefs.map (fun c => (clefStaff c, c.content)) = a.clefs.map (fun c => (clefStaff c, c.content)) ++
      tagged (fun _ s => (s.clefs.takeWhile (fun x => x.tick = 0)).map (·.content)) i ss := by
  induction ss with
  | nil => intro i a _ _; simp [globalClefs, tagged]
  | cons s rest ih =>
    intro i a h0 h1
    simp only [List.length_cons, Nat.cast_add, Nat.cast_one] at h1
    simp only [globalClefs]
    rw [ih (i + 1) _ (by omega) (by omega), (foldl_writeClef_clefs _ _ _).1]
    simp only [tagged, List.map_append, List.append_assoc, List.map_map]
    congr 2
    apply List.map_congr_left
    intro x _
    simp only [Function.comp_def, clefOut, clefStaff]
    by_cases hn : numStaves > 1
    · simp [hn, h0]
    · have : i = 0 := by omega
      simp [hn, this]

theorem tagged_lt {X : Type} {f : Int → StaffData P → List X} : ∀ {ss : List (StaffData P)} {j : Int} {x},
    x ∈ tagged f j ss → x.1 < j + ss.length := by
  intro ss
  induction ss with
  | nil => intro j x h; simp [tagged] at h
  | cons s rest ih =>
    intro j x h
    simp only [tagged, List.mem_append, List.mem_map] at h
    simp only [List.length_cons, Nat.cast_add, Nat.cast_one]
    rcases h with ⟨y, _, rfl⟩ | h
    · simp
    · have := ih h; omega

theorem globals_clefs (env : WEnv) (m : MeasureData P) (h : (m.staves.length : Int) ≤ env.numStaves) :
    (globals env m).clefs.map (fun c => (clefStaff c, c.content)) = earlyClefs m.staves := by
  unfold globals
  simp only
  have : ∀ (l : List (KeyData P)) (a : Attributes P), (l.foldl (fun b k => writeKey k.staffIndex k b) a).clefs = a.clefs := by
    intro l
    induction l with
    | nil => intro a; rfl
    | cons x xs ih => intro a; simp only [List.foldl_cons]; rw [ih]; rfl
  rw [this, globalClefs_clefs _ _ _ _ (by omega) (by omega)]
  simp [earlyClefs]

/-- the position at the end of the staves -/
def stavesEnd (acc : Int × Int) : List (StaffData P) → Int × Int
  | [] => acc
  | s :: rest => stavesEnd (voicesEnd acc s.voices) rest

/-- Reading a written measure. -/
theorem read_measure (env : WEnv) (m : MeasureData P) (tpq : Int) (hG : 0 < env.ticksPerQuarter)
    (hd : env.isFirstMeasureInPart = false → tpq = env.ticksPerQuarter) (h1 : 1 ≤ env.numStaves)
    (hlen : (m.staves.length : Int) ≤ env.numStaves) (hm : MeasureKept m) (hk : ∀ s ∈ m.staves, ∀ v ∈ s.voices, 0 ≤ v.1) :
    ∃ r endTick, readElems ⟨env.numStaves, env.ticksPerQuarter⟩ false (writeMeasure env m) (initRSt tpq) = some r ∧
      r.notes = stavesRead 0 (0, 0) m.staves ∧ r.directions = dirsRead 0 m.staves ∧
      r.clefs.map (fun c => (c.1, c.2.content)) = earlyClefs m.staves ++ lateClefs 0 m.staves ∧
      r.barlines = (m.barlines.takeWhile (fun b => b.tick ≤ 0)).map (barRead 0) ++
        ((m.barlines.dropWhile (fun b => b.tick ≤ 0)).takeWhile (fun b => b.tick ≤ TICK_TIME_INFINITY)).map (barRead endTick) ∧
      r.ticksPerQuarter = env.ticksPerQuarter := by
  generalize hrenv : (⟨env.numStaves, env.ticksPerQuarter⟩ : REnv) = renv
  have e1 : renv.numStaves = env.numStaves := by rw [← hrenv]
  have e2 : renv.globalTicksPerQuarter = env.ticksPerQuarter := by rw [← hrenv]
  generalize hst : ({ tick := 0, prevChord := false, dirs := [], clefs := [], keys := []
                      mkeys := m.keys.dropWhile (fun k => k.tick = 0)
                      buf := globals env m
                      out := (m.barlines.takeWhile (fun b => b.tick ≤ 0)).map barlineElem ++ List.replicate env.printElements .other } : WSt P) = st
  let r0 : RSt P := { initRSt tpq with barlines := (m.barlines.takeWhile (fun b => b.tick ≤ 0)).map (barRead 0) }
  have hr0 : ∀ la, readElems renv la ((m.barlines.takeWhile (fun b => b.tick ≤ 0)).map barlineElem ++
      List.replicate env.printElements .other) (initRSt tpq) = some r0 := by
    intro la
    rw [readElems_append, read_barlines _ _ _ rfl]
    show readElems renv la _ _ = _
    rw [read_others]
    · simp [r0, initRSt]
    · rfl
  have hsync : Sync renv st r0 := by
    rw [← hst]
    refine ⟨rfl, rfl, ?_, ?_⟩
    · simp only
      rw [globals_divisions]
      cases hf : env.isFirstMeasureInPart with
      | true => left; simp [durMicro, hG, e2]
      | false => right; simp only [Bool.false_eq_true, if_false, true_and, e2]; exact hd hf
    · intro c hc
      have : (clefStaff c, c.content) ∈ earlyClefs m.staves := by
        rw [← globals_clefs env m hlen]
        exact List.mem_map.mpr ⟨c, hc, rfl⟩
      have := tagged_lt this
      simp only at this
      omega
  obtain ⟨xs, r1, g1, g2, g3, g4, g5, g6, g7, g8⟩ := read_staves m.staves 0 st r0 (by omega) (by omega)
    (fun s hs v hv => ⟨hk s hs v hv, hm s hs v hv⟩) hsync
  rw [e1] at g1 g3 g8
  have hq := quiet_flush' 0 (writeStavesFrom env.numStaves 0 m.staves st)
  obtain ⟨r2, f1, f2, f3, f4, f5, f6, f7⟩ := read_quiet (env := renv) false hq (by omega) (by omega) g3
  refine ⟨{ r2 with barlines := r2.barlines ++
    ((m.barlines.dropWhile (fun b => b.tick ≤ 0)).takeWhile (fun b => b.tick ≤ TICK_TIME_INFINITY)).map (barRead r2.tick) }, r2.tick, ?_, ?_, ?_, ?_, ?_, ?_⟩
  · unfold writeMeasure
    simp only
    have ho : st.out = (m.barlines.takeWhile (fun b => b.tick ≤ 0)).map barlineElem ++ List.replicate env.printElements .other := by
      rw [← hst]
    rw [hst, hq.out, g1, ho]
    rw [readElems_append, next_barlines, readElems_append, nextNoteIsChord_quiet hq.quiet, readElems_append, hr0]
    simp only [Option.bind_eq_bind, Option.bind_some]
    rw [g2]
    simp only [Option.bind_some]
    rw [f1]
    simp only [Option.bind_some]
    exact read_barlines _ _ _ f2.back
  · simp only; rw [f3, g5]; rfl
  · simp only; rw [f5, g6]; simp [r0, initRSt]
  · simp only
    have hb := flush_buf (writeStavesFrom env.numStaves 0 m.staves st)
    unfold clefsOf at f7
    have hc := (flush_clefs (writeStavesFrom env.numStaves 0 m.staves st)).2
    rw [hb, hc] at f7
    simp only [List.nil_append, List.map_append, ← List.append_assoc] at f7
    have f8 := List.append_cancel_right f7
    rw [f8, g8, ← hst]
    simp only
    rw [globals_clefs env m hlen]
    simp [r0, initRSt]
  · simp only; rw [f6, g7]
  · rcases f2.tpq with h | h
    · rw [flush_buf_divisions] at h; simp at h
    · rw [← e2]; exact h.2

end Mx.Measure
