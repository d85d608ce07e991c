import Verif.Model.MeasureWriter

/-! Lemmas about the writer model: the steps that write no note, backup or forward ("quiet" steps). -/
namespace Mx.Measure

variable {P : Type}

/-- Elements that neither are notes nor move the time. -/
def Elem.isQuiet : Elem P → Bool
  | .note _ => false
  | .backup _ => false
  | .forward _ => false
  | _ => true

/-- Attributes and directions. -/
def Elem.isPlain : Elem P → Bool
  | .attributes _ => true
  | .direction .. => true
  | _ => false

theorem isQuiet_of_isPlain {e : Elem P} (h : e.isPlain = true) : e.isQuiet = true := by
  cases e <;> simp_all [Elem.isPlain, Elem.isQuiet]

/-- The divisions set by an element. -/
def Elem.divisions? : Elem P → Option Int
  | .attributes a => a.divisions
  | _ => none

/-- The direction written by an element. -/
def Elem.direction? : Elem P → Option (Option Int × Int × P)
  | .direction s o c => some (s, o, c)
  | _ => none

/-- how a direction is written when the cursor is at `tick` -/
def dirOut (staffIndex tick : Int) (d : DirectionData P) : Option Int × Int × P :=
  (if d.isStaffValueSpecified || staffIndex != 0 then some (staffIndex + 1) else none,
   if d.tick ≠ tick then (d.tick - tick) * MICRO else 0, d.content)

/-- The clefs of an element. -/
def Elem.clefElems : Elem P → List (ClefElem P)
  | .attributes a => a.clefs
  | _ => []

/-- The keys of an element. -/
def Elem.keyElems : Elem P → List (KeyElem P)
  | .attributes a => a.keys
  | _ => []

/-- how a clef is written -/
def clefOut (staffIndex : Int) (x : Timed P) : ClefElem P :=
  { number := if staffIndex ≥ 0 then some (staffIndex + 1) else none, content := x.content }

/-- `st'` results from `st` by writing the quiet elements `xs`. -/
structure Quiet (s : Int) (st st' : WSt P) (xs : List (Elem P)) (ds : List (DirectionData P)) : Prop where
  out : st'.out = st.out ++ xs
  plain : ∀ e ∈ xs, e.isPlain = true
  tick : st'.tick = st.tick
  prevChord : st'.prevChord = st.prevChord
  divs : xs.filterMap Elem.divisions? ++ st'.buf.divisions.toList = st.buf.divisions.toList
  dirs : st.dirs = ds ++ st'.dirs
  dirsOut : xs.filterMap Elem.direction? = ds.map (dirOut s st.tick)
  clefs : xs.flatMap Elem.clefElems ++ (st'.buf.clefs ++ st'.clefs.map (clefOut s)) = st.buf.clefs ++ st.clefs.map (clefOut s)
  clefs0 : st.clefs = [] → st'.clefs = []
  keys : st.keys = [] → st.mkeys = [] →
    st'.keys = [] ∧ st'.mkeys = [] ∧ xs.flatMap Elem.keyElems ++ st'.buf.keys = st.buf.keys

theorem Quiet.quiet {s : Int} {st st' : WSt P} {xs ds} (h : Quiet s st st' xs ds) : ∀ e ∈ xs, e.isQuiet = true :=
  fun e he => isQuiet_of_isPlain (h.plain e he)

theorem Quiet.refl (s : Int) (st : WSt P) : Quiet s st st [] [] := by
  constructor <;> simp
  exact fun h1 h2 => ⟨h1, h2⟩

theorem Quiet.trans {s : Int} {a b c : WSt P} {xs ys ds es} (h1 : Quiet s a b xs ds) (h2 : Quiet s b c ys es) :
    Quiet s a c (xs ++ ys) (ds ++ es) := by
  constructor
  · rw [h2.out, h1.out, List.append_assoc]
  · intro e he; rcases List.mem_append.mp he with h | h
    · exact h1.plain e h
    · exact h2.plain e h
  · rw [h2.tick, h1.tick]
  · rw [h2.prevChord, h1.prevChord]
  · rw [List.filterMap_append, List.append_assoc, h2.divs, h1.divs]
  · rw [h1.dirs, h2.dirs, List.append_assoc]
  · rw [List.filterMap_append, h1.dirsOut, h2.dirsOut, List.map_append, h1.tick]
  · rw [List.flatMap_append, List.append_assoc, h2.clefs, h1.clefs]
  · exact fun h => h2.clefs0 (h1.clefs0 h)
  · intro hk hm
    obtain ⟨a1, a2, a3⟩ := h1.keys hk hm
    obtain ⟨b1, b2, b3⟩ := h2.keys a1 a2
    exact ⟨b1, b2, by rw [List.flatMap_append, List.append_assoc, b3, a3]⟩

theorem hasContents_false {a : Attributes P} (h : a.hasContents = false) : a.divisions = none ∧ a.keys = [] ∧ a.clefs = [] := by
  unfold Attributes.hasContents at h
  simp at h
  exact ⟨h.1.1.1.1.1, h.1.2, h.2⟩

/-- the elements written by `flush` -/
def flushed (st : WSt P) : List (Elem P) := if st.buf.hasContents then [.attributes st.buf] else []

theorem flush_clefs (st : WSt P) :
    (flushed st).flatMap Elem.clefElems ++ (flush st).buf.clefs = st.buf.clefs ∧ (flush st).clefs = st.clefs := by
  unfold flushed flush
  split
  · simp [Elem.clefElems]
  · rename_i h
    obtain ⟨h1, h2, h3⟩ := hasContents_false (a := st.buf) (by simpa using h)
    simp [h3]

theorem flush_keys (st : WSt P) :
    (flushed st).flatMap Elem.keyElems ++ (flush st).buf.keys = st.buf.keys ∧ (flush st).keys = st.keys ∧ (flush st).mkeys = st.mkeys := by
  unfold flushed flush
  split
  · simp [Elem.keyElems]
  · rename_i h
    obtain ⟨h1, h2, h3⟩ := hasContents_false (a := st.buf) (by simpa using h)
    simp [h2]

theorem quiet_flush' (s : Int) (st : WSt P) : Quiet s st (flush st) (flushed st) [] := by
  unfold flush flushed
  split
  · skip
    constructor <;> simp [Elem.isPlain, Elem.divisions?, Elem.direction?, List.filterMap_cons, Elem.clefElems, Elem.keyElems]
    · cases st.buf.divisions <;> simp
    · intro h1 h2; exact ⟨h1, h2⟩
  · rename_i h
    obtain ⟨h1, h2, h3⟩ := hasContents_false (a := st.buf) (by simpa using h)
    constructor <;> simp [h1, h2, h3]
    intro h1 h2; exact ⟨h1, h2⟩

theorem quiet_flush (s : Int) (st : WSt P) : ∃ xs, Quiet s st (flush st) xs [] := ⟨_, quiet_flush' s st⟩

theorem flush_buf (st : WSt P) : (flush st).buf = {} := by
  unfold flush; split <;> rfl

theorem flush_buf_divisions (st : WSt P) : (flush st).buf.divisions = none := by
  rw [flush_buf]

theorem writeKey_divisions (i : Int) (k : KeyData P) (a : Attributes P) : (writeKey i k a).divisions = a.divisions := rfl
theorem writeClef_divisions (i : Int) (k : Timed P) (a : Attributes P) : (writeClef i k a).divisions = a.divisions := rfl

theorem foldl_writeClef_divisions (i : Int) (l : List (Timed P)) (a : Attributes P) :
    (l.foldl (fun b x => writeClef i x b) a).divisions = a.divisions := by
  induction l generalizing a with
  | nil => rfl
  | cons x xs ih => simp only [List.foldl_cons]; rw [ih]; rfl

theorem foldl_writeKey_divisions (i : Int) (l : List (KeyData P)) (a : Attributes P) :
    (l.foldl (fun b x => writeKey i x b) a).divisions = a.divisions := by
  induction l generalizing a with
  | nil => rfl
  | cons x xs ih => simp only [List.foldl_cons]; rw [ih]; rfl

theorem foldl_writeClef_clefs (i : Int) (l : List (Timed P)) (a : Attributes P) :
    (l.foldl (fun b x => writeClef i x b) a).clefs = a.clefs ++ l.map (clefOut i) ∧
    (l.foldl (fun b x => writeClef i x b) a).keys = a.keys := by
  induction l generalizing a with
  | nil => simp
  | cons x xs ih =>
    simp only [List.foldl_cons]
    obtain ⟨h1, h2⟩ := ih (writeClef i x a)
    exact ⟨by rw [h1]; simp [writeClef, clefOut], by rw [h2]; rfl⟩

theorem foldl_writeKey_clefs (i : Int) (l : List (KeyData P)) (a : Attributes P) :
    (l.foldl (fun b x => writeKey i x b) a).clefs = a.clefs := by
  induction l generalizing a with
  | nil => simp
  | cons x xs ih => simp only [List.foldl_cons]; rw [ih]; rfl

/-- A step that only changes the buffer (not its divisions), keys and clefs. -/
theorem quiet_of_buf {s : Int} {st st' : WSt P} (h1 : st'.out = st.out) (h2 : st'.tick = st.tick)
    (h3 : st'.prevChord = st.prevChord) (h4 : st'.buf.divisions = st.buf.divisions) (h5 : st'.dirs = st.dirs)
    (h6 : st'.buf.clefs ++ st'.clefs.map (clefOut s) = st.buf.clefs ++ st.clefs.map (clefOut s))
    (h8 : st.clefs = [] → st'.clefs = [])
    (h7 : st.keys = [] → st.mkeys = [] → st'.keys = [] ∧ st'.mkeys = [] ∧ st'.buf.keys = st.buf.keys) :
    Quiet s st st' [] [] := by
  constructor
  · simp [h1]
  · simp
  · exact h2
  · exact h3
  · simp [h4]
  · simp [h5]
  · simp
  · simpa using h6
  · exact h8
  · simpa using h7

theorem quiet_writeMeasureKey (s : Int) (st : WSt P) : Quiet s st (writeMeasureKey st) [] [] := by
  unfold writeMeasureKey
  split
  · rename_i k ks hk
    split
    · exact quiet_of_buf rfl rfl rfl rfl rfl rfl id (fun _ h => by rw [hk] at h; cases h)
    · exact Quiet.refl s st
  · exact Quiet.refl s st

theorem quiet_writeDueClefs (c : WCtx) (st : WSt P) : Quiet c.staffIndex st (writeDueClefs c st) [] [] := by
  refine quiet_of_buf rfl rfl rfl (foldl_writeClef_divisions _ _ _) rfl ?_ (fun h => by simp [writeDueClefs, h]) ?_
  · unfold writeDueClefs
    simp only
    rw [(foldl_writeClef_clefs _ _ _).1, List.append_assoc, ← List.map_append, List.takeWhile_append_dropWhile]
  · intro h1 h2
    exact ⟨h1, h2, (foldl_writeClef_clefs _ _ _).2⟩

theorem quiet_writeDueKeys (s : Int) (c : WCtx) (st : WSt P) : Quiet s st (writeDueKeys c st) [] [] := by
  refine quiet_of_buf rfl rfl rfl (foldl_writeKey_divisions _ _ _) rfl ?_ id ?_
  · unfold writeDueKeys
    simp only
    rw [foldl_writeKey_clefs]
  · intro h1 h2
    unfold writeDueKeys
    simp [h1, h2]

theorem quiet_writeKeysAndClefs (c : WCtx) (st : WSt P) : ∃ xs, Quiet c.staffIndex st (writeKeysAndClefs c st) xs [] := by
  unfold writeKeysAndClefs
  obtain ⟨xs, h⟩ := quiet_flush c.staffIndex (writeDueKeys c (writeDueClefs c (writeMeasureKey st)))
  exact ⟨_, ((quiet_writeMeasureKey _ st).trans ((quiet_writeDueClefs c _).trans (quiet_writeDueKeys _ c _))).trans h⟩

theorem writeKeysAndClefs_buf (c : WCtx) (st : WSt P) : (writeKeysAndClefs c st).buf = {} := flush_buf _

/-- the elements written by `writeDirection`s in a row, with the list of pending directions untouched -/
theorem quiet_dirs_aux (c : WCtx) (ds : List (DirectionData P)) : ∀ st : WSt P,
    ∃ xs, let st' := ds.foldl (fun s d => writeDirection c d s) st
      st'.out = st.out ++ xs ∧ (∀ e ∈ xs, e.isPlain = true) ∧ st'.tick = st.tick ∧ st'.prevChord = st.prevChord ∧
      xs.filterMap Elem.divisions? ++ st'.buf.divisions.toList = st.buf.divisions.toList ∧ st'.dirs = st.dirs ∧
      xs.filterMap Elem.direction? = ds.map (dirOut c.staffIndex st.tick) ∧ (st.buf = {} → st'.buf = {}) ∧
      (xs.flatMap Elem.clefElems ++ st'.buf.clefs = st.buf.clefs ∧ st'.clefs = st.clefs) ∧
      (xs.flatMap Elem.keyElems ++ st'.buf.keys = st.buf.keys ∧ st'.keys = st.keys ∧ st'.mkeys = st.mkeys) := by
  induction ds with
  | nil => intro st; exact ⟨[], by simp⟩
  | cons d ds ih =>
    intro st
    have hf := quiet_flush' c.staffIndex st
    generalize hys : flushed st = ys at hf
    have hw : writeDirection c d st = { flush st with out := (flush st).out ++ [.direction
        (dirOut c.staffIndex st.tick d).1 (dirOut c.staffIndex st.tick d).2.1 d.content] } := by
      unfold writeDirection dirOut; simp only [hf.tick]
    obtain ⟨xs, h1, h2, h3, h4, h5, h6, h7, h8, h9, h10⟩ := ih (writeDirection c d st)
    refine ⟨ys ++ [.direction (dirOut c.staffIndex st.tick d).1 (dirOut c.staffIndex st.tick d).2.1 d.content] ++ xs, ?_⟩
    have t1 : (writeDirection c d st).tick = st.tick := by rw [hw]; exact hf.tick
    have dd : (flush st).dirs = st.dirs := by have := hf.dirs; simpa using this.symm
    simp only [List.foldl_cons]
    refine ⟨?_, ?_, ?_, ?_, ?_, ?_, ?_, ?_, ?_, ?_⟩
    · rw [h1, hw]; simp [hf.out]
    · intro e he
      simp only [List.append_assoc, List.mem_append, List.mem_singleton] at he
      rcases he with he | rfl | he
      · exact hf.plain e he
      · rfl
      · exact h2 e he
    · rw [h3, t1]
    · rw [h4, hw]; exact hf.prevChord
    · have hd := hf.divs
      have hb : (writeDirection c d st).buf = (flush st).buf := by rw [hw]
      simp only [List.filterMap_append, List.append_assoc, List.filterMap_cons, List.filterMap_nil, Elem.divisions?, List.nil_append]
      rw [h5, hb]; exact hd
    · rw [h6, hw]; exact dd
    · have hd := hf.dirsOut
      simp only [List.filterMap_append, hd, h7, t1]
      simp [List.filterMap_cons, Elem.direction?, dirOut]
    · intro hb
      exact h8 (by rw [hw]; exact flush_buf st)
    · have hb : (writeDirection c d st).buf = (flush st).buf := by rw [hw]
      have hc : (writeDirection c d st).clefs = (flush st).clefs := by rw [hw]
      have hcl : ys.flatMap Elem.clefElems ++ (flush st).buf.clefs = st.buf.clefs ∧ (flush st).clefs = st.clefs := by
        rw [← hys]; exact flush_clefs st
      refine ⟨?_, by rw [h9.2, hc, hcl.2]⟩
      simp only [List.flatMap_append, List.append_assoc]
      rw [h9.1, hb]
      simpa [Elem.clefElems] using hcl.1
    · have hb : (writeDirection c d st).buf = (flush st).buf := by rw [hw]
      have hc : (writeDirection c d st).keys = (flush st).keys := by rw [hw]
      have hc' : (writeDirection c d st).mkeys = (flush st).mkeys := by rw [hw]
      have hcl : ys.flatMap Elem.keyElems ++ (flush st).buf.keys = st.buf.keys ∧ (flush st).keys = st.keys ∧ (flush st).mkeys = st.mkeys := by
        rw [← hys]; exact flush_keys st
      refine ⟨?_, by rw [h10.2.1, hc, hcl.2.1], by rw [h10.2.2, hc', hcl.2.2]⟩
      simp only [List.flatMap_append, List.append_assoc]
      rw [h10.1, hb]
      simpa [Elem.keyElems] using hcl.1

theorem quiet_writeDirectionsWhile (c : WCtx) (p : Int → Bool) (st : WSt P) :
    ∃ xs, Quiet c.staffIndex st (writeDirectionsWhile c p st) xs (st.dirs.takeWhile (fun d => p d.tick)) ∧
      (st.buf = {} → (writeDirectionsWhile c p st).buf = {}) := by
  obtain ⟨xs, h1, h2, h3, h4, h5, h6, h7, h8, h9, h10⟩ := quiet_dirs_aux c (st.dirs.takeWhile (fun d => p d.tick)) st
  refine ⟨xs, ?_, ?_⟩
  · constructor
    · exact h1
    · exact h2
    · exact h3
    · exact h4
    · exact h5
    · exact (List.takeWhile_append_dropWhile (p := fun d : DirectionData P => p d.tick) (l := st.dirs)).symm
    · exact h7
    · rw [← List.append_assoc, show (writeDirectionsWhile c p st).buf = _ from rfl, show (writeDirectionsWhile c p st).clefs = _ from rfl]
      simp only [writeDirectionsWhile]
      rw [h9.1, h9.2]
    · intro h; simp only [writeDirectionsWhile]; rw [h9.2, h]
    · intro hk hm
      simp only [writeDirectionsWhile]
      exact ⟨by rw [h10.2.1, hk], by rw [h10.2.2, hm], h10.1⟩
  · exact h8

theorem quiet_writeDirections (c : WCtx) (prev cur next : Option (NoteData P)) (st : WSt P) :
    ∃ xs ds, Quiet c.staffIndex st (writeDirections c prev cur next st) xs ds ∧
      (st.buf = {} → (writeDirections c prev cur next st).buf = {}) := by
  unfold writeDirections
  split
  · obtain ⟨xs, h⟩ := quiet_writeDirectionsWhile c (fun _ => true) st; exact ⟨xs, _, h⟩
  · simp only
    split
    · obtain ⟨xs, h⟩ := quiet_writeDirectionsWhile c _ st; exact ⟨xs, _, h⟩
    · split
      · exact ⟨[], [], Quiet.refl _ _, id⟩
      · obtain ⟨xs, h⟩ := quiet_writeDirectionsWhile c _ st; exact ⟨xs, _, h⟩

/-- at the end of the notes all directions are written -/
theorem writeDirections_end_dirs (c : WCtx) (prev next : Option (NoteData P)) (st : WSt P) :
    (writeDirections c prev none next st).dirs = [] := by
  unfold writeDirections writeDirectionsWhile
  show st.dirs.dropWhile (fun _ => true) = []
  induction st.dirs with
  | nil => rfl
  | cons x xs ih => simpa using ih

theorem quiet_writeRemaining (i : Int) (st : WSt P) : ∃ xs, Quiet i st (writeRemaining i st) xs [] := by
  unfold writeRemaining
  split
  · simp only
    have h1 : Quiet i st { st with buf := st.clefs.foldl (fun b x => writeClef i x b) st.buf, clefs := [] } [] [] :=
      quiet_of_buf rfl rfl rfl (foldl_writeClef_divisions _ _ _) rfl (by simp [(foldl_writeClef_clefs _ _ _).1]) (fun _ => rfl)
        (fun a b => ⟨a, b, (foldl_writeClef_clefs _ _ _).2⟩)
    have h2 : ∀ st : WSt P, Quiet i st (writeRemainingMeasureKey st) [] [] := by
      intro st
      unfold writeRemainingMeasureKey
      split
      · rename_i k ks hk
        split
        · exact quiet_of_buf rfl rfl rfl rfl rfl rfl id (fun _ h => by rw [hk] at h; cases h)
        · exact Quiet.refl i st
      · exact Quiet.refl i st
    have h3 : ∀ st : WSt P, Quiet i st { st with buf := st.keys.foldl (fun b x => writeKey i x b) st.buf, keys := [] } [] [] :=
      fun st => quiet_of_buf rfl rfl rfl (foldl_writeKey_divisions _ _ _) rfl (by simp [foldl_writeKey_clefs]) id
        (fun a b => ⟨rfl, b, by simp [a]⟩)
    obtain ⟨xs, h4⟩ := quiet_flush i
      { writeRemainingMeasureKey { st with buf := st.clefs.foldl (fun b x => writeClef i x b) st.buf, clefs := [] } with
        buf := (writeRemainingMeasureKey { st with buf := st.clefs.foldl (fun b x => writeClef i x b) st.buf, clefs := [] }).keys.foldl
          (fun b x => writeKey i x b) (writeRemainingMeasureKey { st with buf := st.clefs.foldl (fun b x => writeClef i x b) st.buf, clefs := [] }).buf
        keys := [] }
    exact ⟨_, ((h1.trans (h2 _)).trans (h3 _)).trans h4⟩
  · exact ⟨[], Quiet.refl _ _⟩

/-- at the end of a staff all clefs are written -/
theorem writeRemaining_clefs (i : Int) (st : WSt P) : (writeRemaining i st).clefs = [] := by
  unfold writeRemaining
  split
  · simp only
    rw [(flush_clefs _).2]
    have : ∀ st : WSt P, (writeRemainingMeasureKey st).clefs = st.clefs := by
      intro st; unfold writeRemainingMeasureKey
      split
      · split <;> rfl
      · rfl
    rw [this]
  · rename_i h
    simp at h
    exact h.1.1

end Mx.Measure
