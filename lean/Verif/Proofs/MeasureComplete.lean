import Verif.Spec.MeasureComplete
import Verif.Proofs.MeasureWriter
import Verif.Proofs.MeasureReader

/-! Whatever the times, nothing of a measure gets lost while it is written. -/
open Spec
namespace Mx.Measure

variable {P : Type}

/-- A note element without its chord flag. -/
def noteRec (n : NoteElem P) : Option Int × Option Int × NoteKind × Int × P := (n.staff, n.voice, n.kind, n.dur, n.content)

def Elem.noteRecs : Elem P → List (Option Int × Option Int × NoteKind × Int × P)
  | .note n => [noteRec n]
  | _ => []

def Elem.dirRecs : Elem P → List (Option Int × P)
  | .direction s _ c => [(s, c)]
  | _ => []

def Elem.barRecs : Elem P → List P
  | .barline _ c => [c]
  | _ => []

def dirRec (s : Int) (d : DirectionData P) : Option Int × P := (if d.isStaffValueSpecified || s != 0 then some (s + 1) else none, d.content)

def keyOut (s : Int) (k : KeyData P) : KeyElem P := { number := if s ≥ 0 then some (s + 1) else none, isTraditional := k.isTraditional, content := k.content }

/-- An element that can be read with `n` staves. -/
def Elem.goodB (G n : Int) : Elem P → Prop
  | .note x => noteStaffIndex x < n
  | .attributes a => (∀ c ∈ a.clefs, clefStaff c < n) ∧ ∀ d, a.divisions = some d → d = durMicro G
  | .direction s _ _ => ∀ k, s = some k → k - 1 < n
  | _ => True

def Elem.setsDivisions : Elem P → Bool
  | .attributes a => a.divisions.isSome
  | _ => false

/-- Are the divisions known after the elements? -/
def knownAfter (k : Bool) (es : List (Elem P)) : Bool := k || es.any Elem.setsDivisions

/-- The elements can be read; notes, backups and forwards come after the divisions. -/
def Timely (G n : Int) : Bool → List (Elem P) → Prop
  | _, [] => True
  | k, e :: es => (e.isQuiet = false → k = true) ∧ e.goodB G n ∧ Timely G n (k || e.setsDivisions) es

theorem timely_append {G n : Int} : ∀ (xs ys : List (Elem P)) (k : Bool), Timely G n k (xs ++ ys) ↔ Timely G n k xs ∧ Timely G n (knownAfter k xs) ys
  | [], ys, k => by simp [Timely, knownAfter]
  | e :: xs, ys, k => by
    have h : knownAfter (k || e.setsDivisions) xs = knownAfter k (e :: xs) := by simp [knownAfter, Bool.or_assoc]
    rw [List.cons_append, Timely, timely_append xs ys, h, Timely, and_assoc, and_assoc]

theorem knownAfter_append (k : Bool) (xs ys : List (Elem P)) : knownAfter k (xs ++ ys) = (knownAfter k xs || ys.any Elem.setsDivisions) := by
  simp [knownAfter, Bool.or_assoc]

/-! ### The invariant -/

structure Ready (G n : Int) (k0 : Bool) (st : WSt P) : Prop where
  timely : Timely G n k0 st.out
  known : knownAfter k0 st.out = true ∨ st.buf.divisions.isSome = true
  divs : ∀ d, st.buf.divisions = some d → d = durMicro G
  clefs : ∀ c ∈ st.buf.clefs, clefStaff c < n

def allDirs (s : Int) (st : WSt P) : List (Option Int × P) := st.out.flatMap Elem.dirRecs ++ st.dirs.map (dirRec s)
def allClefs (s : Int) (st : WSt P) : List (ClefElem P) := st.out.flatMap Elem.clefElems ++ st.buf.clefs ++ st.clefs.map (clefOut s)
def wholeKeys (st : WSt P) : List (KeyElem P) := (st.out.flatMap Elem.keyElems ++ st.buf.keys).filter (fun k => k.number.isNone) ++ st.mkeys.map (keyOut (-1))
def staffKeys (s : Int) (st : WSt P) : List (KeyElem P) := (st.out.flatMap Elem.keyElems ++ st.buf.keys).filter (fun k => k.number.isSome) ++ st.keys.map (keyOut s)

/-- A step of the writer for the staff `s` that writes the notes `N`. -/
structure Keeps (G n s : Int) (k0 : Bool) (N : List (Option Int × Option Int × NoteKind × Int × P)) (st st' : WSt P) : Prop where
  ready : Ready G n k0 st → Ready G n k0 st'
  notes : st'.out.flatMap Elem.noteRecs = st.out.flatMap Elem.noteRecs ++ N
  bars : st'.out.flatMap Elem.barRecs = st.out.flatMap Elem.barRecs
  dirs : allDirs s st' = allDirs s st
  clefs : allClefs s st' = allClefs s st
  whole : wholeKeys st' = wholeKeys st
  keys : staffKeys s st' = staffKeys s st
  fewer : st'.mkeys <:+ st.mkeys
  grow : st.out <+: st'.out

variable {G n s : Int} {k0 : Bool}

theorem Keeps.refl (st : WSt P) : Keeps G n s k0 [] st st := ⟨id, by simp, rfl, rfl, rfl, rfl, rfl, List.suffix_refl _, List.prefix_refl _⟩

theorem Keeps.trans {N M} {a b c : WSt P} (h : Keeps G n s k0 N a b) (g : Keeps G n s k0 M b c) : Keeps G n s k0 (N ++ M) a c :=
  ⟨fun r => g.ready (h.ready r), by rw [g.notes, h.notes, List.append_assoc], g.bars.trans h.bars, g.dirs.trans h.dirs, g.clefs.trans h.clefs, g.whole.trans h.whole, g.keys.trans h.keys,
   g.fewer.trans h.fewer, h.grow.trans g.grow⟩

theorem Keeps.trans0 {M} {a b c : WSt P} (h : Keeps G n s k0 [] a b) (g : Keeps G n s k0 M b c) : Keeps G n s k0 M a c := by
  have := h.trans g; rwa [List.nil_append] at this

theorem Keeps.trans1 {N} {a b c : WSt P} (h : Keeps G n s k0 N a b) (g : Keeps G n s k0 [] b c) : Keeps G n s k0 N a c := by
  have := h.trans g; rwa [List.append_nil] at this

/-- After a flush the divisions are known. -/
theorem flush_known {st : WSt P} (h : Ready G n k0 st) : knownAfter k0 (flush st).out = true := by
  unfold flush
  by_cases hc : st.buf.hasContents = true
  · rw [if_pos hc]
    simp only
    rw [knownAfter_append]
    rcases h.known with h' | h'
    · rw [h']; rfl
    · simp [Elem.setsDivisions, h']
  · rw [if_neg hc]
    simp only
    rcases h.known with h' | h'
    · exact h'
    · exfalso; apply hc; unfold Attributes.hasContents; rw [h']; simp

theorem keeps_flush (st : WSt P) : Keeps G n s k0 [] st (flush st) := by
  by_cases hc : st.buf.hasContents = true
  · have e : flush st = { st with out := st.out ++ [.attributes st.buf], buf := {} } := by unfold flush; rw [if_pos hc]
    refine ⟨fun r => ⟨?_, .inl (flush_known r), ?_, ?_⟩, ?_, ?_, ?_, ?_, ?_, ?_, ?_, ?_⟩
    · rw [e]
      simp only
      rw [timely_append]
      exact ⟨r.timely, (fun h => nomatch h), ⟨r.clefs, r.divs⟩, trivial⟩
    · rw [e]; intro d hd; cases hd
    · rw [e]; intro d hd; cases hd
    · rw [e]; simp [Elem.noteRecs]
    · rw [e]; simp [Elem.barRecs]
    · rw [e]; simp [allDirs, Elem.dirRecs]
    · rw [e]; simp [allClefs, Elem.clefElems]
    · rw [e]; simp [wholeKeys, Elem.keyElems]
    · rw [e]; simp [staffKeys, Elem.keyElems]
    · rw [e]; exact List.suffix_refl _
    · rw [e]; exact List.prefix_append _ _
  · have e : flush st = { st with buf := {} } := by unfold flush; rw [if_neg hc]
    have hk : st.buf.keys = [] := by
      unfold Attributes.hasContents at hc
      cases h : st.buf.keys with
      | nil => rfl
      | cons a l => rw [h] at hc; simp at hc
    have hcl : st.buf.clefs = [] := by
      unfold Attributes.hasContents at hc
      cases h : st.buf.clefs with
      | nil => rfl
      | cons a l => rw [h] at hc; simp at hc
    refine ⟨fun r => ⟨?_, .inl (flush_known r), ?_, ?_⟩, ?_, ?_, ?_, ?_, ?_, ?_, ?_, ?_⟩
    · rw [e]; exact r.timely
    · rw [e]; intro d hd; cases hd
    · rw [e]; intro d hd; cases hd
    · rw [e]; simp
    · rw [e]
    · rw [e]; rfl
    · rw [e]; simp [allClefs, hcl]
    · rw [e]; simp [wholeKeys, hk]
    · rw [e]; simp [staffKeys, hk]
    · rw [e]; exact List.suffix_refl _
    · rw [e]; exact List.prefix_refl _

/-- Only the cursor changes. -/
theorem keeps_cursor (st : WSt P) (t : Int) (b : Bool) : Keeps G n s k0 [] st { st with tick := t, prevChord := b } :=
  ⟨fun r => ⟨r.timely, r.known, r.divs, r.clefs⟩, by simp, rfl, rfl, rfl, rfl, rfl, List.suffix_refl _, List.prefix_refl _⟩

theorem flush_tick (st : WSt P) : (flush st).tick = st.tick := by unfold flush; split <;> rfl
theorem flush_ready {st : WSt P} (h : Ready G n k0 st) : Ready G n k0 (flush st) := (keeps_flush (s := 0) st).ready h

/-- Writing of one element where the divisions are known; the directions of the element were the first ones to be written. -/
theorem keeps_write (st : WSt P) (e : Elem P) (t : Int) (ds : List (DirectionData P)) (hk : Ready G n k0 st → knownAfter k0 st.out = true) (hg : e.goodB G n)
    (h1 : st.dirs.map (dirRec s) = e.dirRecs ++ ds.map (dirRec s)) (h2 : e.clefElems = []) (h3 : e.keyElems = []) (h4 : e.barRecs = []) :
    Keeps G n s k0 e.noteRecs st { st with out := st.out ++ [e], tick := t, dirs := ds } := by
  refine ⟨fun r => ⟨?_, ?_, r.divs, r.clefs⟩, ?_, ?_, ?_, ?_, ?_, ?_, List.suffix_refl _, List.prefix_append _ _⟩
  · simp only
    rw [timely_append]
    exact ⟨r.timely, ⟨fun _ => hk r, hg, trivial⟩⟩
  · simp only
    rw [knownAfter_append, hk r]; exact .inl rfl
  · simp
  · simp [h4]
  · simp [allDirs, h1]
  · simp [allClefs, h2]
  · simp [wholeKeys, h3]
  · simp [staffKeys, h3]

/-- The same after a flush. -/
theorem keeps_flushed (st : WSt P) (e : Elem P) (t : Int) (ds : List (DirectionData P)) (hg : e.goodB G n)
    (h0 : e.noteRecs = []) (h1 : st.dirs.map (dirRec s) = e.dirRecs ++ ds.map (dirRec s)) (h2 : e.clefElems = []) (h3 : e.keyElems = []) (h4 : e.barRecs = []) :
    Keeps G n s k0 [] st { flush st with out := (flush st).out ++ [e], tick := t, dirs := ds } := by
  have hf := keeps_flush (G := G) (n := n) (s := s) (k0 := k0) st
  have hd : (flush st).dirs = st.dirs := by unfold flush; split <;> rfl
  refine ⟨fun r => ?_, ?_, ?_, ?_, ?_, ?_, ?_, hf.fewer, hf.grow.trans (List.prefix_append _ _)⟩
  · have r' := flush_ready r
    refine ⟨?_, ?_, r'.divs, r'.clefs⟩
    · simp only
      rw [timely_append]
      exact ⟨r'.timely, ⟨fun _ => flush_known r, hg, trivial⟩⟩
    · simp only
      rw [knownAfter_append, flush_known r]; exact .inl rfl
  · have := hf.notes; simp [this, h0]
  · have := hf.bars; simp [this, h4]
  · rw [← hf.dirs]; simp [allDirs, hd, h1]
  · rw [← hf.clefs]; simp [allClefs, h2]
  · rw [← hf.whole]; simp [wholeKeys, h3]
  · rw [← hf.keys]; simp [staffKeys, h3]

theorem flush_dirs (st : WSt P) : (flush st).dirs = st.dirs := by unfold flush; split <;> rfl

theorem keeps_forwardOrBackup (x : NoteData P) (st : WSt P) : Keeps G n s k0 [] st (writeForwardOrBackupIfNeeded x st) := by
  have hb (d t : Int) : Keeps G n s k0 [] st { flush st with out := (flush st).out ++ [.backup d], tick := t } := by
    have := keeps_flushed (G := G) (n := n) (s := s) (k0 := k0) st (.backup d) t st.dirs trivial rfl rfl rfl rfl rfl
    rwa [← flush_dirs st] at this
  have hw (d t : Int) : Keeps G n s k0 [] st { flush st with out := (flush st).out ++ [.forward d], tick := t } := by
    have := keeps_flushed (G := G) (n := n) (s := s) (k0 := k0) st (.forward d) t st.dirs trivial rfl rfl rfl rfl rfl
    rwa [← flush_dirs st] at this
  unfold writeForwardOrBackupIfNeeded
  simp only
  split
  · exact keeps_flush st
  · split
    · unfold backup
      simp only
      split <;> split
      · exact keeps_flush st
      · exact hb _ _
      · exact keeps_flush st
      · exact hb _ _
    · split
      · exact hw _ _
      · exact keeps_flush st

theorem keeps_direction (c : WCtx) (hn : c.staffIndex < n) (d : DirectionData P) (rest : List (DirectionData P)) (st : WSt P) :
    Keeps G n c.staffIndex k0 [] { st with dirs := d :: rest } { writeDirection c d st with dirs := rest } := by
  have e : ({ writeDirection c d st with dirs := rest } : WSt P) =
      { flush { st with dirs := d :: rest } with
        out := (flush { st with dirs := d :: rest }).out ++ [.direction (dirRec c.staffIndex d).1 (if d.tick ≠ st.tick then (d.tick - st.tick) * MICRO else 0) d.content]
        tick := st.tick, dirs := rest } := by
    unfold writeDirection flush dirRec
    by_cases h : st.buf.hasContents = true <;> simp [h]
  rw [e]
  apply keeps_flushed _ _ _ _ _ rfl _ rfl rfl rfl
  · intro k hk
    unfold dirRec at hk
    simp only at hk
    split at hk
    · cases hk; omega
    · cases hk
  · rfl

theorem keeps_directions (c : WCtx) (hn : c.staffIndex < n) : ∀ (ds rest : List (DirectionData P)) (st : WSt P),
    Keeps G n c.staffIndex k0 [] { st with dirs := ds ++ rest } { ds.foldl (fun s d => writeDirection c d s) st with dirs := rest }
  | [], rest, st => Keeps.refl _
  | d :: ds, rest, st => (keeps_direction c hn d (ds ++ rest) st).trans0 (keeps_directions c hn ds rest (writeDirection c d st))

theorem keeps_while (c : WCtx) (hn : c.staffIndex < n) (p : Int → Bool) (st : WSt P) : Keeps G n c.staffIndex k0 [] st (writeDirectionsWhile c p st) := by
  have h := keeps_directions (G := G) (k0 := k0) c hn (st.dirs.takeWhile (fun d => p d.tick)) (st.dirs.dropWhile (fun d => p d.tick)) st
  rw [List.takeWhile_append_dropWhile] at h
  exact h

theorem keeps_writeDirections (c : WCtx) (hn : c.staffIndex < n) (prev cur next : Option (NoteData P)) (st : WSt P) : Keeps G n c.staffIndex k0 [] st (writeDirections c prev cur next st) := by
  unfold writeDirections
  cases cur with
  | none => exact keeps_while c hn _ st
  | some x =>
    simp only
    split
    · exact keeps_while c hn _ st
    · split
      · exact Keeps.refl st
      · exact keeps_while c hn _ st

/-! ### Keys and clefs -/

theorem fold_writeClef (i : Int) (l : List (Timed P)) (a : Attributes P) : l.foldl (fun b x => writeClef i x b) a = { a with clefs := a.clefs ++ l.map (clefOut i) } := by
  induction l generalizing a with
  | nil => simp
  | cons x l ih => rw [List.foldl_cons, ih]; simp [writeClef, clefOut]

theorem fold_writeKey (i : Int) (l : List (KeyData P)) (a : Attributes P) : l.foldl (fun b x => writeKey i x b) a = { a with keys := a.keys ++ l.map (keyOut i) } := by
  induction l generalizing a with
  | nil => simp
  | cons x l ih => rw [List.foldl_cons, ih]; simp [writeKey, keyOut]

theorem keyOut_some {i : Int} (h : 0 ≤ i) (k : KeyData P) : (keyOut i k).number = some (i + 1) := by unfold keyOut; rw [if_pos h]
theorem keyOut_none (k : KeyData P) : (keyOut (-1) k).number = none := rfl

/-- Some clefs go from the list to the buffer. -/
theorem keeps_clefs (h0 : 0 ≤ s) (hn : s < n) (st : WSt P) (xs rest : List (Timed P)) (h : st.clefs = xs ++ rest) :
    Keeps G n s k0 [] st { st with buf := xs.foldl (fun b x => writeClef s x b) st.buf, clefs := rest } := by
  refine ⟨fun r => ⟨r.timely, ?_, ?_, ?_⟩, by simp, rfl, rfl, ?_, ?_, ?_, List.suffix_refl _, List.prefix_refl _⟩
  · rw [fold_writeClef]; exact r.known
  · rw [fold_writeClef]; exact r.divs
  · rw [fold_writeClef]
    intro c hc
    rcases List.mem_append.mp hc with hc | hc
    · exact r.clefs c hc
    · obtain ⟨x, _, rfl⟩ := List.mem_map.mp hc
      unfold clefStaff clefOut
      rw [if_pos h0]
      simp only; omega
  · simp [allClefs, fold_writeClef, h]
  · simp [wholeKeys, fold_writeClef]
  · simp [staffKeys, fold_writeClef]

/-- Some keys of the staff go from the list to the buffer. -/
theorem keeps_keys (h0 : 0 ≤ s) (st : WSt P) (xs rest : List (KeyData P)) (h : st.keys = xs ++ rest) :
    Keeps G n s k0 [] st { st with buf := xs.foldl (fun b x => writeKey s x b) st.buf, keys := rest } := by
  refine ⟨fun r => ⟨r.timely, ?_, ?_, ?_⟩, by simp, rfl, rfl, ?_, ?_, ?_, List.suffix_refl _, List.prefix_refl _⟩
  · rw [fold_writeKey]; exact r.known
  · rw [fold_writeKey]; exact r.divs
  · rw [fold_writeKey]; exact r.clefs
  · simp [allClefs, fold_writeKey]
  · have hf : (xs.map (keyOut s)).filter (fun k => k.number.isNone) = [] := by
      rw [List.filter_eq_nil_iff]
      intro k hk
      obtain ⟨x, _, rfl⟩ := List.mem_map.mp hk
      rw [keyOut_some h0]; simp
    simp only [wholeKeys, fold_writeKey, List.filter_append, hf, List.append_nil]
  · have hf : (xs.map (keyOut s)).filter (fun k => k.number.isSome) = xs.map (keyOut s) := by
      rw [List.filter_eq_self]
      intro k hk
      obtain ⟨x, _, rfl⟩ := List.mem_map.mp hk
      rw [keyOut_some h0]; rfl
    simp only [staffKeys, fold_writeKey, List.filter_append, hf, h, List.map_append, List.append_assoc]

/-- One key of the measure goes from the list to the buffer. -/
theorem keeps_mkey (st : WSt P) (k : KeyData P) (ks : List (KeyData P)) (h : st.mkeys = k :: ks) :
    Keeps G n s k0 [] st { st with buf := writeKey (-1) k st.buf, mkeys := ks } := by
  refine ⟨fun r => ⟨r.timely, r.known, r.divs, r.clefs⟩, by simp, rfl, rfl, rfl, ?_, ?_, ?_, List.prefix_refl _⟩
  · simp [wholeKeys, writeKey, h, keyOut]
  · simp [staffKeys, writeKey]
  · rw [h]; exact List.suffix_cons _ _

theorem keeps_keysAndClefs (c : WCtx) (h0 : 0 ≤ c.staffIndex) (hn : c.staffIndex < n) (st : WSt P) : Keeps G n c.staffIndex k0 [] st (writeKeysAndClefs c st) := by
  unfold writeKeysAndClefs
  have h1 : Keeps G n c.staffIndex k0 [] st (writeMeasureKey st) := by
    unfold writeMeasureKey
    split
    · rename_i k ks h
      split
      · exact keeps_mkey st k ks h
      · exact Keeps.refl st
    · exact Keeps.refl st
  have h2 (st : WSt P) : Keeps G n c.staffIndex k0 [] st (writeDueClefs c st) :=
    keeps_clefs h0 hn st _ _ (List.takeWhile_append_dropWhile (p := fun x : Timed P => decide (x.tick ≤ st.tick)) (l := st.clefs)).symm
  have h3 (st : WSt P) : Keeps G n c.staffIndex k0 [] st (writeDueKeys c st) :=
    keeps_keys h0 st _ _ (List.takeWhile_append_dropWhile (p := fun x : KeyData P => decide (x.tick ≤ st.tick)) (l := st.keys)).symm
  exact h1.trans0 ((h2 _).trans0 ((h3 _).trans0 (keeps_flush _)))

/-! ### Notes -/

/-- The note as it is written. -/
def noteWritten (numStaves i v : Int) (x : NoteData P) : Option Int × Option Int × NoteKind × Int × P :=
  (if numStaves > 1 ∧ i ≥ 0 then some (i + 1) else none, if v ≥ 0 then some (v + 1) else none, x.kind, if x.kind = .grace then 0 else durMicro x.ticks, x.content)

/-- The divisions are known once a note is due: the directions before it only add to the output. -/
theorem while_grows (c : WCtx) (p : Int → Bool) (st : WSt P) : ∃ xs, (writeDirectionsWhile c p st).out = st.out ++ xs := by
  unfold writeDirectionsWhile
  simp only
  generalize st.dirs.takeWhile (fun d => p d.tick) = ds
  generalize st.dirs.dropWhile (fun d => p d.tick) = rest
  clear rest
  induction ds generalizing st with
  | nil => exact ⟨[], by simp⟩
  | cons d ds ih =>
    obtain ⟨xs, h⟩ := ih (writeDirection c d st)
    rw [List.foldl_cons, h]
    unfold writeDirection flush
    by_cases hc : st.buf.hasContents = true
    · simp only [if_pos hc]; exact ⟨_, by rw [List.append_assoc, List.append_assoc]⟩
    · simp only [if_neg hc]; exact ⟨_, by rw [List.append_assoc]⟩

theorem directions_grow (c : WCtx) (prev cur next : Option (NoteData P)) (st : WSt P) : ∃ xs, (writeDirections c prev cur next st).out = st.out ++ xs := by
  unfold writeDirections
  cases cur with
  | none => exact while_grows c _ st
  | some x =>
    simp only
    split
    · exact while_grows c _ st
    · split
      · exact ⟨[], by simp⟩
      · exact while_grows c _ st

theorem keeps_note (c : WCtx) (h0 : 0 ≤ c.staffIndex) (hn : c.staffIndex < n) (hnum : c.numStaves = n) (isFirst : Bool) (pct : Int) (prev : Option (NoteData P)) (x : NoteData P) (next : Option (NoteData P)) (st : WSt P) :
    Keeps G n c.staffIndex k0 [noteWritten c.numStaves c.staffIndex c.voiceIndex x] st
      { advanceCursorIfNeeded x next (addNote c isFirst x (writeDirections c prev (some x) next (writeKeysAndClefs c (writeForwardOrBackupIfNeeded x st)))) with prevChord := x.isChord } := by
  have h1 := keeps_forwardOrBackup (G := G) (n := n) (s := c.staffIndex) (k0 := k0) x st
  have h2 := keeps_keysAndClefs (G := G) (k0 := k0) c h0 hn (writeForwardOrBackupIfNeeded x st)
  have h3 := keeps_writeDirections (G := G) (k0 := k0) c hn prev (some x) next (writeKeysAndClefs c (writeForwardOrBackupIfNeeded x st))
  have h123 := h1.trans0 (h2.trans0 h3)
  obtain ⟨xs, hgrow⟩ := directions_grow c prev (some x) next (writeKeysAndClefs c (writeForwardOrBackupIfNeeded x st))
  have hknown : Ready G n k0 st → knownAfter k0 (writeDirections c prev (some x) next (writeKeysAndClefs c (writeForwardOrBackupIfNeeded x st))).out = true := by
    intro r
    rw [hgrow, knownAfter_append]
    have : knownAfter k0 (writeKeysAndClefs c (writeForwardOrBackupIfNeeded x st)).out = true := by
      unfold writeKeysAndClefs
      apply flush_known (G := G) (n := n)
      have r1 := h1.ready r
      have e1 : Ready G n k0 (writeMeasureKey (writeForwardOrBackupIfNeeded x st)) := by
        unfold writeMeasureKey
        split
        · rename_i k ks h
          split
          · exact (keeps_mkey (s := 0) _ k ks h).ready r1
          · exact r1
        · exact r1
      have e2 : Ready G n k0 (writeDueClefs c (writeMeasureKey (writeForwardOrBackupIfNeeded x st))) :=
        (keeps_clefs h0 hn _ _ _ (List.takeWhile_append_dropWhile (p := fun x : Timed P => decide (x.tick ≤ _)) (l := _)).symm).ready e1
      exact (keeps_keys h0 _ _ _ (List.takeWhile_append_dropWhile (p := fun x : KeyData P => decide (x.tick ≤ _)) (l := _)).symm).ready e2
    rw [this]; rfl
  generalize hst : writeDirections c prev (some x) next (writeKeysAndClefs c (writeForwardOrBackupIfNeeded x st)) = st3 at h123 hknown
  have hadd : Keeps G n c.staffIndex k0 [noteWritten c.numStaves c.staffIndex c.voiceIndex x] st (addNote c isFirst x st3) := by
    refine ⟨fun r => ⟨?_, ?_, (h123.ready r).divs, (h123.ready r).clefs⟩, ?_, ?_, ?_, ?_, ?_, ?_, h123.fewer, h123.grow.trans (List.prefix_append _ _)⟩
    · unfold addNote
      simp only
      rw [timely_append]
      refine ⟨(h123.ready r).timely, ⟨fun _ => hknown r, ?_, trivial⟩⟩
      show noteStaffIndex _ < n
      unfold noteStaffIndex noteElem
      simp only
      by_cases hc : c.numStaves > 1 ∧ c.staffIndex ≥ 0
      · rw [if_pos hc, Option.getD_some]; split <;> omega
      · rw [if_neg hc, Option.getD_none]; split <;> omega
    · unfold addNote
      simp only
      rw [knownAfter_append, hknown r]; exact .inl rfl
    · have := h123.notes
      simp [addNote, this, Elem.noteRecs, noteRec, noteElem, noteWritten]
    · have := h123.bars
      simp [addNote, this, Elem.barRecs]
    · rw [← h123.dirs]; simp [addNote, allDirs, Elem.dirRecs]
    · rw [← h123.clefs]; simp [addNote, allClefs, Elem.clefElems]
    · rw [← h123.whole]; simp [addNote, wholeKeys, Elem.keyElems]
    · rw [← h123.keys]; simp [addNote, staffKeys, Elem.keyElems]
  apply hadd.trans1
  unfold advanceCursorIfNeeded
  split
  · exact keeps_cursor _ _ _
  · exact keeps_cursor _ _ _

theorem keeps_notes (c : WCtx) (h0 : 0 ≤ c.staffIndex) (hn : c.staffIndex < n) (hnum : c.numStaves = n) : ∀ (ns : List (NoteData P)) (isFirst : Bool) (pct : Int) (prev : Option (NoteData P)) (st : WSt P),
    Keeps G n c.staffIndex k0 (ns.map (noteWritten c.numStaves c.staffIndex c.voiceIndex)) st (writeNotes c isFirst pct prev ns st)
  | [], isFirst, pct, prev, st => Keeps.refl st
  | x :: ns, isFirst, pct, prev, st =>
    (keeps_note c h0 hn hnum _ pct prev x ns.head? st).trans (keeps_notes c h0 hn hnum ns false _ (some x) _)

theorem keeps_voice (i : Int) (h0 : 0 ≤ i) (hn : i < n) (v : Int × List (NoteData P)) (st : WSt P) :
    Keeps G n i k0 (v.2.map (noteWritten n i v.1)) st (writeVoice n i v st) := by
  unfold writeVoice
  simp only
  have h1 := keeps_writeDirections (G := G) (k0 := k0) (n := n) { numStaves := n, staffIndex := i, voiceIndex := v.1 } hn none v.2.head? v.2.tail.head? st
  exact h1.trans0 ((keeps_notes (G := G) (k0 := k0) (n := n) { numStaves := n, staffIndex := i, voiceIndex := v.1 } h0 hn rfl v.2 true (-2) none _).trans1 (keeps_writeDirections _ hn _ _ _ _))

theorem keeps_voices (i : Int) (h0 : 0 ≤ i) (hn : i < n) : ∀ (vs : List (Int × List (NoteData P))) (st : WSt P),
    Keeps G n i k0 (vs.flatMap fun v => v.2.map (noteWritten n i v.1)) st (vs.foldl (fun s v => writeVoice n i v s) st)
  | [], st => Keeps.refl st
  | v :: vs, st => (keeps_voice i h0 hn v st).trans (keeps_voices i h0 hn vs _)

theorem keeps_remaining (i : Int) (h0 : 0 ≤ i) (hn : i < n) (st : WSt P) : Keeps G n i k0 [] st (writeRemaining i st) ∧ (writeRemaining i st).clefs = [] ∧ (writeRemaining i st).keys = [] ∧
    (writeRemaining i st).dirs = st.dirs ∧ (∀ k ks, st.mkeys = k :: ks → k.tick ≠ 0 → (writeRemaining i st).mkeys = ks) := by
  unfold writeRemaining
  have fc (st : WSt P) : (flush st).clefs = st.clefs := by unfold flush; split <;> rfl
  have fk (st : WSt P) : (flush st).keys = st.keys := by unfold flush; split <;> rfl
  have fm (st : WSt P) : (flush st).mkeys = st.mkeys := by unfold flush; split <;> rfl
  by_cases h : (!st.clefs.isEmpty || !st.mkeys.isEmpty || !st.keys.isEmpty) = true
  · rw [if_pos h]
    simp only
    have h1 : Keeps G n i k0 [] st { st with buf := st.clefs.foldl (fun b x => writeClef i x b) st.buf, clefs := [] } := keeps_clefs h0 hn st st.clefs [] (by simp)
    generalize ha : ({ st with buf := st.clefs.foldl (fun b x => writeClef i x b) st.buf, clefs := [] } : WSt P) = a at h1 ⊢
    have a1 : a.clefs = [] := by rw [← ha]
    have a2 : a.dirs = st.dirs := by rw [← ha]
    have a3 : a.mkeys = st.mkeys := by rw [← ha]
    have h2 : Keeps G n i k0 [] a (writeRemainingMeasureKey a) ∧ (writeRemainingMeasureKey a).clefs = [] ∧ (writeRemainingMeasureKey a).dirs = st.dirs ∧
        (∀ k ks, st.mkeys = k :: ks → k.tick ≠ 0 → (writeRemainingMeasureKey a).mkeys = ks) := by
      unfold writeRemainingMeasureKey
      split
      · rename_i k ks hk
        split
        · refine ⟨keeps_mkey a k ks hk, a1, a2, ?_⟩
          intro k' ks' e _
          rw [← a3, hk] at e; cases e; rfl
        · rename_i ht
          refine ⟨Keeps.refl a, a1, a2, ?_⟩
          intro k' ks' e hne
          rw [← a3, hk] at e; cases e; exact absurd hne ht
      · rename_i hk
        refine ⟨Keeps.refl a, a1, a2, ?_⟩
        intro k' ks' e _
        rw [← a3, hk] at e; cases e
    obtain ⟨h2, b1, b2, b3⟩ := h2
    generalize writeRemainingMeasureKey a = b at h2 b1 b2 b3 ⊢
    have h3 : Keeps G n i k0 [] b { b with buf := b.keys.foldl (fun b x => writeKey i x b) b.buf, keys := [] } := keeps_keys h0 b b.keys [] (by simp)
    refine ⟨h1.trans0 (h2.trans0 (h3.trans0 (keeps_flush _))), ?_, ?_, ?_, ?_⟩
    · rw [fc]; exact b1
    · rw [fk]
    · rw [flush_dirs]; exact b2
    · intro k ks e hk
      rw [fm]; exact b3 k ks e hk
  · rw [if_neg h]
    simp only [Bool.or_eq_true, Bool.not_eq_true', not_or, Bool.not_eq_false, List.isEmpty_iff] at h
    refine ⟨Keeps.refl st, h.1.1, h.2, rfl, ?_⟩
    intro k ks e
    rw [h.1.2] at e; cases e

/-! ### Staves -/

theorem dropWhile_true {α : Type} (l : List α) : l.dropWhile (fun _ => true) = [] := by
  induction l with
  | nil => rfl
  | cons a l ih => exact ih

theorem keeps_staff (i : Int) (h0 : 0 ≤ i) (hn : i < n) (s : StaffData P) (st : WSt P) :
    let st0 := { st with clefs := s.clefs.dropWhile (fun x => x.tick = 0), keys := s.keys, dirs := s.directions }
    Keeps G n i k0 (s.voices.flatMap fun v => v.2.map (noteWritten n i v.1)) st0 (writeVoices n i s st) ∧
    (writeVoices n i s st).clefs = [] ∧ (writeVoices n i s st).keys = [] ∧ (writeVoices n i s st).dirs = [] ∧
    (st.mkeys.length ≤ 1 → (∀ k ∈ st.mkeys, k.tick ≠ 0) → (writeVoices n i s st).mkeys = []) := by
  intro st0
  unfold writeVoices
  simp only
  have h1 := keeps_voices (G := G) (k0 := k0) i h0 hn s.voices st0
  have h2 := keeps_writeDirections (G := G) (k0 := k0) (n := n) { numStaves := n, staffIndex := i, voiceIndex := 0 } hn none none none (s.voices.foldl (fun s v => writeVoice n i v s) st0)
  have hd : (writeDirections { numStaves := n, staffIndex := i, voiceIndex := 0 } none none none (s.voices.foldl (fun s v => writeVoice n i v s) st0)).dirs = [] := by
    exact dropWhile_true _
  have h12 := h1.trans1 h2
  generalize writeDirections { numStaves := n, staffIndex := i, voiceIndex := 0 } none none none (s.voices.foldl (fun s v => writeVoice n i v s) st0) = a at h12 hd ⊢
  obtain ⟨h3, r1, r2, r3, r4⟩ := keeps_remaining (G := G) (k0 := k0) i h0 hn a
  refine ⟨h12.trans1 h3, r1, r2, r3.trans hd, ?_⟩
  intro hl hk
  have hs : a.mkeys <:+ st.mkeys := h12.fewer
  cases ha : a.mkeys with
  | nil =>
    have := h3.fewer
    rw [ha] at this
    exact List.suffix_nil.mp this
  | cons k ks =>
    have hlen := hs.length_le
    rw [ha] at hlen
    simp only [List.length_cons] at hlen
    have hks : ks = [] := List.eq_nil_of_length_eq_zero (by omega)
    have hmem : k ∈ st.mkeys := hs.subset (by rw [ha]; exact .head _)
    rw [r4 k ks ha (hk k hmem), hks]

/-- What all staves contribute. -/
def stavesNotes (n : Int) : Int → List (StaffData P) → List (Option Int × Option Int × NoteKind × Int × P)
  | _, [] => []
  | i, s :: rest => (s.voices.flatMap fun v => v.2.map (noteWritten n i v.1)) ++ stavesNotes n (i + 1) rest

def stavesDirs : Int → List (StaffData P) → List (Option Int × P)
  | _, [] => []
  | i, s :: rest => s.directions.map (dirRec i) ++ stavesDirs (i + 1) rest

def stavesClefs : Int → List (StaffData P) → List (ClefElem P)
  | _, [] => []
  | i, s :: rest => (s.clefs.dropWhile (fun x => x.tick = 0)).map (clefOut i) ++ stavesClefs (i + 1) rest

def stavesKeys : Int → List (StaffData P) → List (KeyElem P)
  | _, [] => []
  | i, s :: rest => s.keys.map (keyOut i) ++ stavesKeys (i + 1) rest

theorem keeps_staves : ∀ (ss : List (StaffData P)) (i : Int) (st : WSt P), 0 ≤ i → i + ss.length ≤ n → st.clefs = [] → st.keys = [] → st.dirs = [] →
    let st' := writeStavesFrom n i ss st
    (Ready G n k0 st → Ready G n k0 st') ∧ st'.out.flatMap Elem.noteRecs = st.out.flatMap Elem.noteRecs ++ stavesNotes n i ss ∧
    st'.out.flatMap Elem.barRecs = st.out.flatMap Elem.barRecs ∧
    st'.out.flatMap Elem.dirRecs = st.out.flatMap Elem.dirRecs ++ stavesDirs i ss ∧
    st'.out.flatMap Elem.clefElems ++ st'.buf.clefs = st.out.flatMap Elem.clefElems ++ st.buf.clefs ++ stavesClefs i ss ∧
    wholeKeys st' = wholeKeys st ∧
    (st'.out.flatMap Elem.keyElems ++ st'.buf.keys).filter (fun k => k.number.isSome) = (st.out.flatMap Elem.keyElems ++ st.buf.keys).filter (fun k => k.number.isSome) ++ stavesKeys i ss ∧
    st'.mkeys <:+ st.mkeys ∧ (ss ≠ [] → st.mkeys.length ≤ 1 → (∀ k ∈ st.mkeys, k.tick ≠ 0) → st'.mkeys = []) ∧ st.out <+: st'.out
  | [], i, st, _, _, _, _, _ => by
    intro st'
    exact ⟨id, by simp [st', writeStavesFrom, stavesNotes], rfl, by simp [st', writeStavesFrom, stavesDirs], by simp [st', writeStavesFrom, stavesClefs], rfl, by simp [st', writeStavesFrom, stavesKeys],
      List.suffix_refl _, fun h => absurd rfl h, List.prefix_refl _⟩
  | s :: ss, i, st, h0, hl, hc, hk, hd => by
    intro st'
    rw [List.length_cons] at hl
    have hn : i < n := by push_cast at hl; omega
    obtain ⟨g, g1, g2, g3, g4⟩ := keeps_staff (G := G) (k0 := k0) i h0 hn s st
    have ih := keeps_staves ss (i + 1) (writeVoices n i s st) (by omega) (by push_cast at hl; omega) g1 g2 g3
    have e : writeStavesFrom n (i + 1) ss (writeVoices n i s st) = st' := rfl
    rw [e] at ih
    obtain ⟨i1, i2, i3, i4, i5, i6, i7, i8, i9, i10⟩ := ih
    have gd := g.dirs
    have gc := g.clefs
    have gw := g.whole
    have gk := g.keys
    unfold allDirs at gd
    unfold allClefs at gc
    unfold staffKeys at gk
    rw [g3] at gd
    rw [g1] at gc
    rw [g2] at gk
    simp only [List.map_nil, List.append_nil] at gd gc gk
    refine ⟨fun r => i1 (g.ready ⟨r.timely, r.known, r.divs, r.clefs⟩), ?_, ?_, ?_, ?_, ?_, ?_, ?_, ?_, List.IsPrefix.trans g.grow i10⟩
    · rw [i2, g.notes, stavesNotes, List.append_assoc]
    · rw [i3, g.bars]
    · rw [i4, gd, stavesDirs, List.append_assoc]
    · rw [i5, gc, stavesClefs]; simp only [List.append_assoc]
    · rw [i6, gw]; rfl
    · rw [i7, gk, stavesKeys]; simp only [List.append_assoc]
    · exact i8.trans g.fewer
    · intro _ hm hz
      have := g4 hm hz
      have h8 := i8
      rw [this] at h8
      exact List.suffix_nil.mp h8

/-! ### The whole measure -/

def earlyClefsOut (numStaves : Int) : Int → List (StaffData P) → List (ClefElem P)
  | _, [] => []
  | i, s :: rest => (s.clefs.takeWhile (fun x => x.tick = 0)).map (clefOut (if numStaves > 1 then i else -1)) ++ earlyClefsOut numStaves (i + 1) rest

theorem globalClefs_eq (numStaves : Int) : ∀ (ss : List (StaffData P)) (i : Int) (a : Attributes P), globalClefs numStaves i ss a = { a with clefs := a.clefs ++ earlyClefsOut numStaves i ss }
  | [], i, a => by simp [globalClefs, earlyClefsOut]
  | s :: ss, i, a => by
    rw [globalClefs, fold_writeClef, globalClefs_eq numStaves ss, earlyClefsOut]
    simp

theorem fold_ownKey (l : List (KeyData P)) (a : Attributes P) : l.foldl (fun b k => writeKey k.staffIndex k b) a = { a with keys := a.keys ++ l.map fun k => keyOut k.staffIndex k } := by
  induction l generalizing a with
  | nil => simp
  | cons x l ih => rw [List.foldl_cons, ih]; simp [writeKey, keyOut]

theorem globals_eq (env : WEnv) (m : MeasureData P) : globals env m =
    { divisions := if env.isFirstMeasureInPart then some (durMicro env.ticksPerQuarter) else none
      staves := if env.isFirstMeasureInPart ∧ m.staves.length > 1 then some m.staves.length else none
      hasTime := env.writesTime, hasTranspose := env.writesTranspose
      clefs := earlyClefsOut env.numStaves 0 m.staves, keys := (m.keys.takeWhile (fun k => k.tick = 0)).map fun k => keyOut k.staffIndex k } := by
  unfold globals
  simp only
  rw [globalClefs_eq, fold_ownKey]
  simp

theorem early_clefStaff {numStaves : Int} : ∀ (ss : List (StaffData P)) (i : Int), 0 ≤ i → i + ss.length ≤ numStaves → (numStaves ≤ 1 → 1 ≤ numStaves) → ∀ c ∈ earlyClefsOut numStaves i ss, clefStaff c < numStaves
  | [], i, _, _, _, c, hc => nomatch hc
  | s :: ss, i, h0, hl, h1, c, hc => by
    rw [List.length_cons] at hl
    push_cast at hl
    rw [earlyClefsOut] at hc
    rcases List.mem_append.mp hc with hc | hc
    · obtain ⟨x, _, rfl⟩ := List.mem_map.mp hc
      unfold clefStaff clefOut
      by_cases h : numStaves > 1
      · rw [if_pos h, if_pos h0]; simp only; omega
      · rw [if_neg h, if_neg (by decide)]; simp only; omega
    · exact early_clefStaff ss (i + 1) (by omega) (by omega) h1 c hc

theorem timely_quiet {G n : Int} {k : Bool} : ∀ {es : List (Elem P)}, (∀ e ∈ es, e.isQuiet = true ∧ e.goodB G n ∧ e.setsDivisions = false) → Timely G n k es
  | [], _ => trivial
  | e :: es, h => by
    obtain ⟨a, b, c⟩ := h e (by simp)
    refine ⟨fun hq => (by rw [a] at hq; cases hq), b, ?_⟩
    exact timely_quiet fun x hx => h x (by simp [hx])

theorem bars_out (bs : List (BarlineData P)) : (bs.map barlineElem).flatMap Elem.barRecs = bs.map (·.content) ∧ (bs.map barlineElem).flatMap Elem.noteRecs = [] ∧
    (bs.map barlineElem).flatMap Elem.dirRecs = [] ∧ (bs.map barlineElem).flatMap Elem.clefElems = [] ∧ (bs.map barlineElem).flatMap Elem.keyElems = [] := by
  induction bs with
  | nil => exact ⟨rfl, rfl, rfl, rfl, rfl⟩
  | cons b bs ih =>
    obtain ⟨h1, h2, h3, h4, h5⟩ := ih
    simp only [List.map_cons, List.flatMap_cons, h1, h2, h3, h4, h5]
    exact ⟨rfl, rfl, rfl, rfl, rfl⟩

theorem others_out (k : Nat) : (List.replicate k (Elem.other : Elem P)).flatMap Elem.barRecs = [] ∧ (List.replicate k (Elem.other : Elem P)).flatMap Elem.noteRecs = [] ∧
    (List.replicate k (Elem.other : Elem P)).flatMap Elem.dirRecs = [] ∧ (List.replicate k (Elem.other : Elem P)).flatMap Elem.clefElems = [] ∧ (List.replicate k (Elem.other : Elem P)).flatMap Elem.keyElems = [] := by
  induction k with
  | zero => exact ⟨rfl, rfl, rfl, rfl, rfl⟩
  | succ k ih =>
    obtain ⟨h1, h2, h3, h4, h5⟩ := ih
    simp only [List.replicate_succ, List.flatMap_cons, h1, h2, h3, h4, h5]
    exact ⟨rfl, rfl, rfl, rfl, rfl⟩

theorem measure_complete (env : WEnv) (m : MeasureData P) (h1 : 1 ≤ env.numStaves) (hs : (m.staves.length : Int) ≤ env.numStaves) :
    let es := writeMeasure env m
    Timely env.ticksPerQuarter env.numStaves (!env.isFirstMeasureInPart) es ∧
    es.flatMap Elem.noteRecs = stavesNotes env.numStaves 0 m.staves ∧
    es.flatMap Elem.barRecs = (m.barlines.takeWhile (fun b => b.tick ≤ 0) ++ (m.barlines.dropWhile (fun b => b.tick ≤ 0)).takeWhile (fun b => b.tick ≤ TICK_TIME_INFINITY)).map (·.content) ∧
    es.flatMap Elem.dirRecs = stavesDirs 0 m.staves ∧
    es.flatMap Elem.clefElems = earlyClefsOut env.numStaves 0 m.staves ++ stavesClefs 0 m.staves ∧
    (es.flatMap Elem.keyElems).filter (fun k => k.number.isSome) = ((m.keys.takeWhile (fun k => k.tick = 0)).map fun k => keyOut k.staffIndex k).filter (fun k => k.number.isSome) ++ stavesKeys 0 m.staves ∧
    ∃ lost, (es.flatMap Elem.keyElems).filter (fun k => k.number.isNone) ++ lost = ((m.keys.takeWhile (fun k => k.tick = 0)).map fun k => keyOut k.staffIndex k).filter (fun k => k.number.isNone) ++ (m.keys.dropWhile (fun k => k.tick = 0)).map (keyOut (-1)) ∧
      (m.staves ≠ [] → (m.keys.dropWhile (fun k => k.tick = 0)).length ≤ 1 → lost = []) := by
  intro es
  let early := m.barlines.takeWhile (fun b => b.tick ≤ 0)
  let late := (m.barlines.dropWhile (fun b => b.tick ≤ 0)).takeWhile (fun b => b.tick ≤ TICK_TIME_INFINITY)
  let st0 : WSt P := { tick := 0, prevChord := false, dirs := [], clefs := [], keys := [], mkeys := m.keys.dropWhile (fun k => k.tick = 0), buf := globals env m, out := early.map barlineElem ++ List.replicate env.printElements .other }
  have hes : es = (flush (writeStavesFrom env.numStaves 0 m.staves st0)).out ++ late.map barlineElem := rfl
  obtain ⟨b1, b2, b3, b4, b5⟩ := bars_out early
  obtain ⟨c1, c2, c3, c4, c5⟩ := bars_out late
  obtain ⟨o1, o2, o3, o4, o5⟩ := others_out (P := P) env.printElements
  have hr0 : Ready env.ticksPerQuarter env.numStaves (!env.isFirstMeasureInPart) st0 := by
    refine ⟨?_, ?_, ?_, ?_⟩
    · apply timely_quiet
      intro e he
      rcases List.mem_append.mp he with he | he
      · obtain ⟨b, _, rfl⟩ := List.mem_map.mp he
        exact ⟨rfl, trivial, rfl⟩
      · cases List.eq_of_mem_replicate he
        exact ⟨rfl, trivial, rfl⟩
    · show _ ∨ (globals env m).divisions.isSome = true
      rw [globals_eq]
      cases h : env.isFirstMeasureInPart
      · left; simp [knownAfter]
      · right; rfl
    · show ∀ d, (globals env m).divisions = some d → _
      rw [globals_eq]
      intro d hd
      simp only at hd
      split at hd
      · cases hd; rfl
      · cases hd
    · show ∀ c ∈ (globals env m).clefs, _
      rw [globals_eq]
      exact early_clefStaff m.staves 0 (by omega) (by omega) (fun _ => h1)
  obtain ⟨i1, i2, i3, i4, i5, i6, i7, i8, i9, _⟩ := keeps_staves (G := env.ticksPerQuarter) (k0 := !env.isFirstMeasureInPart) (n := env.numStaves) m.staves 0 st0 (by omega) (by omega) rfl rfl rfl
  have hf := keeps_flush (G := env.ticksPerQuarter) (n := env.numStaves) (s := 0) (k0 := !env.isFirstMeasureInPart) (writeStavesFrom env.numStaves 0 m.staves st0)
  have hready := hf.ready (i1 hr0)
  have hkn := flush_known (i1 hr0)
  have hb : (flush (writeStavesFrom env.numStaves 0 m.staves st0)).buf = {} := by unfold flush; split <;> rfl
  have hm : (flush (writeStavesFrom env.numStaves 0 m.staves st0)).mkeys = (writeStavesFrom env.numStaves 0 m.staves st0).mkeys := by unfold flush; split <;> rfl
  have hcl : (flush (writeStavesFrom env.numStaves 0 m.staves st0)).out.flatMap Elem.clefElems = (writeStavesFrom env.numStaves 0 m.staves st0).out.flatMap Elem.clefElems ++ (writeStavesFrom env.numStaves 0 m.staves st0).buf.clefs := by
    unfold flush; split
    · simp [Elem.clefElems]
    · rename_i hc
      have : (writeStavesFrom env.numStaves 0 m.staves st0).buf.clefs = [] := by
        unfold Attributes.hasContents at hc
        cases h : (writeStavesFrom env.numStaves 0 m.staves st0).buf.clefs with
        | nil => rfl
        | cons a l => rw [h] at hc; simp at hc
      simp [this]
  have hkl : (flush (writeStavesFrom env.numStaves 0 m.staves st0)).out.flatMap Elem.keyElems = (writeStavesFrom env.numStaves 0 m.staves st0).out.flatMap Elem.keyElems ++ (writeStavesFrom env.numStaves 0 m.staves st0).buf.keys := by
    unfold flush; split
    · simp [Elem.keyElems]
    · rename_i hc
      have : (writeStavesFrom env.numStaves 0 m.staves st0).buf.keys = [] := by
        unfold Attributes.hasContents at hc
        cases h : (writeStavesFrom env.numStaves 0 m.staves st0).buf.keys with
        | nil => rfl
        | cons a l => rw [h] at hc; simp at hc
      simp [this]
  have hdl : (flush (writeStavesFrom env.numStaves 0 m.staves st0)).out.flatMap Elem.dirRecs = (writeStavesFrom env.numStaves 0 m.staves st0).out.flatMap Elem.dirRecs := by
    unfold flush; split
    · simp [Elem.dirRecs]
    · rfl
  have x1 : st0.out.flatMap Elem.noteRecs = [] := by simp only [st0, List.flatMap_append, b2, o2, List.append_nil]
  have x2 : st0.out.flatMap Elem.barRecs = early.map (·.content) := by simp only [st0, List.flatMap_append, b1, o1, List.append_nil]
  have x3 : st0.out.flatMap Elem.dirRecs = [] := by simp only [st0, List.flatMap_append, b3, o3, List.append_nil]
  have x4 : st0.out.flatMap Elem.clefElems = [] := by simp only [st0, List.flatMap_append, b4, o4, List.append_nil]
  have x5 : st0.out.flatMap Elem.keyElems = [] := by simp only [st0, List.flatMap_append, b5, o5, List.append_nil]
  have y1 : st0.buf.clefs = earlyClefsOut env.numStaves 0 m.staves := by show (globals env m).clefs = _; rw [globals_eq]
  have y2 : st0.buf.keys = (m.keys.takeWhile (fun k => k.tick = 0)).map fun k => keyOut k.staffIndex k := by show (globals env m).keys = _; rw [globals_eq]
  refine ⟨?_, ?_, ?_, ?_, ?_, ?_, (writeStavesFrom env.numStaves 0 m.staves st0).mkeys.map (keyOut (-1)), ?_, ?_⟩
  · rw [hes, timely_append]
    refine ⟨hready.timely, timely_quiet ?_⟩
    intro e he
    obtain ⟨b, _, rfl⟩ := List.mem_map.mp he
    exact ⟨rfl, trivial, rfl⟩
  · rw [hes, List.flatMap_append, c2, hf.notes, i2, x1]; simp
  · rw [hes, List.flatMap_append, c1, hf.bars, i3, x2, List.map_append]
  · rw [hes, List.flatMap_append, c3, hdl, i4, x3]; simp
  · rw [hes, List.flatMap_append, c4, hcl, i5, x4, y1]; simp
  · rw [hes, List.flatMap_append, c5, hkl, List.append_nil, i7, x5, y2]; simp
  · have := i6
    unfold wholeKeys at this
    rw [x5, y2] at this
    rw [hes, List.flatMap_append, c5, hkl, List.append_nil, this]
    simp [st0]
  · intro hne hl
    rw [i9 hne hl ?_]; rfl
    intro k hk
    have hd : ∀ (l : List (KeyData P)), l.dropWhile (fun k => decide (k.tick = 0)) ≠ [] → ∃ a r, l.dropWhile (fun k => decide (k.tick = 0)) = a :: r ∧ a.tick ≠ 0 := by
      intro l
      induction l with
      | nil => intro h; exact absurd rfl h
      | cons b l ih =>
        intro h
        by_cases hb : b.tick = 0
        · rw [List.dropWhile_cons_of_pos (by simpa using hb)] at h ⊢; exact ih h
        · rw [List.dropWhile_cons_of_neg (by simpa using hb)]; exact ⟨b, l, rfl, hb⟩
    have hk' : k ∈ m.keys.dropWhile (fun k => decide (k.tick = 0)) := hk
    obtain ⟨a, r, e, ha⟩ := hd m.keys (List.ne_nil_of_mem hk')
    rw [e] at hk' hl
    have hr : r = [] := List.eq_nil_of_length_eq_zero (by simp only [List.length_cons] at hl; omega)
    rw [hr] at hk'
    rw [List.mem_singleton.mp hk']; exact ha

/-- The barlines come first and last. -/
theorem measure_bars (env : WEnv) (m : MeasureData P) (h1 : 1 ≤ env.numStaves) (hs : (m.staves.length : Int) ≤ env.numStaves) :
    ∃ mid, writeMeasure env m = (m.barlines.takeWhile (fun b => b.tick ≤ 0)).map barlineElem ++ (mid ++ ((m.barlines.dropWhile (fun b => b.tick ≤ 0)).takeWhile (fun b => b.tick ≤ TICK_TIME_INFINITY)).map barlineElem) ∧ mid.flatMap Elem.barRecs = [] := by
  let early := m.barlines.takeWhile (fun b => b.tick ≤ 0)
  let late := (m.barlines.dropWhile (fun b => b.tick ≤ 0)).takeWhile (fun b => b.tick ≤ TICK_TIME_INFINITY)
  let st0 : WSt P := { tick := 0, prevChord := false, dirs := [], clefs := [], keys := [], mkeys := m.keys.dropWhile (fun k => k.tick = 0), buf := globals env m, out := early.map barlineElem ++ List.replicate env.printElements .other }
  have hes : writeMeasure env m = (flush (writeStavesFrom env.numStaves 0 m.staves st0)).out ++ late.map barlineElem := rfl
  obtain ⟨_, _, i3, _, _, _, _, _, _, i10⟩ := keeps_staves (G := env.ticksPerQuarter) (k0 := true) (n := env.numStaves) m.staves 0 st0 (by omega) (by omega) rfl rfl rfl
  have hf := keeps_flush (G := env.ticksPerQuarter) (n := env.numStaves) (s := 0) (k0 := true) (writeStavesFrom env.numStaves 0 m.staves st0)
  obtain ⟨mid, hmid⟩ := i10.trans hf.grow
  have hb := hf.bars
  rw [i3, ← hmid, List.flatMap_append] at hb
  replace hb := List.append_right_eq_self.mp hb
  obtain ⟨o1, _⟩ := others_out (P := P) env.printElements
  refine ⟨List.replicate env.printElements .other ++ mid, ?_, ?_⟩
  · rw [hes, ← hmid]
    simp only [st0, early, late, List.append_assoc]
  · rw [List.flatMap_append, o1, hb]; rfl

/-! ### Reading -/

/-- What of a note element can be found in what is read. -/
def noteFound (r : Option Int × Option Int × NoteKind × Int × P) : Int × NoteKind × Int × Int × P :=
  ((if r.1.getD 0 - 1 < 0 then 0 else r.1.getD 0 - 1), r.2.2.1, roundMicro (if r.2.2.1 = .grace then 0 else r.2.2.2.1), r.2.1.getD (-1), r.2.2.2.2)

def readRec (r : ReadNote P) : Int × NoteKind × Int × Int × P := (r.staff, r.note.kind, r.note.ticks, r.note.userVoice, r.note.content)

def dirFound (r : Option Int × P) : Int × P := ((match r.1 with | some k => k - 1 | none => 0), r.2)

theorem read_timely {env : REnv} (h1 : 1 ≤ env.numStaves) (hG : 0 < env.globalTicksPerQuarter) (la : Bool) : ∀ (es : List (Elem P)) (k : Bool) (r : RSt P), Timely env.globalTicksPerQuarter env.numStaves k es →
    (k = true → r.ticksPerQuarter = env.globalTicksPerQuarter) →
    ∃ r', readElems env la es r = some r' ∧ r'.notes.map readRec = r.notes.map readRec ++ (es.flatMap Elem.noteRecs).map noteFound ∧
      r'.directions.map (fun d => (d.1, d.2.content)) = r.directions.map (fun d => (d.1, d.2.content)) ++ (es.flatMap Elem.dirRecs).map dirFound ∧
      r'.clefs.map (fun c => (c.1, c.2.content)) = r.clefs.map (fun c => (c.1, c.2.content)) ++ (es.flatMap Elem.clefElems).map (fun c => (clefStaff c, c.content)) ∧
      r'.keys.map (fun k => (k.isTraditional, k.content)) = r.keys.map (fun k => (k.isTraditional, k.content)) ++ (es.flatMap Elem.keyElems).map (fun k => (k.isTraditional, k.content)) ∧
      r'.barlines.map (·.content) = r.barlines.map (·.content) ++ es.flatMap Elem.barRecs
  | [], k, r, _, _ => ⟨r, rfl, by simp, by simp, by simp, by simp, by simp⟩
  | e :: es, k, r, ht, hk => by
    obtain ⟨hq, hg, ht⟩ := ht
    rw [readElems]
    generalize nextNoteIsChord la es = nx
    have key : ∃ r1, parseElem env nx e r = some r1 ∧ ((k || e.setsDivisions) = true → r1.ticksPerQuarter = env.globalTicksPerQuarter) ∧ r1.notes.map readRec = r.notes.map readRec ++ e.noteRecs.map noteFound ∧
        r1.directions.map (fun d => (d.1, d.2.content)) = r.directions.map (fun d => (d.1, d.2.content)) ++ e.dirRecs.map dirFound ∧
        r1.clefs.map (fun c => (c.1, c.2.content)) = r.clefs.map (fun c => (c.1, c.2.content)) ++ e.clefElems.map (fun c => (clefStaff c, c.content)) ∧
        r1.keys.map (fun k => (k.isTraditional, k.content)) = r.keys.map (fun k => (k.isTraditional, k.content)) ++ e.keyElems.map (fun k => (k.isTraditional, k.content)) ∧
        r1.barlines.map (·.content) = r.barlines.map (·.content) ++ e.barRecs := by
      cases e with
      | note x =>
        have hk1 := hk (hq rfl)
        have hst : ¬ env.numStaves ≤ noteStaffIndex x := not_le.mpr hg
        refine ⟨_, (by
                show parseNote env nx x r = _
                unfold parseNote
                rw [convertDuration, if_pos hk1]
                show (if env.numStaves ≤ noteStaffIndex x then none else _) = _
                rw [if_neg hst]), fun _ => ?_, ?_, ?_, ?_, ?_, ?_⟩
        · exact hk1
        · simp [Elem.noteRecs, readRec, noteFound, noteRec, parseNoteData, noteStaffIndex]
        · simp [Elem.dirRecs]
        · simp [Elem.clefElems]
        · simp [Elem.keyElems]
        · simp [Elem.barRecs]
      | backup d =>
        have hk1 := hk (hq rfl)
        refine ⟨_, (by
                show parseBackup env d r = _
                unfold parseBackup
                rw [convertDuration, if_pos hk1]
                rfl), fun _ => ?_, ?_, ?_, ?_, ?_, ?_⟩
        · exact hk1
        · simp [Elem.noteRecs]
        · simp [Elem.dirRecs]
        · simp [Elem.clefElems]
        · simp [Elem.keyElems]
        · simp [Elem.barRecs]
      | forward d =>
        have hk1 := hk (hq rfl)
        refine ⟨_, (by
                show parseForward env d r = _
                unfold parseForward
                rw [convertDuration, if_pos hk1]
                rfl), fun _ => ?_, ?_, ?_, ?_, ?_, ?_⟩
        · exact hk1
        · simp [Elem.noteRecs]
        · simp [Elem.dirRecs]
        · simp [Elem.clefElems]
        · simp [Elem.keyElems]
        · simp [Elem.barRecs]
      | direction s o c =>
        have hns : ¬ env.numStaves ≤ 0 := by omega
        refine ⟨_, (by
                show parseDirection env s o c r = _
                unfold parseDirection
                simp only
                rw [if_neg hns]), fun h => ?_, ?_, ?_, ?_, ?_, ?_⟩
        · exact hk (by simpa [Elem.setsDivisions] using h)
        · simp [Elem.noteRecs]
        · simp only [List.map_append, List.map_cons, List.map_nil, Elem.dirRecs, dirFound]
          congr 2
          cases s with
          | none => simp
          | some j => have := hg j rfl; simp [this]
        · simp [Elem.clefElems]
        · simp [Elem.keyElems]
        · simp [Elem.barRecs]
      | attributes a =>
        obtain ⟨g1, g2⟩ := hg
        have hany : ¬ a.clefs.any (fun c => decide (env.numStaves ≤ clefStaff c)) = true := by
          intro h
          obtain ⟨c, hc, h⟩ := List.any_eq_true.mp h
          have := g1 c hc
          simp only [decide_eq_true_eq] at h
          omega
        refine ⟨_, (by
                show parseProperties env a r = _
                unfold parseProperties
                rw [if_neg hany]), ?_, ?_, ?_, ?_, ?_, ?_⟩
        · intro h
          simp only
          cases hd : a.divisions with
          | none => exact hk (by simpa [Elem.setsDivisions, hd] using h)
          | some d =>
            rw [g2 d hd]
            simp only
            unfold durMicro
            rw [if_pos hG, roundMicro_mul]
        · simp [Elem.noteRecs]
        · simp [Elem.dirRecs]
        · simp [Elem.clefElems]
        · simp only [List.map_append, List.map_map, Elem.keyElems]
          congr 1
          apply List.map_congr_left
          intro x _
          simp only [Function.comp, parseKey]
          cases hx : x.isTraditional <;> simp
        · simp [Elem.barRecs]
      | barline l c =>
        refine ⟨_, rfl, fun h => hk (by simpa [Elem.setsDivisions] using h), ?_, ?_, ?_, ?_, ?_⟩
        · simp [parseBarline, Elem.noteRecs]
        · simp [parseBarline, Elem.dirRecs]
        · simp [parseBarline, Elem.clefElems]
        · simp [parseBarline, Elem.keyElems]
        · simp [parseBarline, Elem.barRecs]
      | other =>
        refine ⟨_, rfl, fun h => hk (by simpa [Elem.setsDivisions] using h), ?_, ?_, ?_, ?_, ?_⟩
        · simp [Elem.noteRecs]
        · simp [Elem.dirRecs]
        · simp [Elem.clefElems]
        · simp [Elem.keyElems]
        · simp [Elem.barRecs]
    obtain ⟨r1, p0, p1, p2, p3, p4, p5, p6⟩ := key
    obtain ⟨r', q0, q2, q3, q4, q5, q6⟩ := read_timely h1 hG la es (k || e.setsDivisions) r1 ht p1
    refine ⟨r', ?_, ?_, ?_, ?_, ?_, ?_⟩
    · rw [p0]; exact q0
    · rw [q2, p2, List.flatMap_cons, List.map_append, List.append_assoc]
    · rw [q3, p3, List.flatMap_cons, List.map_append, List.append_assoc]
    · rw [q4, p4, List.flatMap_cons, List.map_append, List.append_assoc]
    · rw [q5, p5, List.flatMap_cons, List.map_append, List.append_assoc]
    · rw [q6, p6, List.flatMap_cons, List.append_assoc]

/-! ### The notes of one staff among those of all -/

theorem noteFound_written {n i v : Int} (h0 : 0 ≤ i) (hn : i < n) (x : NoteData P) : noteFound (noteWritten n i v x) = (i, noteGist v x) := by
  unfold noteFound noteWritten noteGist
  have hs : (if (if n > 1 ∧ i ≥ 0 then some (i + 1) else (none : Option Int)).getD 0 - 1 < 0 then 0 else (if n > 1 ∧ i ≥ 0 then some (i + 1) else (none : Option Int)).getD 0 - 1) = i := by
    by_cases hc : n > 1 ∧ i ≥ 0
    · rw [if_pos hc, Option.getD_some, if_neg (by omega)]; omega
    · rw [if_neg hc, Option.getD_none, if_pos (by omega)]; omega
  have hv : (if v ≥ 0 then some (v + 1) else (none : Option Int)).getD (-1) = if 0 ≤ v then v + 1 else -1 := by
    by_cases hc : 0 ≤ v
    · rw [if_pos hc, if_pos hc]; rfl
    · rw [if_neg hc, if_neg hc]; rfl
  have hd : roundMicro (if x.kind = .grace then 0 else if x.kind = .grace then 0 else durMicro x.ticks) = if x.kind = .grace then 0 else max 0 x.ticks := by
    by_cases hk : x.kind = .grace
    · rw [if_pos hk, if_pos hk]; decide
    · rw [if_neg hk, if_neg hk, if_neg hk]
      unfold durMicro
      by_cases ht : 0 < x.ticks
      · rw [if_pos ht, roundMicro_mul]; omega
      · rw [if_neg ht]
        have : roundMicro 1 = 0 := by decide
        rw [this]; omega
  simp only [hs, hv, hd]

theorem found_staves {n : Int} : ∀ (ss : List (StaffData P)) (i : Int), 0 ≤ i → i + ss.length ≤ n → ∀ (j : Nat) (s : StaffData P), ss[j]? = some s →
    (((stavesNotes n i ss).map noteFound).filter (fun x => decide (x.1 = i + j))).map (·.2) = staffNotes s
  | [], i, _, _, j, s, h => by simp at h
  | t :: ss, i, h0, hl, j, s, h => by
    rw [List.length_cons] at hl
    push_cast at hl
    have he : ((t.voices.flatMap fun v => v.2.map (noteWritten n i v.1)).map noteFound) = (staffNotes t).map (fun x => (i, x)) := by
      unfold staffNotes
      rw [List.map_flatMap, List.map_flatMap]
      congr 1
      funext v
      rw [List.map_map, List.map_map]
      apply List.map_congr_left
      intro x _
      exact noteFound_written h0 (by omega) x
    have hge : ∀ (ss : List (StaffData P)) (i : Int), 0 ≤ i → i + ss.length ≤ n → ∀ x ∈ (stavesNotes n i ss).map noteFound, i ≤ x.1 := by
      intro ss
      induction ss with
      | nil => intro i _ _ x hx; simp [stavesNotes] at hx
      | cons u ss ih =>
        intro i h0 hl x hx
        rw [List.length_cons] at hl
        push_cast at hl
        rw [stavesNotes, List.map_append] at hx
        rcases List.mem_append.mp hx with hx | hx
        · obtain ⟨y, hy, rfl⟩ := List.mem_map.mp hx
          obtain ⟨v, _, hy⟩ := List.mem_flatMap.mp hy
          obtain ⟨z, _, rfl⟩ := List.mem_map.mp hy
          rw [noteFound_written h0 (by omega : i < n)]
        · have := ih (i + 1) (by omega) (by omega) x hx; omega
    rw [stavesNotes, List.map_append, he, List.filter_append, List.map_append]
    cases j with
    | zero =>
      simp only [List.getElem?_cons_zero, Option.some.injEq] at h
      subst h
      have f1 : (((staffNotes t).map (fun x => (i, x))).filter (fun x => decide (x.1 = i + ((0 : Nat) : Int)))).map (·.2) = staffNotes t := by
        rw [List.filter_eq_self.mpr]
        · rw [List.map_map]; exact List.map_id _
        · intro x hx; obtain ⟨y, _, rfl⟩ := List.mem_map.mp hx; simp
      have f2 : ((stavesNotes n (i + 1) ss).map noteFound).filter (fun x => decide (x.1 = i + ((0 : Nat) : Int))) = [] := by
        rw [List.filter_eq_nil_iff]
        intro x hx
        have := hge ss (i + 1) (by omega) (by omega) x hx
        simp only [decide_eq_true_eq]; omega
      rw [f1, f2]; simp
    | succ j =>
      have f1 : ((staffNotes t).map (fun x => (i, x))).filter (fun x => decide (x.1 = i + ((j + 1 : Nat) : Int))) = [] := by
        rw [List.filter_eq_nil_iff]
        intro x hx
        obtain ⟨y, _, rfl⟩ := List.mem_map.mp hx
        simp only [decide_eq_true_eq]; omega
      rw [f1, List.map_nil, List.nil_append]
      have := found_staves (n := n) ss (i + 1) (by omega) (by omega) j s (by simpa using h)
      have e : (i + ((j + 1 : Nat) : Int)) = i + 1 + (j : Int) := by push_cast; omega
      rw [e]; exact this

end Mx.Measure
