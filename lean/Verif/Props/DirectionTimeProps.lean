import Verif.Proofs.DirectionPass
import Verif.Props.PassThroughProps
import Mathlib.Tactic.NormNum

/-!
# Property C93: directions are where they should be
Specification: `Verif/Spec/DirectionTime.lean`, with MusicXML's time in `Verif/Spec/MusicXMLClock.lean`.
-/
namespace Mx.Props
open _root_.Spec Mx.Measure

variable {P : Type}

/-- **C93, saving** Each direction of a measure is saved at exactly the time the caller gave it (by MusicXML's own reckoning of time), on its staff; none is lost and none is added,
and their order is kept, wherever they lie between, in or after the notes of the voices.

Missing, because the code does not do it: directions in a chord that begins its voice or comes right after a grace note (`DirectionsClear`, see `C93_in_first_chord` and
`C93_chord_after_grace_note`).  The other conditions are those of C01. -/
theorem C93_saved_partial (env : WEnv) (m : MeasureData P) (divisionsBefore : ℚ) (hG : 0 < env.ticksPerQuarter)
    (hd : env.isFirstMeasureInPart = false → divisionsBefore = env.ticksPerQuarter) (hm : MeasureOk m) (hc : DirectionsClear m) :
    placedDirections (Clock.init divisionsBefore) (writeMeasure env m) = expectedDirections env.ticksPerQuarter m :=
  dirs_measure hG env m divisionsBefore rfl hd hm hc

/-- **C93, loading** The directions of each staff of a loaded measure are those that the file has on that staff, in their order, at exactly the time MusicXML gives them.

Missing, because the code does not do it (`DirectionsTimed`): directions with an `<offset>` in a part whose divisions are not the ticks of the score (`C93_offset`), and directions
between the notes of a chord (`C93_between_notes_of_chord`).  The other conditions are those of C02. -/
theorem C93_loaded_partial (env : REnv) (divisions : Int) (es : List (Elem P)) (hG : 0 < env.globalTicksPerQuarter) (hdiv : 0 < divisions)
    (hw : WellTimed env.globalTicksPerQuarter (Clock.init divisions) none es) (hs : StavesExist env.numStaves es)
    (hd : DirectionsTimed env.globalTicksPerQuarter env.numStaves (Clock.init divisions) es) :
    ∃ m, readMeasure env divisions es = some m ∧ m.staves.length = env.numStaves.toNat ∧
      ∀ (i : Nat) s, m.staves[i]? = some s → s.directions.map (expectedDirection env.globalTicksPerQuarter i) =
        (placedDirections (Clock.init divisions) es).filter (fun x => x.2.1 = (i : Int)) := by
  obtain ⟨r, h1, h2⟩ := read_follows_dirs hG rfl es (Clock.init divisions) none (initRSt divisions) hw hs hd
    ⟨hdiv, rfl, by simp [initRSt, Clock.init], wellTimed_none hw⟩
  have h2 : r.directions.map (dirPlace env.globalTicksPerQuarter) = placedDirections (Clock.init divisions) es := by simpa [initRSt] using h2
  refine ⟨measureOf env r, by unfold readMeasure; rw [h1]; rfl, by simp [measureOf], ?_⟩
  intro i s hi
  simp only [measureOf, List.getElem?_map, Option.map_eq_some_iff] at hi
  obtain ⟨j, hj, rfl⟩ := hi
  obtain ⟨_, rfl⟩ := List.getElem?_eq_some_iff.mp hj
  simp only [List.getElem_range]
  rw [← h2]
  exact staffOf_directions _ r i

/-- **C93, a whole file** A file is loaded, and what was loaded is saved.  Then, part by part and measure by measure, it has exactly the same directions at the same times and on the same staves.

The conditions are those of C92 and the ones above: in the file the directions are `DirectionsTimed`, and in what was loaded they are not in chords that begin a voice or come after a grace note
(`C93_moved_by_saving` shows what happens otherwise). -/
theorem C93_through_partial (file : List (Str × List (List (Child P)))) (s : Score P) (hne : file ≠ []) (hids : (file.map (·.1)).Nodup) (hf : ∀ p ∈ file, PlainPart p.2)
    (hl : getScore (file.map (·.1)) file = some (s.ticksPerQuarter, s.parts.map (fun p => p.measures.map (·.2)))) (ht : 0 < s.ticksPerQuarter)
    (hd : ∀ p ∈ file, ∀ N, IsStaffCount N p.2 → PartDirectionsTimed s.ticksPerQuarter N 1 (partElems p.2))
    (hc : ∀ p ∈ s.parts, ∀ m ∈ p.measures, DirectionsClear m.2) :
    List.Forall₂ (fun p q => List.Forall₂ SameDirections (partDirections 1 (partElems p.2)) (partDirections 1 q.2)) file (writeScore s.ticksPerQuarter s.parts).2 := by
  have h := file_loaded hids hf hl ht
  rw [List.forall₂_map_left_iff, List.forall₂_map_right_iff] at h
  have hdirs : List.Forall₂ (LoadedDirections s.ticksPerQuarter) (file.map (·.2)) (s.parts.map (fun p => p.measures.map (·.2))) := by
    unfold getScore at hl
    cases hm : findMaxDivisionsPerQuarter (file.map (fun p => partElems p.2)) with
    | error e => rw [hm] at hl; cases hl
    | ok G' =>
      rw [hm] at hl
      simp only [Option.map_eq_some_iff, Prod.mk.injEq] at hl
      obtain ⟨o', h1, rfl, rfl⟩ := hl
      rw [reconcile_all file hids] at h1
      obtain ⟨o2, g1, g2⟩ := getParts_dirs ht (file.map (·.2)) (-1) (by
        intro p hp
        obtain ⟨q, hq, rfl⟩ := List.mem_map.mp hp
        refine ⟨hf q hq, ?_, hd q hq⟩
        intro m hm' a ha k hk hx
        have := (C05_scale_is_least_common_multiple _ _ hm).1 (partElems q.2) (List.mem_map.mpr ⟨q, hq, rfl⟩) m hm' a ha _ hx
        have hr : roundMicro (k * 1000000) = k := roundMicro_mul k
        rw [hr] at this
        exact this hk)
      rw [h1] at g1
      cases g1
      exact g2
  rw [List.forall₂_map_left_iff, List.forall₂_map_right_iff] at hdirs
  have hp : s.parts ≠ [] := by
    intro e
    rw [e] at h
    cases h
    exact hne rfl
  obtain ⟨q, qs, hq⟩ := List.exists_cons_of_ne_nil hp
  have hw : (writeScore s.ticksPerQuarter s.parts).2 = s.parts.map (fun q => (xsID q.uniqueId, writePart s.ticksPerQuarter q.transposition q.measures)) := by
    rw [hq]; rfl
  rw [hw, List.forall₂_map_right_iff]
  rw [List.forall₂_iff_get] at h hdirs ⊢
  refine ⟨h.1, ?_⟩
  intro i h1 h2
  exact loadedDirections_written ht (h.2 i h1 h2) (hdirs.2 i h1 h2) (hc _ (List.getElem_mem h2)) 1

/-! ### examples -/

/-- A check for `ChordsClear`. -/
def clearFrom (ds : List (DirectionData P)) : List (NoteData P) → List (NoteData P) → Bool
  | before, a :: b :: rest =>
    (!(a.isChord && b.isChord && decide (b.tick = a.tick) && (before.getLast?.all (fun p => decide (p.tick = a.tick) && !p.isChord))) ||
      ds.all (fun d => !decide (d.tick < a.tick + a.ticks) || if before.all (fun p => decide (p.tick = a.tick)) then decide (d.tick ≤ a.tick) else decide (d.tick < a.tick))) &&
    clearFrom ds (before ++ [a]) (b :: rest)
  | _, _ => true

theorem clearFrom_spec {ds : List (DirectionData P)} : ∀ (ns before : List (NoteData P)), clearFrom ds before ns = true → ∀ mid a b after, ns = mid ++ a :: b :: after →
    a.isChord = true → b.isChord = true → b.tick = a.tick → (∀ p ∈ (before ++ mid).getLast?, p.tick = a.tick ∧ p.isChord = false) →
    ∀ d ∈ ds, d.tick < a.tick + a.ticks → if ∀ p ∈ before ++ mid, p.tick = a.tick then d.tick ≤ a.tick else d.tick < a.tick := by
  intro ns
  induction ns with
  | nil => intro before _ mid a b after h; simp at h
  | cons x xs ih =>
    intro before hc mid a b after h h1 h2 h3 h4 d hd hlt
    cases xs with
    | nil =>
      cases mid with
      | nil => simp at h
      | cons y ys => simp at h
    | cons y ys =>
      simp only [clearFrom, Bool.and_eq_true] at hc
      cases mid with
      | nil =>
        simp only [List.nil_append, List.cons.injEq] at h
        obtain ⟨rfl, rfl, rfl⟩ := h
        rw [List.append_nil] at h4 ⊢
        have hc1 := hc.1
        have hl : before.getLast?.all (fun p => decide (p.tick = x.tick) && !p.isChord) = true := by
          cases hb : before.getLast? with
          | none => rfl
          | some p => have := h4 p (by rw [hb]; rfl); simp [this]
        rw [h1, h2, hl] at hc1
        simp only [h3, decide_true, Bool.and_self, Bool.not_true, Bool.false_or, List.all_eq_true] at hc1
        have hc2 := hc1 d hd
        simp only [hlt, decide_true, Bool.not_true, Bool.false_or] at hc2
        by_cases hall : ∀ p ∈ before, p.tick = x.tick
        · rw [if_pos hall]
          rw [if_pos (by simpa using hall)] at hc2
          simpa using hc2
        · rw [if_neg hall]
          rw [if_neg (by simpa using hall)] at hc2
          simpa using hc2
      | cons z zs =>
        simp only [List.cons_append, List.cons.injEq] at h
        obtain ⟨rfl, h⟩ := h
        have := ih (before ++ [x]) hc.2 zs a b after h h1 h2 h3 (by simpa using h4) d hd hlt
        rw [List.append_assoc] at this
        exact this

theorem chordsClear_of {ds : List (DirectionData P)} {ns : List (NoteData P)} (h : clearFrom ds [] ns = true) : ChordsClear ds ns := by
  intro before a b after e h1 h2 h3 h4
  have := clearFrom_spec ns [] h before a b after e h1 h2 h3 (by simpa using h4)
  simpa using this

theorem directionsClear_of {m : MeasureData P} (h : m.staves.all (fun s => s.voices.all (fun v => clearFrom s.directions [] v.2)) = true) : DirectionsClear m := by
  intro s hs v hv
  rw [List.all_eq_true] at h
  have := h s hs
  rw [List.all_eq_true] at this
  exact chordsClear_of (this v hv)

instance : DecidableEq (ℚ × Int × String) := inferInstance
instance : DecidableEq (List (List (List (ℚ × Int × String)))) := inferInstance

/-- The measure of C01 with more directions: one for the chord after the grace note, one in a note, one in a rest, one after the end, and one on the second staff. -/
def dirMeasure : MeasureData String :=
  { exMeasure with
    staves := [
      { clefs := [], keys := []
        voices := [(0, [exGrace 0 "g", exNote 0 4 true "c", exNote 0 4 true "e", exNote 0 4 true "g", exNote 6 2 true "a", exNote 6 2 true "b", exNote 8 4 false "a"]), (2, [exNote 2 3 false "f"])]
        directions := [⟨0, false, "p"⟩, ⟨5, true, "rit."⟩, ⟨7, false, "mf"⟩, ⟨10, false, "ff"⟩, ⟨14, false, "fine"⟩] },
      { clefs := [], keys := [], voices := [(0, [exNote 0 12 false "C"])], directions := [⟨3, false, "ped."⟩] }] }

example : MeasureOk dirMeasure ∧ DirectionsClear dirMeasure ∧ 0 < exEnv.ticksPerQuarter ∧
    placedDirections (Clock.init 1) (writeMeasure exEnv dirMeasure) =
      [(0, 0, "p"), (5 / 4, 0, "rit."), (7 / 4, 0, "mf"), (5 / 2, 0, "ff"), (7 / 2, 0, "fine"), (3 / 4, 1, "ped.")] :=
  ⟨by decide, directionsClear_of (by decide), by decide, by decide +kernel⟩

/-- The directions, given with their times, that are found in a saved measure of one voice with one tick per quarter note. -/
def foundDirections (ns : List (NoteData String)) (ds : List (Int × String)) : List (ℚ × Int × String) :=
  placedDirections (Clock.init 1) (writeMeasure { exEnv with numStaves := 1, ticksPerQuarter := 1 }
    { staves := [{ clefs := [], keys := [], voices := [(0, ns)], directions := ds.map (fun d => ⟨d.1, false, d.2⟩) }], keys := [], barlines := [] })

/-- **C93 fails in a chord that begins its voice**: a direction for the second beat, while a half note chord sounds, is saved between the notes of the chord, with an offset that would be right before them; it
is found two beats too late.  With a single note instead of the chord it is right. -/
theorem C93_in_first_chord :
    foundDirections [exNote 0 2 true "c", exNote 0 2 true "e", exNote 2 2 false "d"] [(1, "p")] = [(3, 0, "p")] ∧
    foundDirections [exNote 0 2 false "c", exNote 2 2 false "d"] [(1, "p")] = [(1, 0, "p")] := by
  decide +kernel

/-- **C93 fails for a chord after a grace note**: a dynamic mark on such a chord is saved between the notes of the chord and found at its end.  Without the grace note it is right. -/
theorem C93_chord_after_grace_note :
    foundDirections [exNote 0 2 false "b", exGrace 2 "x", exNote 2 2 true "c", exNote 2 2 true "e", exNote 4 1 false "d"] [(2, "f")] = [(4, 0, "f")] ∧
    foundDirections [exNote 0 2 false "b", exNote 2 2 true "c", exNote 2 2 true "e", exNote 4 1 false "d"] [(2, "f")] = [(2, 0, "f")] := by
  decide +kernel

/-- ticks and contents of the directions of a loaded measure of one staff -/
def loadedDirections (G : Int) (es : List (Elem String)) : Option (List (Int × String)) :=
  (readMeasure ⟨1, G⟩ 1 es).map (fun m => m.staves.flatMap (fun s => s.directions.map (fun d => (d.tick, d.content))))

/-- **C93 fails for offsets**: they are not converted from divisions to ticks.  A direction one quarter note (three divisions) after the beginning of the measure is loaded at 3 of 12 ticks. -/
theorem C93_offset :
    placedDirections (Clock.init 1) [.attributes { divisions := some 3000000 }, .direction none 3000000 "p", exElem false 6 "c"] = [(1, 0, "p")] ∧
    loadedDirections 12 [.attributes { divisions := some 3000000 }, .direction none 3000000 "p", exElem false 6 "c"] = some [(3, "p")] := by
  decide +kernel

/-- **C93 fails between the notes of a chord**: MusicXML's position is at the end of the chord there, but the direction is loaded at its beginning. -/
theorem C93_between_notes_of_chord :
    placedDirections (Clock.init 1) [exElem false 2 "c", .direction none 0 "p", exElem true 2 "e", exElem false 1 "d"] = [(2, 0, "p")] ∧
    loadedDirections 1 [exElem false 2 "c", .direction none 0 "p", exElem true 2 "e", exElem false 1 "d"] = some [(0, "p")] := by
  decide +kernel

/-- a `<direction>` -/
def exD (staff : Option Int) (offset : Int) (x : String) : Child String := { elem := .direction staff (offset * 1000000) x }

/-- directions of a file -/
def directionsIn (file : List (Str × List (List (Child String)))) : List (List (List (ℚ × Int × String))) := file.map (fun p => partDirections 1 (partElems p.2))

/-- the same for what is saved -/
def savedDirections (s : Score String) : List (List (List (ℚ × Int × String))) := (writeScore s.ticksPerQuarter s.parts).2.map (fun p => partDirections 1 p.2)

/-- Two parts with different divisions, two staves, a chord, offsets, directions in all places. -/
def dirFile : List (Str × List (List (Child String))) :=
  [(chars "P1", [[{ elem := .attributes { divisions := some 2000000, staves := some 2 } }, exD (some 1) 0 "p", exN false .normal 2 (some 1) (some 1) "c", exD (some 2) (-1) "ped.", exN false .normal 2 (some 1) (some 1) "c",
      exN true .normal 2 (some 1) (some 1) "e", exD none 0 "f", { elem := .backup 4000000 }, exN false .normal 1 (some 2) (some 5) "g", exD (some 2) 1 "*", exN false .normal 3 (some 2) (some 5) "h"]]),
   (chars "P2", [[{ elem := .attributes { divisions := some 1000000 } }, exN false .normal 1 none (some 1) "d", exD none 0 "mf", exN false .normal 2 none (some 1) "f"]])]

/-- Whether all directions of a score are clear of chords. -/
def allClear (s : Score String) : Bool := s.parts.all (fun p => p.measures.all (fun m => m.2.staves.all (fun s => s.voices.all (fun v => clearFrom s.directions [] v.2))))

/-- The example is loaded with two ticks per quarter note, its directions are clear of chords, and those of what is saved are at the same times. -/
example : (loadFile dirFile).map (·.ticksPerQuarter) = some 2 ∧ (loadFile dirFile).map allClear = some true ∧
    directionsIn dirFile = [[[(0, 0, "p"), (1 / 2, 1, "ped."), (2, 0, "f"), (1, 1, "*")]], [[(1, 0, "mf")]]] ∧
    (loadFile dirFile).map savedDirections = some [[[(0, 0, "p"), (2, 0, "f"), (1 / 2, 1, "ped."), (1, 1, "*")]], [[(1, 0, "mf")]]] := by
  decide +kernel

/-- The directions of the example meet the condition. -/
example : ∀ p ∈ dirFile, ∀ N, IsStaffCount N p.2 → PartDirectionsTimed 2 N 1 (partElems p.2) := by
  intro p hp N hN
  simp only [dirFile, List.mem_cons, List.not_mem_nil, or_false] at hp
  rcases hp with rfl | rfl
  · have h2 : 2 ≤ N := hN.enough 2 ⟨_, List.mem_cons_self, _, List.mem_cons_self, .inr (.inr (.inr ⟨_, rfl, rfl⟩))⟩
    simp [partElems, PartDirectionsTimed, DirectionsTimed, exD, exN, nextIsChord, Clock.step, Clock.init]
    exact ⟨by omega, ⟨by norm_num, -1, by omega⟩, h2, by norm_num, h2⟩
  · simp [partElems, PartDirectionsTimed, DirectionsTimed, exD, exN, nextIsChord]

/-- A chord and a note in the first voice; in the second voice, a direction while the chord sounds. -/
def movedFile : List (Str × List (List (Child String))) :=
  [(chars "P1", [[{ elem := .attributes { divisions := some 1000000 } }, exN false .normal 2 none (some 1) "e", exN true .normal 2 none (some 1) "g", exN false .normal 2 none (some 1) "f", { elem := .backup 4000000 },
     exN false .normal 1 none (some 2) "a", exD none 0 "cresc.", exN false .normal 3 none (some 2) "b"]])]

/-- **C93 fails for files in which a direction lies in a chord that begins a voice**: the direction is on the second beat, and after loading and saving it is on the fourth. -/
theorem C93_moved_by_saving : directionsIn movedFile = [[[(1, 0, "cresc.")]]] ∧ (loadFile movedFile).map savedDirections = some [[[(3, 0, "cresc.")]]] := by
  decide +kernel

end Mx.Props
