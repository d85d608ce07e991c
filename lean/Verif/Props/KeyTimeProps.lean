import Verif.Proofs.KeyPass
import Verif.Props.ClefTimeProps

/-!
# Property C95: key signatures are where they should be
Specification: `Verif/Spec/KeyTime.lean`, with MusicXML's time in `Verif/Spec/MusicXMLClock.lean`.
-/
namespace Mx.Props
open _root_.Spec Mx.Measure

variable {P : Type}

/-- **C95, saving** Each key of a measure and of its staves is saved at exactly the time the caller gave it (by MusicXML's own reckoning of time), for its staff or for all staves; none is lost and none is
added.

Missing, because the code does not do it (`KeysMet`): keys at times at which no note of the first voice starts, except at the end of the last voice (`C95_between_notes`, `C95_short_last_voice`); a second key of the
measure at the same time (`C95_two_keys`); and keys of the measure that are for one staff only, after its beginning (`C95_loses_staff`).  The other conditions are those of C01. -/
theorem C95_saved_partial (env : WEnv) (m : MeasureData P) (divisionsBefore : ℚ) (hG : 0 < env.ticksPerQuarter)
    (hd : env.isFirstMeasureInPart = false → divisionsBefore = env.ticksPerQuarter) (hm : MeasureOk m) (hk : KeysMet m) :
    (placedKeys (Clock.init divisionsBefore) (writeMeasure env m)).Perm (expectedKeys env.ticksPerQuarter m) :=
  keys_measure hG env m divisionsBefore rfl hd hm hk

/-- **C95, loading** The keys of a loaded measure are exactly those of the file, in their order, at the time MusicXML gives them, each for its staff or for all staves.

Missing, because the code does not do it (`KeysTimed`): keys between the notes of a chord (`C95_between_notes_of_chord`), and non-traditional keys that are for one staff or after the beginning of the
measure (`C95_non_traditional`).  The other conditions are those of C02. -/
theorem C95_loaded_partial (env : REnv) (divisions : Int) (es : List (Elem P)) (hG : 0 < env.globalTicksPerQuarter) (hdiv : 0 < divisions)
    (hw : WellTimed env.globalTicksPerQuarter (Clock.init divisions) none es) (hs : StavesExist env.numStaves es) (hd : KeysTimed env.numStaves (Clock.init divisions) es) :
    ∃ m, readMeasure env divisions es = some m ∧ expectedKeys env.globalTicksPerQuarter m = placedKeys (Clock.init divisions) es := by
  obtain ⟨r, h1, h2⟩ := read_follows_keys hG rfl es (Clock.init divisions) none (initRSt divisions) hw hs hd
    ⟨hdiv, rfl, by simp [initRSt, Clock.init], wellTimed_none hw⟩
  have h2 : r.keys.map (keyPlace env.globalTicksPerQuarter) = placedKeys (Clock.init divisions) es := by simpa [initRSt] using h2
  exact ⟨measureOf env r, by unfold readMeasure; rw [h1]; rfl, by rw [expectedKeys_read, h2]⟩

/-- **C95, a whole file** A file is loaded, and what was loaded is saved.  Then, part by part and measure by measure, it has exactly the same keys at the same times and for the same staves.

The conditions are those of C92 and the ones above: in the file the keys are `KeysTimed`, and in what was loaded they are `KeysMet` (`C95_moved_by_saving` shows what happens otherwise). -/
theorem C95_through_partial (file : List (Str × List (List (Child P)))) (s : Score P) (hne : file ≠ []) (hids : (file.map (·.1)).Nodup) (hf : ∀ p ∈ file, PlainPart p.2)
    (hl : getScore (file.map (·.1)) file = some (s.ticksPerQuarter, s.parts.map (fun p => p.measures.map (·.2)))) (ht : 0 < s.ticksPerQuarter)
    (hd : ∀ p ∈ file, ∀ N, IsStaffCount N p.2 → PartKeysTimed N 1 (partElems p.2))
    (hc : ∀ p ∈ s.parts, ∀ m ∈ p.measures, KeysMet m.2) :
    List.Forall₂ (fun p q => List.Forall₂ List.Perm (partKeys 1 (partElems p.2)) (partKeys 1 q.2)) file (writeScore s.ticksPerQuarter s.parts).2 := by
  have h := file_loaded hids hf hl ht
  rw [List.forall₂_map_left_iff, List.forall₂_map_right_iff] at h
  have hkeys : List.Forall₂ (LoadedKeys s.ticksPerQuarter) (file.map (·.2)) (s.parts.map (fun p => p.measures.map (·.2))) := by
    unfold getScore at hl
    cases hm : findMaxDivisionsPerQuarter (file.map (fun p => partElems p.2)) with
    | error e => rw [hm] at hl; cases hl
    | ok G' =>
      rw [hm] at hl
      simp only [Option.map_eq_some_iff, Prod.mk.injEq] at hl
      obtain ⟨o', h1, rfl, rfl⟩ := hl
      rw [reconcile_all file hids] at h1
      obtain ⟨o2, g1, g2⟩ := getParts_keys ht (file.map (·.2)) (-1) (by
        intro p hp
        obtain ⟨q, hq, rfl⟩ := List.mem_map.mp hp
        refine ⟨hf q hq, ?_, hd q hq⟩
        intro m hm' a ha k hk hx
        have := (C05_scale_is_least_common_multiple _ _ hm).1 (partElems q.2) (List.mem_map.mpr ⟨q, hq, rfl⟩) m hm' a ha _ hx
        have hr : roundMicro (k * 1000000) = k := roundMicro_mul k
        rw [hr] at this
        exact this hk)
      rw [h1] at g1
      cases g1
      exact g2
  rw [List.forall₂_map_left_iff, List.forall₂_map_right_iff] at hkeys
  have hp : s.parts ≠ [] := by
    intro e
    rw [e] at h
    cases h
    exact hne rfl
  obtain ⟨q, qs, hq⟩ := List.exists_cons_of_ne_nil hp
  have hw : (writeScore s.ticksPerQuarter s.parts).2 = s.parts.map (fun q => (xsID q.uniqueId, writePart s.ticksPerQuarter q.transposition q.measures)) := by
    rw [hq]; rfl
  rw [hw, List.forall₂_map_right_iff]
  rw [List.forall₂_iff_get] at h hkeys ⊢
  refine ⟨h.1, ?_⟩
  intro i h1 h2
  exact loadedKeys_written ht (h.2 i h1 h2) (hkeys.2 i h1 h2) (hc _ (List.getElem_mem h2)) 1

/-! ### examples -/

/-- A check for `TimeMet`. -/
def timeMet (s : StaffData P) (t : Int) : Bool :=
  s.voices.head?.any (fun v => metIn t v.2) ||
  (s.voices.all (fun v => v.2.all (fun n => decide (n.tick < t))) && (s.voices.flatMap (·.2)).getLast?.any (fun n => decide (n.tick + n.ticks = t)))

theorem timeMet_spec {s : StaffData P} {t : Int} (h : timeMet s t = true) : TimeMet s t := by
  simp only [timeMet, Bool.and_eq_true, decide_eq_true_eq, List.all_eq_true, Bool.or_eq_true] at h
  rcases h with h1 | ⟨h1, h2⟩
  · left
    rw [Option.any_eq_true] at h1
    obtain ⟨v, hv, hm⟩ := h1
    exact ⟨v, hv, metIn_spec hm⟩
  · right
    rw [Option.any_eq_true] at h2
    obtain ⟨n, hn, he⟩ := h2
    exact ⟨h1, n, hn, by simpa using he⟩

/-- A check for `KeysMet`. -/
def keysMet (m : MeasureData P) : Bool :=
  decide (m.keys.Pairwise (fun a b => a.tick ≤ b.tick ∧ (0 < b.tick → a.tick < b.tick))) &&
  m.keys.all (fun k => decide (0 ≤ k.tick) && (!decide (0 < k.tick) || (decide (k.staffIndex < 0) && m.staves.head?.any (fun s => timeMet s k.tick)))) &&
  m.staves.all (fun s => decide (s.keys.Pairwise (fun a b => a.tick ≤ b.tick)) && s.keys.all (fun k => timeMet s k.tick))

theorem keysMet_spec {m : MeasureData P} (h : keysMet m = true) : KeysMet m := by
  simp only [keysMet, Bool.and_eq_true, decide_eq_true_eq, List.all_eq_true, Bool.or_eq_true, Bool.not_eq_true', decide_eq_false_iff_not] at h
  obtain ⟨⟨h1, h2⟩, h3⟩ := h
  refine ⟨h1, ?_, fun s hs => ⟨(h3 s hs).1, fun k hk => timeMet_spec ((h3 s hs).2 k hk)⟩⟩
  intro k hk
  obtain ⟨h0, h4⟩ := h2 k hk
  refine ⟨h0, fun hpos => ?_⟩
  rcases h4 with h4 | ⟨h4, h5⟩
  · exact absurd hpos h4
  · rw [Option.any_eq_true] at h5
    obtain ⟨s, hs, h5⟩ := h5
    exact ⟨h4, s, hs, timeMet_spec h5⟩

instance : DecidableEq (List (ℚ × Option Int × Bool × String)) := inferInstance
instance : DecidableEq (List (List (ℚ × Option Int × Bool × String))) := inferInstance
instance : DecidableEq (List (List (List (ℚ × Option Int × Bool × String)))) := inferInstance
instance : DecidableEq (Option (List (List (List (ℚ × Option Int × Bool × String))))) := inferInstance

/-- a key -/
def exKey (tick staffIndex : Int) (x : String) (traditional : Bool := true) : Measure.KeyData String := { tick := tick, staffIndex := staffIndex, isTraditional := traditional, content := x }

/-- Two staves and three voices; keys of the measure at the beginning for one staff and for all, in the middle and at the end; keys of the second staff. -/
def keyMeasure : MeasureData String :=
  { exMeasure with
    keys := [exKey 0 1 "Bb", exKey 0 (-1) "C" false, exKey 6 (-1) "D", exKey 12 (-1) "E"]
    staves := [
      { clefs := [], keys := []
        voices := [(0, [exGrace 0 "g", exNote 0 4 true "c", exNote 0 4 true "e", exNote 6 2 true "a", exNote 6 2 true "b", exNote 8 4 false "a"]), (2, [exNote 2 3 false "f", exNote 7 5 false "f"])]
        directions := [⟨0, false, "p"⟩, ⟨7, false, "mf"⟩] },
      { clefs := [], keys := [exKey 4 0 "F", exKey 4 0 "G", exKey 12 0 "A"], voices := [(0, [exNote 0 4 false "C", exNote 4 8 false "D"])], directions := [] }] }

example : MeasureOk keyMeasure ∧ KeysMet keyMeasure ∧ 0 < exEnv.ticksPerQuarter ∧
    placedKeys (Clock.init 1) (writeMeasure exEnv keyMeasure) =
      [(0, some 1, true, "Bb"), (0, none, false, "C"), (3 / 2, none, true, "D"), (3, none, true, "E"), (1, some 1, true, "F"), (1, some 1, true, "G"), (3, some 1, true, "A")] := by
  refine ⟨by decide, keysMet_spec (by decide +kernel), by decide, by decide +kernel⟩

/-- The keys of the measure that are found in a saved measure of one staff with one tick per quarter note. -/
def foundKeys (voices : List (List (NoteData String))) (ks : List (Measure.KeyData String)) : List (ℚ × Option Int × Bool × String) :=
  placedKeys (Clock.init 1) (writeMeasure { exEnv with numStaves := 1, ticksPerQuarter := 1 }
    { staves := [{ clefs := [], keys := [], voices := (List.range voices.length).map (fun i : Nat => ((i : Int), voices.getD i [])), directions := [] }], keys := ks, barlines := [] })

/-- **C95 fails while a note sounds**: a key for the second beat, at which no note starts, is saved at the next note, on the third beat.  If a note starts on the second beat it is right. -/
theorem C95_between_notes :
    foundKeys [[exNote 0 2 false "c", exNote 2 2 false "d"]] [exKey 1 (-1) "D"] = [(2, none, true, "D")] ∧
    foundKeys [[exNote 0 1 false "c", exNote 1 3 false "d"]] [exKey 1 (-1) "D"] = [(1, none, true, "D")] := by
  decide +kernel

/-- **C95 fails for the second key at one time**: two keys of the measure for the second beat are saved on the second and on the third beat.  At the beginning of a measure two keys are right. -/
theorem C95_two_keys :
    foundKeys [[exNote 0 1 false "c", exNote 1 1 false "d", exNote 2 1 false "e"]] [exKey 1 (-1) "D", exKey 1 (-1) "E"] = [(1, none, true, "D"), (2, none, true, "E")] ∧
    foundKeys [[exNote 0 1 false "c", exNote 1 1 false "d", exNote 2 1 false "e"]] [exKey 0 0 "D", exKey 0 (-1) "E"] = [(0, some 0, true, "D"), (0, none, true, "E")] := by
  decide +kernel

/-- **C95 fails when keys are left at the end**: of two keys that no note has met, only the first is saved; the other is lost. -/
theorem C95_lost_key : foundKeys [[exNote 0 4 false "c"]] [exKey 2 (-1) "D", exKey 4 (-1) "E"] = [(4, none, true, "D")] := by
  decide +kernel

/-- **C95 fails for keys of one staff inside a measure**: a key of the measure that is for the first staff only is saved as a key of all staves.  At the beginning of the measure it keeps its staff. -/
theorem C95_loses_staff :
    foundKeys [[exNote 0 1 false "c", exNote 1 3 false "d"]] [exKey 1 0 "D"] = [(1, none, true, "D")] ∧
    foundKeys [[exNote 0 1 false "c", exNote 1 3 false "d"]] [exKey 0 0 "D"] = [(0, some 0, true, "D")] := by
  decide +kernel

/-- **C95 fails at the end of a measure whose last voice is shorter**: the key for the end of the measure is saved where the second voice ends. -/
theorem C95_short_last_voice : foundKeys [[exNote 0 4 false "c"], [exNote 0 1 false "e"]] [exKey 4 (-1) "D"] = [(1, none, true, "D")] := by
  decide +kernel

/-- ticks, staves and contents of the keys of a loaded measure of two staves -/
def loadedKeys (G : Int) (es : List (Elem String)) : Option (List (Int × Int × String)) := (readMeasure ⟨2, G⟩ 1 es).map (fun m => m.keys.map (fun k => (k.tick, k.staffIndex, k.content)))

/-- `<attributes>` with a key -/
def exKeyElem (number : Option Int) (x : String) (traditional : Bool := true) : Elem String := .attributes { keys := [{ number := number, isTraditional := traditional, content := x }] }

/-- **C95 fails between the notes of a chord**: MusicXML's position is at the end of the chord there, but the key is loaded at its beginning. -/
theorem C95_between_notes_of_chord :
    placedKeys (Clock.init 1) [exElem false 2 "c", exKeyElem none "D", exElem true 2 "e", exElem false 1 "d"] = [(2, none, true, "D")] ∧
    loadedKeys 1 [exElem false 2 "c", exKeyElem none "D", exElem true 2 "e", exElem false 1 "d"] = some [(0, -1, "D")] := by
  decide +kernel

/-- **C95 fails for non-traditional keys**: a non-traditional key of the second staff after two quarter notes is loaded as a key of all staves at the beginning of the measure; a traditional one is right. -/
theorem C95_non_traditional :
    placedKeys (Clock.init 1) [exElem false 2 "c", exKeyElem (some 2) "D" false, exElem false 1 "d"] = [(2, some 1, false, "D")] ∧
    loadedKeys 1 [exElem false 2 "c", exKeyElem (some 2) "D" false, exElem false 1 "d"] = some [(0, -1, "D")] ∧
    loadedKeys 1 [exElem false 2 "c", exKeyElem (some 2) "D", exElem false 1 "d"] = some [(2, 1, "D")] := by
  decide +kernel

/-- keys of a file -/
def keysIn (file : List (Str × List (List (Child String)))) : List (List (List (ℚ × Option Int × Bool × String))) := file.map (fun p => partKeys 1 (partElems p.2))

/-- the same for what is saved -/
def savedKeys (s : Score String) : List (List (List (ℚ × Option Int × Bool × String))) := (writeScore s.ticksPerQuarter s.parts).2.map (fun p => partKeys 1 p.2)

/-- Two parts with different divisions, two staves, keys at the beginning, inside and at the end of measures. -/
def keyFile : List (Str × List (List (Child String))) :=
  [(chars "P1", [[{ elem := .attributes { divisions := some 2000000, staves := some 2, keys := [⟨some 1, true, "C"⟩, ⟨some 2, true, "D"⟩] } }, exN false .normal 2 (some 1) (some 1) "c", { elem := exKeyElem none "E" },
      exN false .normal 2 (some 1) (some 1) "c", exN true .normal 2 (some 1) (some 1) "e", { elem := exKeyElem none "F" }, { elem := .backup 4000000 }, exN false .normal 4 (some 2) (some 5) "g"]]),
   (chars "P2", [[{ elem := .attributes { divisions := some 1000000, keys := [⟨none, false, "C"⟩] } }, exN false .normal 1 none (some 1) "d", exN false .normal 2 none (some 1) "f"]])]

/-- Whether all keys of a score can be saved at their times. -/
def allKeysMet (s : Score String) : Bool := s.parts.all (fun p => p.measures.all (fun m => keysMet m.2))

/-- The example is loaded, its keys can be saved at their times, and those of what is saved are at the same times. -/
example : (loadFile keyFile).map allKeysMet = some true ∧
    keysIn keyFile = [[[(0, some 0, true, "C"), (0, some 1, true, "D"), (1, none, true, "E"), (2, none, true, "F")]], [[(0, none, false, "C")]]] ∧
    (loadFile keyFile).map savedKeys = some [[[(0, some 0, true, "C"), (0, some 1, true, "D"), (1, none, true, "E"), (2, none, true, "F")]], [[(0, none, false, "C")]]] := by
  decide +kernel

/-- The keys of the example meet the condition. -/
example : ∀ p ∈ keyFile, ∀ N, IsStaffCount N p.2 → PartKeysTimed N 1 (partElems p.2) := by
  intro p hp N hN
  simp only [keyFile, List.mem_cons, List.not_mem_nil, or_false] at hp
  rcases hp with rfl | rfl
  · have h2 : 2 ≤ N := hN.enough 2 ⟨_, List.mem_cons_self, _, List.mem_cons_self, .inr (.inr (.inr ⟨_, rfl, rfl⟩))⟩
    simp [partElems, PartKeysTimed, KeysTimed, exKeyElem, exN, nextIsChord]
    omega
  · simp [partElems, PartKeysTimed, KeysTimed, exN, nextIsChord, Clock.init]

/-- The second staff gets its own key inside the measure. -/
def movedKeyFile : List (Str × List (List (Child String))) :=
  [(chars "P1", [[{ elem := .attributes { divisions := some 1000000, staves := some 2, keys := [⟨none, true, "C"⟩] } }, exN false .normal 4 (some 1) (some 1) "e", { elem := .backup 4000000 },
     exN false .normal 1 (some 2) (some 2) "a", { elem := exKeyElem (some 2) "D" }, exN false .normal 3 (some 2) (some 2) "b"]])]

/-- **C95 fails for files in which one staff changes its key inside a measure**: the second staff has a new key from the second beat on; after loading and saving both staves have it, and from the end of the
measure on. -/
theorem C95_moved_by_saving : keysIn movedKeyFile = [[[(0, none, true, "C"), (1, some 1, true, "D")]]] ∧ (loadFile movedKeyFile).map savedKeys = some [[[(0, none, true, "C"), (4, none, true, "D")]]] := by
  decide +kernel

end Mx.Props
