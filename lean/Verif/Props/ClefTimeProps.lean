import Verif.Proofs.ClefPass
import Verif.Props.DirectionTimeProps

/-!
# Property C94: clefs are where they should be
Specification: `Verif/Spec/ClefTime.lean`, with MusicXML's time in `Verif/Spec/MusicXMLClock.lean`.
-/
namespace Mx.Props
open _root_.Spec Mx.Measure

variable {P : Type}

theorem firstClefs_staff {G : Int} : ∀ {ss : List (StaffData P)} {j : Int} {x}, x ∈ firstClefs G j ss → j ≤ x.2.1 := by
  intro ss
  induction ss with
  | nil => intro j x h; cases h
  | cons s rest ih =>
    intro j x h
    simp only [firstClefs, List.mem_append, List.mem_map] at h
    rcases h with ⟨y, _, rfl⟩ | h
    · simp [expectedClef]
    · have := ih h; omega

theorem laterClefs_staff {G : Int} : ∀ {ss : List (StaffData P)} {j : Int} {x}, x ∈ laterClefs G j ss → j ≤ x.2.1 := by
  intro ss
  induction ss with
  | nil => intro j x h; cases h
  | cons s rest ih =>
    intro j x h
    simp only [laterClefs, List.mem_append, List.mem_map] at h
    rcases h with ⟨y, _, rfl⟩ | h
    · simp [expectedClef]
    · have := ih h; omega

theorem filter_clefs {G i j : Int} (l : List (Timed P)) : (l.map (expectedClef G j)).filter (fun x => x.2.1 = i) = if j = i then l.map (expectedClef G j) else [] := by
  split
  · rename_i h
    rw [List.filter_eq_self]
    intro x hx
    obtain ⟨y, _, rfl⟩ := List.mem_map.mp hx
    exact decide_eq_true h
  · rename_i h
    rw [List.filter_eq_nil_iff]
    intro x hx
    obtain ⟨y, _, rfl⟩ := List.mem_map.mp hx
    exact fun e => h (of_decide_eq_true e)

theorem staff_clefs {G : Int} : ∀ (ss : List (StaffData P)) (j : Int) (k : Nat) (s : StaffData P), ss[k]? = some s →
    (firstClefs G j ss ++ laterClefs G j ss).filter (fun x => x.2.1 = j + (k : Int)) = s.clefs.map (expectedClef G (j + k)) := by
  intro ss
  induction ss with
  | nil => intro j k s h; simp at h
  | cons s0 rest ih =>
    intro j k s h
    rw [List.filter_append, firstClefs, laterClefs, List.filter_append, List.filter_append, filter_clefs, filter_clefs]
    cases k with
    | zero =>
      simp only [List.getElem?_cons_zero, Option.some.injEq] at h
      subst h
      have e1 : (firstClefs G (j + 1) rest).filter (fun x => x.2.1 = j + ((0 : Nat) : Int)) = [] := by
        rw [List.filter_eq_nil_iff]
        intro x hx
        have := firstClefs_staff hx
        simp; omega
      have e2 : (laterClefs G (j + 1) rest).filter (fun x => x.2.1 = j + ((0 : Nat) : Int)) = [] := by
        rw [List.filter_eq_nil_iff]
        intro x hx
        have := laterClefs_staff hx
        simp; omega
      rw [e1, e2, if_pos (by simp), if_pos (by simp), List.append_nil, List.append_nil, ← List.map_append, List.takeWhile_append_dropWhile]
      simp
    | succ k =>
      rw [if_neg (by omega), if_neg (by omega), List.nil_append, List.nil_append, ← List.filter_append]
      have := ih (j + 1) k s (by simpa using h)
      have e : j + 1 + (k : Int) = j + ((k + 1 : Nat) : Int) := by push_cast; omega
      rw [e] at this
      exact this

/-- **C94, saving** Each clef of a measure is saved at exactly the time the caller gave it (by MusicXML's own reckoning of time), on its staff; none is lost and none is added, and the clefs of
each staff keep their order.

Missing, because the code does not do it (`ClefsMet`): clefs at times at which no note of the staff's first voice starts, except at the end of its last voice (see `C94_between_notes`, `C94_second_voice`
and `C94_short_last_voice`).  The other conditions are those of C01. -/
theorem C94_saved_partial (env : WEnv) (m : MeasureData P) (divisionsBefore : ℚ) (hG : 0 < env.ticksPerQuarter)
    (hd : env.isFirstMeasureInPart = false → divisionsBefore = env.ticksPerQuarter) (hN : env.numStaves = m.staves.length) (hm : MeasureOk m) (hc : ∀ s ∈ m.staves, ClefsMet s) :
    (placedClefs (Clock.init divisionsBefore) (writeMeasure env m)).Perm (expectedClefs env.ticksPerQuarter m) ∧
    ∀ (i : Nat) s, m.staves[i]? = some s →
      (placedClefs (Clock.init divisionsBefore) (writeMeasure env m)).filter (fun x => x.2.1 = (i : Int)) = s.clefs.map (expectedClef env.ticksPerQuarter i) := by
  have hN : (m.staves.length : Int) ≤ env.numStaves := by omega
  refine ⟨clefs_measure_perm hG env m divisionsBefore rfl hd hN hm hc, ?_⟩
  intro i s hs
  rw [clefs_measure hG env m divisionsBefore rfl hd hN hm hc]
  have := staff_clefs (G := env.ticksPerQuarter) m.staves 0 i s hs
  simpa using this

/-- **C94, loading** The clefs of each staff of a loaded measure are those that the file has on that staff, in their order, at exactly the time MusicXML gives them.

Missing, because the code does not do it (`ClefsTimed`): clefs between the notes of a chord (`C94_between_notes_of_chord`).  The other conditions are those of C02. -/
theorem C94_loaded_partial (env : REnv) (divisions : Int) (es : List (Elem P)) (hG : 0 < env.globalTicksPerQuarter) (hdiv : 0 < divisions)
    (hw : WellTimed env.globalTicksPerQuarter (Clock.init divisions) none es) (hs : StavesExist env.numStaves es) (hd : ClefsTimed env.numStaves es) :
    ∃ m, readMeasure env divisions es = some m ∧ m.staves.length = env.numStaves.toNat ∧
      ∀ (i : Nat) s, m.staves[i]? = some s → s.clefs.map (expectedClef env.globalTicksPerQuarter i) =
        (placedClefs (Clock.init divisions) es).filter (fun x => x.2.1 = (i : Int)) := by
  obtain ⟨r, h1, h2⟩ := read_follows_clefs hG rfl es (Clock.init divisions) none (initRSt divisions) hw hs hd
    ⟨hdiv, rfl, by simp [initRSt, Clock.init], wellTimed_none hw⟩
  have h2 : r.clefs.map (clefPlace env.globalTicksPerQuarter) = placedClefs (Clock.init divisions) es := by simpa [initRSt] using h2
  refine ⟨measureOf env r, by unfold readMeasure; rw [h1]; rfl, by simp [measureOf], ?_⟩
  intro i s hi
  simp only [measureOf, List.getElem?_map, Option.map_eq_some_iff] at hi
  obtain ⟨j, hj, rfl⟩ := hi
  obtain ⟨_, rfl⟩ := List.getElem?_eq_some_iff.mp hj
  simp only [List.getElem_range]
  rw [← h2]
  exact staffOf_clefs _ r i

/-- **C94, a whole file** A file is loaded, and what was loaded is saved.  Then, part by part and measure by measure, it has exactly the same clefs at the same times and on the same staves.

The conditions are those of C92 and the ones above: in the file the clefs are `ClefsTimed`, and in what was loaded they are `ClefsMet` (`C94_moved_by_saving` shows what happens otherwise). -/
theorem C94_through_partial (file : List (Str × List (List (Child P)))) (s : Score P) (hne : file ≠ []) (hids : (file.map (·.1)).Nodup) (hf : ∀ p ∈ file, PlainPart p.2)
    (hl : getScore (file.map (·.1)) file = some (s.ticksPerQuarter, s.parts.map (fun p => p.measures.map (·.2)))) (ht : 0 < s.ticksPerQuarter)
    (hd : ∀ p ∈ file, ∀ N, IsStaffCount N p.2 → ∀ m ∈ partElems p.2, ClefsTimed N m)
    (hc : ∀ p ∈ s.parts, ∀ m ∈ p.measures, ∀ st ∈ m.2.staves, ClefsMet st) :
    List.Forall₂ (fun p q => List.Forall₂ List.Perm (partClefs 1 (partElems p.2)) (partClefs 1 q.2)) file (writeScore s.ticksPerQuarter s.parts).2 := by
  have h := file_loaded hids hf hl ht
  rw [List.forall₂_map_left_iff, List.forall₂_map_right_iff] at h
  have hclefs : List.Forall₂ (LoadedClefs s.ticksPerQuarter) (file.map (·.2)) (s.parts.map (fun p => p.measures.map (·.2))) := by
    unfold getScore at hl
    cases hm : findMaxDivisionsPerQuarter (file.map (fun p => partElems p.2)) with
    | error e => rw [hm] at hl; cases hl
    | ok G' =>
      rw [hm] at hl
      simp only [Option.map_eq_some_iff, Prod.mk.injEq] at hl
      obtain ⟨o', h1, rfl, rfl⟩ := hl
      rw [reconcile_all file hids] at h1
      obtain ⟨o2, g1, g2⟩ := getParts_clefs ht (file.map (·.2)) (-1) (by
        intro p hp
        obtain ⟨q, hq, rfl⟩ := List.mem_map.mp hp
        refine ⟨hf q hq, ?_, hd q hq⟩
        intro m hm' a ha k hk hx
        have := (C05_scale_is_least_common_multiple _ _ hm).1 (partElems q.2) (List.mem_map.mpr ⟨q, hq, rfl⟩) m hm' a ha _ hx
        have hr : roundMicro (k * 1000000) = k := roundMicro_mul k
        rw [hr] at this
        exact this hk)
      rw [h1] at g1
      cases g1
      exact g2
  rw [List.forall₂_map_left_iff, List.forall₂_map_right_iff] at hclefs
  have hp : s.parts ≠ [] := by
    intro e
    rw [e] at h
    cases h
    exact hne rfl
  obtain ⟨q, qs, hq⟩ := List.exists_cons_of_ne_nil hp
  have hw : (writeScore s.ticksPerQuarter s.parts).2 = s.parts.map (fun q => (xsID q.uniqueId, writePart s.ticksPerQuarter q.transposition q.measures)) := by
    rw [hq]; rfl
  rw [hw, List.forall₂_map_right_iff]
  rw [List.forall₂_iff_get] at h hclefs ⊢
  refine ⟨h.1, ?_⟩
  intro i h1 h2
  exact loadedClefs_written ht (h.2 i h1 h2) (hclefs.2 i h1 h2) (hc _ (List.getElem_mem h2)) 1

/-! ### examples -/

/-- A check for the first part of `TimeMet`. -/
def metIn (t : Int) : List (NoteData P) → Bool
  | [] => false
  | n :: rest => decide (n.tick = t) || (decide (n.tick < t) && metIn t rest)

theorem metIn_spec {t : Int} : ∀ {ns : List (NoteData P)}, metIn t ns = true → ∃ before n after, ns = before ++ n :: after ∧ n.tick = t ∧ ∀ p ∈ before, p.tick < t := by
  intro ns
  induction ns with
  | nil => intro h; cases h
  | cons n rest ih =>
    intro h
    simp only [metIn, Bool.or_eq_true, Bool.and_eq_true, decide_eq_true_eq] at h
    rcases h with h | ⟨h1, h2⟩
    · exact ⟨[], n, rest, rfl, h, by simp⟩
    · obtain ⟨b, m, a, e, e1, e2⟩ := ih h2
      refine ⟨n :: b, m, a, by simp [e], e1, ?_⟩
      intro p hp
      rcases List.mem_cons.mp hp with rfl | hp
      · exact h1
      · exact e2 p hp

/-- A check for `ClefsMet`. -/
def clefsMet (s : StaffData P) : Bool :=
  decide (s.clefs.Pairwise (fun a b => a.tick ≤ b.tick)) &&
  s.clefs.all (fun x => decide (0 ≤ x.tick) && (!decide (0 < x.tick) || (s.voices.head?.any (fun v => metIn x.tick v.2)) ||
    (s.voices.all (fun v => v.2.all (fun n => decide (n.tick < x.tick))) && (s.voices.flatMap (·.2)).getLast?.any (fun n => decide (n.tick + n.ticks = x.tick)))))

theorem clefsMet_spec {s : StaffData P} (h : clefsMet s = true) : ClefsMet s := by
  simp only [clefsMet, Bool.and_eq_true, decide_eq_true_eq, List.all_eq_true, Bool.or_eq_true, Bool.not_eq_true', decide_eq_false_iff_not] at h
  refine ⟨h.1, ?_⟩
  intro x hx
  obtain ⟨h0, h1⟩ := h.2 x hx
  refine ⟨h0, fun hpos => ?_⟩
  rcases h1 with (h1 | h1) | ⟨h1, h2⟩
  · exact absurd hpos h1
  · left
    rw [Option.any_eq_true] at h1
    obtain ⟨v, hv, hm⟩ := h1
    exact ⟨v, hv, metIn_spec hm⟩
  · right
    rw [Option.any_eq_true] at h2
    obtain ⟨n, hn, he⟩ := h2
    exact ⟨h1, n, hn, by simpa using he⟩

/-- Two staves and three voices; clefs at the beginning, before a chord in the middle, and at the end. -/
def clefMeasure : MeasureData String :=
  { exMeasure with
    staves := [
      { clefs := [⟨0, "treble"⟩, ⟨6, "bass"⟩, ⟨12, "alto"⟩], keys := []
        voices := [(0, [exGrace 0 "g", exNote 0 4 true "c", exNote 0 4 true "e", exNote 6 2 true "a", exNote 6 2 true "b", exNote 8 4 false "a"]), (2, [exNote 2 3 false "f", exNote 7 5 false "f"])]
        directions := [⟨0, false, "p"⟩, ⟨7, false, "mf"⟩] },
      { clefs := [⟨0, "bass"⟩, ⟨4, "tenor"⟩, ⟨4, "treble"⟩], keys := [], voices := [(0, [exNote 0 4 false "C", exNote 4 8 false "D"])], directions := [] }] }

example : MeasureOk clefMeasure ∧ (∀ s ∈ clefMeasure.staves, ClefsMet s) ∧ exEnv.numStaves = clefMeasure.staves.length ∧ 0 < exEnv.ticksPerQuarter ∧
    placedClefs (Clock.init 1) (writeMeasure exEnv clefMeasure) =
      [(0, 0, "treble"), (0, 1, "bass"), (3 / 2, 0, "bass"), (3, 0, "alto"), (1, 1, "tenor"), (1, 1, "treble")] := by
  refine ⟨by decide, ?_, by decide, by decide, by decide +kernel⟩
  intro s hs
  apply clefsMet_spec
  revert s hs
  decide +kernel

/-- The clefs, given with their times, that are found in a saved measure of one staff with one tick per quarter note. -/
def foundClefs (voices : List (List (NoteData String))) (cs : List (Int × String)) : List (ℚ × Int × String) :=
  placedClefs (Clock.init 1) (writeMeasure { exEnv with numStaves := 1, ticksPerQuarter := 1 }
    { staves := [{ clefs := cs.map (fun c => ⟨c.1, c.2⟩), keys := [], voices := (List.range voices.length).map (fun i : Nat => ((i : Int), voices.getD i [])), directions := [] }], keys := [], barlines := [] })

/-- **C94 fails while a note sounds**: a clef for the second beat, at which no note starts, is saved at the next note, on the third beat.  If a note starts on the second beat it is right. -/
theorem C94_between_notes :
    foundClefs [[exNote 0 2 false "c", exNote 2 2 false "d"]] [(0, "G"), (1, "F")] = [(0, 0, "G"), (2, 0, "F")] ∧
    foundClefs [[exNote 0 1 false "c", exNote 1 3 false "d"]] [(0, "G"), (1, "F")] = [(0, 0, "G"), (1, 0, "F")] := by
  decide +kernel

/-- **C94 fails for notes of the second voice**: although a note of the second voice starts with the new clef on the second beat, the clef is saved at the next note of the first voice. -/
theorem C94_second_voice :
    foundClefs [[exNote 0 2 false "c", exNote 2 2 false "d"], [exNote 0 1 false "e", exNote 1 3 false "f"]] [(1, "F")] = [(2, 0, "F")] := by
  decide +kernel

/-- **C94 fails at the end of a measure whose last voice is shorter**: the clef for the end of the measure is saved where the second voice ends.  With one voice, or a complete second voice, it is right. -/
theorem C94_short_last_voice :
    foundClefs [[exNote 0 4 false "c"], [exNote 0 1 false "e"]] [(4, "F")] = [(1, 0, "F")] ∧
    foundClefs [[exNote 0 4 false "c"], [exNote 0 1 false "e", exNote 1 3 false "f"]] [(4, "F")] = [(4, 0, "F")] := by
  decide +kernel

/-- ticks and contents of the clefs of a loaded measure of one staff -/
def loadedClefs (G : Int) (es : List (Elem String)) : Option (List (Int × String)) :=
  (readMeasure ⟨1, G⟩ 1 es).map (fun m => m.staves.flatMap (fun s => s.clefs.map (fun d => (d.tick, d.content))))

/-- `<attributes>` with a clef -/
def exClef (number : Option Int) (x : String) : Elem String := .attributes { clefs := [{ number := number, content := x }] }

/-- **C94 fails between the notes of a chord**: MusicXML's position is at the end of the chord there, but the clef is loaded at its beginning. -/
theorem C94_between_notes_of_chord :
    placedClefs (Clock.init 1) [exElem false 2 "c", exClef none "F", exElem true 2 "e", exElem false 1 "d"] = [(2, 0, "F")] ∧
    loadedClefs 1 [exElem false 2 "c", exClef none "F", exElem true 2 "e", exElem false 1 "d"] = some [(0, "F")] := by
  decide +kernel

/-- clefs of a file -/
def clefsIn (file : List (Str × List (List (Child String)))) : List (List (List (ℚ × Int × String))) := file.map (fun p => partClefs 1 (partElems p.2))

/-- the same for what is saved -/
def savedClefs (s : Score String) : List (List (List (ℚ × Int × String))) := (writeScore s.ticksPerQuarter s.parts).2.map (fun p => partClefs 1 p.2)

/-- Two parts with different divisions, two staves, clefs at the beginning, inside and at the end of measures. -/
def clefFile : List (Str × List (List (Child String))) :=
  [(chars "P1", [[{ elem := .attributes { divisions := some 2000000, staves := some 2, clefs := [⟨some 1, "G"⟩, ⟨some 2, "F"⟩] } }, exN false .normal 2 (some 1) (some 1) "c", { elem := exClef (some 1) "C" },
      exN false .normal 2 (some 1) (some 1) "c", exN true .normal 2 (some 1) (some 1) "e", { elem := .backup 4000000 }, exN false .normal 1 (some 2) (some 5) "g", { elem := exClef (some 2) "G" },
      exN false .normal 3 (some 2) (some 5) "h", { elem := exClef (some 2) "F" }]]),
   (chars "P2", [[{ elem := .attributes { divisions := some 1000000, clefs := [⟨none, "C"⟩] } }, exN false .normal 1 none (some 1) "d", exN false .normal 2 none (some 1) "f"]])]

/-- Whether all clefs of a score can be saved at their times. -/
def allMet (s : Score String) : Bool := s.parts.all (fun p => p.measures.all (fun m => m.2.staves.all clefsMet))

/-- The example is loaded, its clefs can be saved at their times, and those of what is saved are at the same times. -/
example : (loadFile clefFile).map allMet = some true ∧
    clefsIn clefFile = [[[(0, 0, "G"), (0, 1, "F"), (1, 0, "C"), (1 / 2, 1, "G"), (2, 1, "F")]], [[(0, 0, "C")]]] ∧
    (loadFile clefFile).map savedClefs = some [[[(0, 0, "G"), (0, 1, "F"), (1, 0, "C"), (1 / 2, 1, "G"), (2, 1, "F")]], [[(0, 0, "C")]]] := by
  decide +kernel

/-- The clefs of the example meet the condition. -/
example : ∀ p ∈ clefFile, ∀ N, IsStaffCount N p.2 → ∀ m ∈ partElems p.2, ClefsTimed N m := by
  intro p hp N hN
  simp only [clefFile, List.mem_cons, List.not_mem_nil, or_false] at hp
  rcases hp with rfl | rfl
  · have h2 : 2 ≤ N := hN.enough 2 ⟨_, List.mem_cons_self, _, List.mem_cons_self, .inr (.inr (.inr ⟨_, rfl, rfl⟩))⟩
    simp [partElems, ClefsTimed, exClef, exN, nextIsChord]
    omega
  · simp [partElems, ClefsTimed, exN, nextIsChord]

/-- Two voices on one staff; the clef changes while the first voice holds a note. -/
def movedClefFile : List (Str × List (List (Child String))) :=
  [(chars "P1", [[{ elem := .attributes { divisions := some 1000000, clefs := [⟨none, "G"⟩] } }, exN false .normal 2 none (some 1) "e", exN false .normal 2 none (some 1) "f", { elem := .backup 4000000 },
     exN false .normal 1 none (some 2) "a", { elem := exClef none "F" }, exN false .normal 3 none (some 2) "b"]])]

/-- **C94 fails for files in which a clef changes while the first voice holds a note**: the clef is on the second beat, and after loading and saving it is on the third, so that a note of the second
voice that was in the new clef is now in the old one. -/
theorem C94_moved_by_saving : clefsIn movedClefFile = [[[(0, 0, "G"), (1, 0, "F")]]] ∧ (loadFile movedClefFile).map savedClefs = some [[[(0, 0, "G"), (2, 0, "F")]]] := by
  decide +kernel

end Mx.Props
