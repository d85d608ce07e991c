import Verif.Proofs.BarlinePass
import Verif.Props.KeyTimeProps
import Verif.Props.StringProps

/-!
# Property C96: repeats, endings and other barlines
Specification: `Verif/Spec/BarlineTime.lean`, with MusicXML's time in `Verif/Spec/MusicXMLClock.lean`.
-/
namespace Mx.Props
open _root_.Spec Mx.Measure

variable {P : Type}

theorem endingNumberOut_values {n : Int} (h : 0 < n) (h' : n ≤ INT_MAX) : (Bar.endingNumberOut n).values = [n] := by
  have hi : ∀ v ∈ [n], InInt v := by
    intro v hv
    rw [List.mem_singleton] at hv
    subst hv
    exact ⟨by have : INT_MIN = -2147483648 := rfl; omega, h'⟩
  obtain ⟨h1, h2⟩ := C20_parse_numbers ⟨[], false⟩ true [n] hi
  have hj : joined [',', ' '] ([n].map showInt) = showInt n := rfl
  simp only [if_true, hj] at h1 h2
  unfold Bar.endingNumberOut
  rw [if_pos h]
  refine sorted_ext h1 (by simp) ?_
  intro y
  rw [h2]
  simp only [List.mem_singleton]
  constructor
  · exact fun e => e.1
  · rintro rfl; exact ⟨rfl, h⟩

/-- A barline of the API that can be saved: its type is one of MusicXML; without an ending it has no ending number, and with one it has a positive number. -/
def BarDataOk (d : Bar.Data) : Prop :=
  d.barlineType ≠ .unsupported ∧ (d.endingType = .none → d.endingNumber = 0) ∧ (d.endingType ≠ .none → 0 < d.endingNumber ∧ d.endingNumber ≤ INT_MAX)

/-- The location a barline gets. -/
def givenLocation (d : Bar.Data) : Api.HorizontalAlignment :=
  if d.location = .unspecified then (if d.tick = 0 then .left else .right) else d.location

/-- **C96, one barline through a file** A barline that is saved and loaded has the same type, ending, ending number and repeat, and the location it was given (a barline without location: the left at time 0, otherwise
the right). At the right it has the last time, elsewhere the time at which it is found. -/
theorem C96_round_trip (d : Bar.Data) (h : BarDataOk d) (tick : Int) :
    Bar.parseBarline tick (Bar.writeBarline d) =
      { d with location := givenLocation d, tick := if givenLocation d = .right then TICK_TIME_INFINITY else tick } := by
  obtain ⟨h1, h2, h3⟩ := h
  obtain ⟨t, bt, et, en, rp, loc⟩ := d
  simp only at h1 h2 h3
  set d : Bar.Data := ⟨t, bt, et, en, rp, loc⟩ with hd
  have hloc : (Bar.parseBarline tick (Bar.writeBarline d)).location = givenLocation d := by
    unfold Bar.parseBarline Bar.writeBarline givenLocation
    rw [hd]
    cases loc with
    | unspecified =>
      by_cases ht : t = 0
      · simp [ht]; decide
      · simp [ht]; decide
    | left => simp; decide
    | center => simp; decide
    | right => simp; decide
  have hty : (Bar.parseBarline tick (Bar.writeBarline d)).barlineType = bt := by
    unfold Bar.parseBarline Bar.writeBarline
    rw [hd]
    cases bt <;> first | exact absurd rfl h1 | decide | (simp; decide) | rfl
  have hti : (Bar.parseBarline tick (Bar.writeBarline d)).tick = if givenLocation d = .right then TICK_TIME_INFINITY else tick := by
    rw [← hloc]; rfl
  have hrp : (Bar.parseBarline tick (Bar.writeBarline d)).isRepeat = rp := by
    unfold Bar.parseBarline Bar.writeBarline
    rw [hd]
    cases rp <;> simp
  have het : (Bar.parseBarline tick (Bar.writeBarline d)).endingType = et := by
    unfold Bar.parseBarline Bar.writeBarline
    rw [hd]
    cases et <;> first | rfl | (simp; decide)
  have hen : (Bar.parseBarline tick (Bar.writeBarline d)).endingNumber = en := by
    unfold Bar.parseBarline Bar.writeBarline
    rw [hd]
    by_cases he : et = .none
    · simp [he, h2 he]
    · simp [he, endingNumberOut_values (h3 he).1 (h3 he).2]
  generalize Bar.parseBarline tick (Bar.writeBarline d) = x at *
  obtain ⟨_, _, _, _, _, _⟩ := x
  simp only at hloc hty hti hrp het hen
  subst hloc hty hti hrp het hen
  rfl

/-- the end of the second time -/
example : BarDataOk ⟨TICK_TIME_INFINITY, .lightHeavy, .discontinue, 2, true, .right⟩ := ⟨by decide, by simp, by decide⟩

/-- **C96, saving** In a saved measure there are exactly the barlines the caller gave, in their order, each at the left, at the right or at its time in the middle.

Missing, because the code does not do it (`BarlinesMet`): barlines in the middle at times after the beginning (`C96_middle_moves`). -/
theorem C96_saved_partial (env : WEnv) (m : MeasureData P) (divisionsBefore : ℚ) (h1 : 1 ≤ env.numStaves) (hs : env.numStaves = m.staves.length) (hb : BarlinesMet m.barlines) :
    placedBarlines (Clock.init divisionsBefore) (writeMeasure env m) = expectedBarlines env.ticksPerQuarter m :=
  barlines_measure env m divisionsBefore h1 (by omega) hb

/-- **C96, loading** The barlines of a loaded measure are exactly those of the file, in their order, at their places.

Missing, because the code does not do it (`BarlinesTimed`): barlines in the middle between the notes of a chord, and barlines without location at position 0 (`C96_no_location`). The other conditions are those of C02. -/
theorem C96_loaded_partial (env : REnv) (divisions : Int) (es : List (Elem P)) (hG : 0 < env.globalTicksPerQuarter) (hdiv : 0 < divisions)
    (hw : WellTimed env.globalTicksPerQuarter (Clock.init divisions) none es) (hs : StavesExist env.numStaves es) (hd : BarlinesTimed (Clock.init divisions) es) :
    ∃ m, readMeasure env divisions es = some m ∧ expectedBarlines env.globalTicksPerQuarter m = placedBarlines (Clock.init divisions) es := by
  obtain ⟨r, h1, h2⟩ := read_follows_barlines hG rfl es (Clock.init divisions) none (initRSt divisions) hw hs hd
    ⟨hdiv, rfl, by simp [initRSt, Clock.init], wellTimed_none hw⟩
  have h2 : r.barlines.map (barOf env.globalTicksPerQuarter) = placedBarlines (Clock.init divisions) es := by simpa [initRSt] using h2
  exact ⟨measureOf env r, by unfold readMeasure; rw [h1]; rfl, by rw [expectedBarlines_read, h2]⟩

/-- The model of measures and the model of barlines read a barline in the same way. -/
theorem apiOf_read (b : Bar.Barline) (tick : Int) (st : RSt Bar.Contents) (l : Option Location) (hl : b.location.map Mx.barlinePlacementMap.toApi = l.map Bar.apiLocation) :
    (parseBarline l b.contents { st with tick := tick }).barlines.map Bar.apiOf = st.barlines.map Bar.apiOf ++ [Bar.parseBarline tick b] := by
  unfold Mx.Measure.parseBarline
  simp only [List.map_append, List.map_singleton]
  congr 2
  unfold Bar.apiOf Bar.parseBarline
  simp only
  cases hb : b.location with
  | none =>
    rw [hb] at hl
    cases l with
    | none => simp [Bar.apiLocation]
    | some x => cases hl
  | some y =>
    rw [hb] at hl
    cases l with
    | none => cases hl
    | some x =>
      simp only [Option.map_some, Option.some.injEq] at hl
      simp only [Option.getD_some, hl]
      cases x <;> simp [Bar.apiLocation]

/-- The model of measures and the model of barlines write the same location. -/
theorem apiOf_written (b : BarlineData Bar.Contents) : ∃ l, barlineElem (Bar.recode b) = .barline (some l) (Bar.writeBarline (Bar.apiOf b)).contents ∧
    (Bar.writeBarline (Bar.apiOf b)).location.map Mx.barlinePlacementMap.toApi = some (Bar.apiLocation l) := by
  obtain ⟨t, loc, c⟩ := b
  refine ⟨_, rfl, ?_⟩
  unfold Bar.writeBarline Bar.apiOf Bar.recode Bar.parseBarline
  cases loc with
  | unspecified => by_cases ht : t = 0 <;> simp [ht, Bar.apiLocation] <;> decide
  | left => simp [Bar.apiLocation]; decide
  | center => simp [Bar.apiLocation]; decide
  | right => simp [Bar.apiLocation]; decide

/-- A barline that is loaded and saved says the same. -/
theorem recode_kept (G : Int) (b : BarlineData Bar.Contents) (hr : b.location = .right → b.tick ≠ 0) (hk : BarKept (expectedPlace G b) b.content) :
    (expectedPlace G (Bar.recode b), barMeaning (Bar.recode b).content) = (expectedPlace G b, barMeaning b.content) := by
  obtain ⟨t, loc, st, en, rp⟩ := b
  obtain ⟨k1, k2, k3, k4, k5⟩ := hk
  simp only at hr k1 k2 k3 k4 k5
  refine Prod.ext rfl ?_
  simp only [barMeaning, Bar.recode]
  refine Prod.ext ?_ (Prod.ext ?_ ?_)
  · unfold Bar.writeBarline Bar.apiOf Bar.parseBarline
    cases st with
    | none => rfl
    | some s => cases s <;> first | exact absurd rfl k1 | exact absurd rfl k2 | rfl | (simp; decide)
  · unfold Bar.writeBarline Bar.apiOf Bar.parseBarline
    cases en with
    | none => rfl
    | some e =>
      obtain ⟨n, h1, h2, h3⟩ := k3 e rfl
      obtain ⟨ty, num⟩ := e
      simp only at h3
      cases ty <;>
        simp [Bar.endingTypeOf, h3, endingNumberOut_values h1 h2] <;> decide
  · unfold Bar.writeBarline Bar.apiOf Bar.parseBarline
    cases rp with
    | none => rfl
    | some d =>
      cases d with
      | forward =>
        have := k4 rfl
        cases loc with
        | unspecified => 
          by_cases ht : t = 0
          · simp [ht, Bar.apiLocation]
          · simp [expectedPlace, ht] at this
        | left => simp [Bar.apiLocation]
        | center => simp [expectedPlace] at this
        | right => simp [expectedPlace] at this
      | backward =>
        have := k5 rfl
        cases loc with
        | unspecified => 
          by_cases ht : t = 0
          · simp [expectedPlace, ht] at this
          · simp [ht, Bar.apiLocation]
        | left => simp [expectedPlace] at this
        | center => simp [expectedPlace] at this
        | right => simp [Bar.apiLocation, hr rfl]

/-- A part whose barlines have been loaded and are saved. -/
def recodePart (p : PartData Bar.Contents) : PartData Bar.Contents := { p with measures := p.measures.map (fun x => (x.1, Bar.recodeMeasure x.2)) }

theorem recode_met {bs : List (BarlineData Bar.Contents)} (h : BarlinesMet bs) : BarlinesMet (bs.map Bar.recode) := by
  refine ⟨?_, ?_⟩
  · intro b hb
    obtain ⟨x, hx, rfl⟩ := List.mem_map.mp hb
    exact h.1 x hx
  · intro before b after e hc
    obtain ⟨x, y, e1, e2, e3⟩ := List.map_eq_append_iff.mp e
    obtain ⟨z, w, e4, e5, e6⟩ := List.map_eq_cons_iff.mp e3
    subst e2 e5
    obtain ⟨g1, g2⟩ := h.2 x z w (by rw [e1, e4]) hc
    refine ⟨g1, ?_⟩
    intro a ha
    obtain ⟨q, hq, rfl⟩ := List.mem_map.mp ha
    exact g2 q hq

/-- **C96, a whole file** A file is loaded, and what was loaded is saved.  Then, part by part and measure by measure, it has exactly the same barlines in the same order and at the same places, with the same styles, endings
and repeats.

The conditions are those of C92 and the ones above; the barlines of the file are `BarKept`: the API has no styles "tick" and "short" (`C96_short_barline`), only one number per ending (`C96_endings_lost`) and no direction
of repeats (`C96_middle_repeat`). -/
theorem C96_through_partial (file : List (Str × List (List (Child Bar.Contents)))) (s : Score Bar.Contents) (hne : file ≠ []) (hids : (file.map (·.1)).Nodup) (hf : ∀ p ∈ file, PlainPart p.2)
    (hl : getScore (file.map (·.1)) file = some (s.ticksPerQuarter, s.parts.map (fun p => p.measures.map (·.2)))) (ht : 0 < s.ticksPerQuarter)
    (hd : ∀ p ∈ file, PartBarlinesTimed 1 (partElems p.2)) (hk : ∀ p ∈ file, ∀ m ∈ partBarlines 1 (partElems p.2), ∀ b ∈ m, BarKept b.1 b.2)
    (hc : ∀ p ∈ s.parts, ∀ m ∈ p.measures, BarlinesMet m.2.barlines) :
    List.Forall₂ (fun p q => (partBarlines 1 (partElems p.2)).map barsSay = (partBarlines 1 q.2).map barsSay) file (writeScore s.ticksPerQuarter (s.parts.map recodePart)).2 := by
  have h := file_loaded hids hf hl ht
  rw [List.forall₂_map_left_iff, List.forall₂_map_right_iff] at h
  have hbars : List.Forall₂ (LoadedBarlines s.ticksPerQuarter) (file.map (·.2)) (s.parts.map (fun p => p.measures.map (·.2))) := by
    unfold getScore at hl
    cases hm : findMaxDivisionsPerQuarter (file.map (fun p => partElems p.2)) with
    | error e => rw [hm] at hl; cases hl
    | ok G' =>
      rw [hm] at hl
      simp only [Option.map_eq_some_iff, Prod.mk.injEq] at hl
      obtain ⟨o', h1, rfl, rfl⟩ := hl
      rw [reconcile_all file hids] at h1
      obtain ⟨o2, g1, g2⟩ := getParts_barlines ht (file.map (·.2)) (-1) (by
        intro p hp
        obtain ⟨q, hq, rfl⟩ := List.mem_map.mp hp
        refine ⟨hf q hq, ?_, fun _ _ => hd q hq⟩
        intro m hm' a ha k hk hx
        have := (C05_scale_is_least_common_multiple _ _ hm).1 (partElems q.2) (List.mem_map.mpr ⟨q, hq, rfl⟩) m hm' a ha _ hx
        have hr : roundMicro (k * 1000000) = k := roundMicro_mul k
        rw [hr] at this
        exact this hk)
      rw [h1] at g1
      cases g1
      exact g2
  rw [List.forall₂_map_left_iff, List.forall₂_map_right_iff] at hbars
  have hp : s.parts ≠ [] := by
    intro e
    rw [e] at h
    cases h
    exact hne rfl
  obtain ⟨q, qs, hq⟩ := List.exists_cons_of_ne_nil hp
  have hw : (writeScore s.ticksPerQuarter (s.parts.map recodePart)).2 = s.parts.map (fun q => (xsID q.uniqueId, writePart s.ticksPerQuarter q.transposition (recodePart q).measures)) := by
    rw [hq]
    simp only [List.map_cons, writeScore, List.map_map, List.cons.injEq]
    exact ⟨rfl, rfl⟩
  rw [hw, List.forall₂_map_right_iff]
  rw [List.forall₂_iff_get] at h hbars ⊢
  refine ⟨h.1, ?_⟩
  intro i h1 h2
  have hL := h.2 i h1 h2
  have hB := hbars.2 i h1 h2
  simp only
  generalize hpi : file.get ⟨i, h1⟩ = p at hL hB
  have hpm : p ∈ file := by rw [← hpi]; exact List.get_mem _ _
  generalize hqi : s.parts.get ⟨i, h2⟩ = q at hL hB
  have hqm : q ∈ s.parts := by rw [← hqi]; exact List.get_mem _ _
  obtain ⟨N, h1N, hne', hm, _⟩ := hL
  have hne'' : (recodePart q).measures ≠ [] := by
    intro e
    apply hne'
    have : q.measures = [] := List.map_eq_nil_iff.mp e
    rw [this]; rfl
  rw [partBarlines_written ht _ N h1N (recodePart q).measures hne'' (by
    intro x hx
    obtain ⟨y, hy, rfl⟩ := List.mem_map.mp hx
    exact ⟨(hm _ (List.mem_map_of_mem hy)).1, recode_met (hc q hqm y hy)⟩) 1]
  unfold LoadedBarlines at hB
  rw [List.forall₂_map_right_iff] at hB
  simp only [recodePart, List.map_map]
  have hkp := hk p hpm
  generalize partBarlines 1 (partElems p.2) = ds at hB hkp
  clear hne' hne'' hm hpi hqi hqm
  generalize q.measures = qms at hB ⊢
  induction hB with
  | nil => rfl
  | @cons a x as xs hab _ ih =>
    rw [List.map_cons, List.map_cons, ih (fun m hm => hkp m (List.mem_cons_of_mem _ hm))]
    congr 1
    rw [← hab.1]
    simp only [Function.comp, Bar.recodeMeasure, expectedBarlines, barsSay, List.map_map]
    apply List.map_congr_left
    intro b hb
    have hbk : BarKept (expectedPlace s.ticksPerQuarter b) b.content := by
      have := hkp a (by simp) (expectedPlace s.ticksPerQuarter b, b.content) (by rw [← hab.1]; exact List.mem_map.mpr ⟨b, hb, rfl⟩)
      exact this
    exact (recode_kept s.ticksPerQuarter b (hab.2 b hb) hbk).symm

/-! ### examples -/

/-- what a barline says -/
abbrev BarSays := Option Core.BarStyleEnum × Option (Core.StartStopDiscontinue × List Int) × Option Core.BackwardForward

instance : DecidableEq BarSays := inferInstance
instance : DecidableEq (List (BarPlace × BarSays)) := inferInstance
instance : DecidableEq (List (List (BarPlace × BarSays))) := inferInstance
instance : DecidableEq (List (List (List (BarPlace × BarSays)))) := inferInstance
instance : DecidableEq (Option (List (List (List (BarPlace × BarSays))))) := inferInstance

/-- nothing -/
def noBar : Bar.Contents := ⟨none, none, none⟩

/-- a quarter note or longer -/
def barNote (dur : Int) : Child Bar.Contents := { elem := .note ⟨false, .normal, dur * 1000000, none, some 1, noBar⟩ }

/-- a `<barline>` -/
def barChild (l : Option Location) (style : Option Core.BarStyleEnum) (ending : Option (Core.StartStopDiscontinue × String)) (r : Option Core.BackwardForward) : Child Bar.Contents :=
  { elem := .barline l ⟨style, ending.map (fun e => ⟨e.1, CommaInts.parse ⟨[], false⟩ e.2.toList⟩), r⟩ }

/-- A file of one part is loaded; what was loaded. -/
def loadBars (file : List (Str × List (List (Child Bar.Contents)))) : Option (Score Bar.Contents) :=
  (getScore (file.map (·.1)) file).map (fun r =>
    { ticksPerQuarter := r.1, parts := List.zipWith (fun i ms => { uniqueId := i, measures := ms.map (fun m => (exExtras, m)) }) (file.map (·.1)) r.2 })

/-- what the barlines of a file say -/
def barsIn (file : List (Str × List (List (Child Bar.Contents)))) : List (List (List (BarPlace × BarSays))) := file.map (fun p => (partBarlines 1 (partElems p.2)).map barsSay)

/-- the same for what is saved -/
def savedBars (s : Score Bar.Contents) : List (List (List (BarPlace × BarSays))) := (writeScore s.ticksPerQuarter (s.parts.map recodePart)).2.map (fun p => (partBarlines 1 p.2).map barsSay)

/-- one part with the given measures, one division per quarter note -/
def barFile (ms : List (List (Child Bar.Contents))) : List (Str × List (List (Child Bar.Contents))) := [(chars "P1", ({ elem := .attributes { divisions := some 1000000 } } :: ms.headD []) :: ms.tail)]

/-- Two measures that are repeated, with a first and a second ending, a dashed line at the beginning of the second one, and a final barline without location. -/
def repeatFile : List (Str × List (List (Child Bar.Contents))) :=
  barFile [[barChild (some .left) (some .heavyLight) none (some .forward), barNote 2, barNote 2],
    [barChild (some .left) none (some (.start, "1")) none, barChild (some .center) (some .dashed) none none, barNote 4, barChild (some .right) (some .lightHeavy) (some (.stop, "1")) (some .backward)],
    [barChild (some .left) none (some (.start, "2")) none, barNote 4, barChild none (some .lightHeavy) (some (.discontinue, "2")) none]]

/-- The barlines of the example and what is saved after it was loaded. -/
example : barsIn repeatFile =
      [[[(.left, some .heavyLight, none, some .forward)],
        [(.left, none, some (.start, [1]), none), (.middle 0, some .dashed, none, none), (.right, some .lightHeavy, some (.stop, [1]), some .backward)],
        [(.left, none, some (.start, [2]), none), (.right, some .lightHeavy, some (.discontinue, [2]), none)]]] ∧
    (loadBars repeatFile).map savedBars = some (barsIn repeatFile) := by
  decide +kernel

/-- The example meets the condition of the theorem. -/
example : ∀ p ∈ repeatFile, PartBarlinesTimed 1 (partElems p.2) := by
  intro p hp
  simp only [repeatFile, barFile, List.mem_singleton] at hp
  subst hp
  simp [partElems, PartBarlinesTimed, BarlinesTimed, barChild, barNote, nextIsChord, Clock.init, Clock.step, Clock.quarters, divisionsAfter]

/-- `BarKept` as a test of the values. -/
def barKept (p : BarPlace) (x : Bar.Contents) : Bool :=
  decide (x.style ≠ some .tick) && decide (x.style ≠ some .short_) &&
  x.ending.all (fun e => decide (e.number.values.length = 1) && e.number.values.all (fun n => decide (0 < n ∧ n ≤ INT_MAX))) &&
  decide (x.repeats = some .forward → p = .left) && decide (x.repeats = some .backward → p = .right)

theorem barKept_spec {p : BarPlace} {x : Bar.Contents} (h : barKept p x = true) : BarKept p x := by
  simp only [barKept, Bool.and_eq_true, decide_eq_true_eq] at h
  obtain ⟨⟨⟨⟨h1, h2⟩, h3⟩, h4⟩, h5⟩ := h
  refine ⟨h1, h2, ?_, h4, h5⟩
  intro e he
  rw [Option.mem_def.mp he] at h3
  simp only [Option.all_some, Bool.and_eq_true, decide_eq_true_eq, List.all_eq_true] at h3
  obtain ⟨g1, g2⟩ := h3
  obtain ⟨n, hn⟩ := List.length_eq_one_iff.mp g1
  exact ⟨n, (g2 n (by simp [hn])).1, (g2 n (by simp [hn])).2, hn⟩

example : ∀ p ∈ repeatFile, ∀ m ∈ partBarlines 1 (partElems p.2), ∀ b ∈ m, BarKept b.1 b.2 := by
  have h : (repeatFile.all fun p => (partBarlines 1 (partElems p.2)).all fun m => m.all fun b => barKept b.1 b.2) = true := by decide +kernel
  simp only [List.all_eq_true] at h
  exact fun p hp m hm b hb => barKept_spec (h p hp m hm b hb)

/-- The barlines of the second measure of the example can be saved. -/
example : BarlinesMet [(⟨0, .left, noBar⟩ : BarlineData Bar.Contents), ⟨0, .center, noBar⟩, ⟨TICK_TIME_INFINITY, .right, noBar⟩] ∧
    (loadBars repeatFile).map (fun s => s.parts.map (fun p => p.measures.map (fun m => m.2.barlines.map (fun b => (b.tick, b.location))))) =
      some [[[(0, .left)], [(0, .left), (0, .center), (TICK_TIME_INFINITY, .right)], [(0, .left), (4, .unspecified)]]] := by
  refine ⟨⟨by decide, ?_⟩, by decide +kernel⟩
  intro before b after e hc
  match before, e with
  | [], e => simp at e; rw [← e.1] at hc; cases hc
  | [_], e => simp at e; obtain ⟨rfl, rfl, _⟩ := e; simp
  | [_, _], e => simp at e; rw [← e.2.2.1] at hc; cases hc
  | _ :: _ :: _ :: _, e => simp at e

/-- A barline in the middle after two quarter notes. -/
def middleFile (r : Option Core.BackwardForward) : List (Str × List (List (Child Bar.Contents))) := barFile [[barNote 2, barChild (some .center) (some .dashed) none r, barNote 2]]

/-- **C96 fails for barlines in the middle**: a dashed barline after two of four quarter notes is saved after all of them. -/
theorem C96_middle_moves : barsIn (middleFile none) = [[[(.middle 2, some .dashed, none, none)]]] ∧ (loadBars (middleFile none)).map savedBars = some [[[(.middle 4, some .dashed, none, none)]]] := by
  decide +kernel

/-- **C96 fails for the direction of repeats in the middle**: a repeat that begins in the middle of a measure is saved as the end of a repeat. -/
theorem C96_middle_repeat :
    barsIn (middleFile (some .forward)) = [[[(.middle 2, some .dashed, none, some .forward)]]] ∧
    (loadBars (middleFile (some .forward))).map savedBars = some [[[(.middle 4, some .dashed, none, some .backward)]]] := by
  decide +kernel

/-- **C96 fails for endings of several times**: of an ending for the first and the second time only the first is left. -/
theorem C96_endings_lost :
    let f := barFile [[barChild (some .left) none (some (.start, "1, 2")) none, barNote 4]]
    barsIn f = [[[(.left, none, some (.start, [1, 2]), none)]]] ∧ (loadBars f).map savedBars = some [[[(.left, none, some (.start, [1]), none)]]] := by
  decide +kernel

/-- **C96 fails for endings without number**: an ending whose number is blank, as MusicXML allows, becomes an ending for the first time. -/
theorem C96_blank_ending :
    let f := barFile [[barChild (some .left) none (some (.start, " ")) none, barNote 4]]
    barsIn f = [[[(.left, none, some (.start, []), none)]]] ∧ (loadBars f).map savedBars = some [[[(.left, none, some (.start, [1]), none)]]] := by
  decide +kernel

/-- **C96 fails for short barlines and ticks**: their style is lost, so that they become regular barlines. -/
theorem C96_short_barline :
    let f := barFile [[barNote 4, barChild (some .right) (some .short_) none none], [barNote 4, barChild (some .right) (some .tick) none none]]
    barsIn f = [[[(.right, some .short_, none, none)], [(.right, some .tick, none, none)]]] ∧ (loadBars f).map savedBars = some [[[(.right, none, none, none)], [(.right, none, none, none)]]] := by
  decide +kernel

/-- **C96 fails for barlines without location at the beginning of the document's measure**: by MusicXML's default this is the right barline and the end of a repeat; what is saved is the left barline and the beginning of a
repeat. -/
theorem C96_no_location :
    let f := barFile [[barChild none (some .lightHeavy) none (some .backward), barNote 4]]
    barsIn f = [[[(.right, some .lightHeavy, none, some .backward)]]] ∧ (loadBars f).map savedBars = some [[[(.left, some .lightHeavy, none, some .forward)]]] := by
  decide +kernel

/-- **C96 fails for right barlines at time 0**: a caller who sets the location to the right and leaves the time alone (0 by default) gets the beginning of a repeat at the right barline; with the largest time it is the
end. -/
theorem C96_right_repeat :
    Bar.writeBarline ⟨0, .lightHeavy, .none, 0, true, .right⟩ = ⟨some .right, some .lightHeavy, none, some .forward⟩ ∧
    Bar.writeBarline ⟨TICK_TIME_INFINITY, .lightHeavy, .none, 0, true, .right⟩ = ⟨some .right, some .lightHeavy, none, some .backward⟩ := by
  decide +kernel

end Mx.Props
