import Verif.Spec.NoteDetails
import Verif.Proofs.Properties
import Verif.Proofs.ApiData

open Spec
namespace Mx
open Mx.Spec
open Measure (NoteKind)

attribute [ext] PitchData DurationNames NoteDetails

/-! ### Beams -/

/-- The beam elements for a list of beams, numbered from `i + 1`. -/
def beamXmls (i : Nat) : List Api.Beam → List BeamXml
  | [] => []
  | b :: bs => { number := some (IntRange.ofKind .BeamLevel ((i : Int) + 1)).toStr, value := StringEnum.toStr (MapName.beamMap.toCore b : Core.BeamValue) } :: beamXmls (i + 1) bs

theorem writeBeamsFrom_eq (bs : List Api.Beam) : ∀ (i : Nat) (set : List BeamXml), writeBeamsFrom i set bs = set ++ beamXmls i (bs.take (8 - set.length)) := by
  induction bs with
  | nil => intro i set; simp [writeBeamsFrom, beamXmls]
  | cons b bs ih =>
    intro i set
    rw [writeBeamsFrom, ih]
    by_cases h : set.length < 8
    · rw [if_pos h]
      obtain ⟨k, hk⟩ : ∃ k, 8 - set.length = k + 1 := ⟨7 - set.length, by omega⟩
      rw [hk, List.take_succ_cons, beamXmls]
      have : 8 - (set ++ [({ number := some (IntRange.ofKind .BeamLevel ((i : Int) + 1)).toStr, value := StringEnum.toStr (MapName.beamMap.toCore b : Core.BeamValue) } : BeamXml)]).length = k := by
        rw [List.length_append, List.length_singleton]; omega
      rw [this, List.append_assoc]; rfl
    · rw [if_neg h]
      have : 8 - set.length = 0 := by omega
      rw [this, List.take_zero, List.take_zero]
      simp [beamXmls]

theorem writeBeams_eq (bs : List Api.Beam) : writeBeams bs = beamXmls 0 (bs.take 8) := by
  rw [writeBeams, writeBeamsFrom_eq]; simp

theorem mapPut_last {V : Type} {k : Int} {v : V} : ∀ {m : List (Int × V)}, (∀ p ∈ m, p.1 < k) → mapPut k v m = m ++ [(k, v)]
  | [], _ => rfl
  | (k', v') :: m, h => by
    have h1 := h (k', v') List.mem_cons_self
    simp only at h1
    rw [mapPut, if_neg (by omega), if_neg (by omega), mapPut_last (fun p hp => h p (List.mem_cons_of_mem _ hp))]
    rfl

/-- The pairs of the map for beams numbered from `i + 1`. -/
def beamPairs (i : Nat) : List Api.Beam → List (Int × Core.BeamValue)
  | [] => []
  | b :: bs => ((i : Int) + 1, MapName.beamMap.toCore b) :: beamPairs (i + 1) bs

theorem beamPairs_append (bs cs : List Api.Beam) : ∀ i, beamPairs i (bs ++ cs) = beamPairs i bs ++ beamPairs (i + bs.length) cs := by
  induction bs with
  | nil => intro i; simp [beamPairs]
  | cons b bs ih => intro i; simp only [List.cons_append, beamPairs, ih, List.length_cons]; rw [show i + 1 + bs.length = i + (bs.length + 1) by omega]

theorem beamPairs_bounds (bs : List Api.Beam) : ∀ i, ∀ p ∈ beamPairs i bs, (i : Int) < p.1 ∧ p.1 ≤ (i : Int) + bs.length := by
  induction bs with
  | nil => intro i p hp; exact absurd hp List.not_mem_nil
  | cons b bs ih =>
    intro i p hp
    rcases List.mem_cons.mp hp with rfl | hp
    · simp only [List.length_cons]; push_cast; omega
    · have := ih (i + 1) p hp
      simp only [List.length_cons]
      push_cast at this ⊢
      omega

theorem beamValue_back (b : Api.Beam) : (parseEnum (StringEnum.toStr (MapName.beamMap.toCore b : Core.BeamValue)) : Core.BeamValue) = MapName.beamMap.toCore b := by
  cases b <;> rfl

theorem readBeamsFrom_eq (bs : List Api.Beam) : ∀ (i : Nat) (start : Int) (cs : List Api.Beam), cs.length = i → i + bs.length ≤ 8 →
    readBeamsFrom start (beamPairs 0 cs) (beamXmls i bs) = beamPairs 0 (cs ++ bs) := by
  induction bs with
  | nil => intro i start cs _ _; simp [beamXmls, readBeamsFrom]
  | cons b bs ih =>
    intro i start cs hc hl
    rw [List.length_cons] at hl
    have hnum : parseBounded .BeamLevel (IntRange.ofKind .BeamLevel ((i : Int) + 1)).toStr = (i : Int) + 1 :=
      parseBounded_text (by unfold InInt INT_MIN INT_MAX; omega) (by constructor <;> simp only [IntKind.bounds] <;> omega)
    have hlt : ∀ p ∈ beamPairs 0 cs, p.1 < (i : Int) + 1 := fun p hp => by
      have := beamPairs_bounds cs 0 p hp
      push_cast at this
      omega
    have hany : (beamPairs 0 cs).any (fun p => decide (p.1 = (i : Int) + 1)) = false := by
      rw [List.any_eq_false]
      intro p hp
      have := hlt p hp
      simp only [decide_eq_true_eq]
      omega
    rw [beamXmls, readBeamsFrom]
    have hidx : beamIndex start (beamPairs 0 cs) { number := some (IntRange.ofKind .BeamLevel ((i : Int) + 1)).toStr, value := StringEnum.toStr (MapName.beamMap.toCore b : Core.BeamValue) } = (i : Int) + 1 := by
      unfold beamIndex
      show (if _ then _ else _) = _
      rw [hnum, hany]
      rfl
    rw [hidx, mapPut_last hlt]
    simp only
    rw [beamValue_back]
    have he : beamPairs 0 cs ++ [((i : Int) + 1, (MapName.beamMap.toCore b : Core.BeamValue))] = beamPairs 0 (cs ++ [b]) := by
      rw [beamPairs_append]; simp only [beamPairs, hc, Nat.zero_add]
    rw [he, ih (i + 1) (start + 1) (cs ++ [b]) (by rw [List.length_append, hc]; rfl) (by omega), List.append_assoc]
    rfl

theorem beam_back (b : Api.Beam) : (MapName.beamMap.toApi (MapName.beamMap.toCore b : Core.BeamValue) : Api.Beam) = if b = .unspecified then .begin else b := by
  cases b <;> rfl

theorem beamPairs_values (bs : List Api.Beam) : ∀ i, (beamPairs i bs).map (fun p => (MapName.beamMap.toApi p.2 : Api.Beam)) = bs.map (fun b => if b = .unspecified then .begin else b) := by
  induction bs with
  | nil => intro i; rfl
  | cons b bs ih => intro i; simp only [beamPairs, List.map_cons, ih, beam_back]

/-- What comes back of a list of beams. -/
theorem beams_back (bs : List Api.Beam) : readBeams (writeBeams bs) = (bs.take 8).map (fun b => if b = .unspecified then .begin else b) := by
  rw [writeBeams_eq, readBeams]
  have := readBeamsFrom_eq (bs.take 8) 0 0 [] rfl (by rw [List.length_take]; omega)
  rw [show ([] : List (Int × Core.BeamValue)) = beamPairs 0 [] from rfl, this, List.nil_append, beamPairs_values]

/-! ### The parts of a note -/

theorem clamp_octave {o : Int} (h : InInt o) : parseBounded .OctaveValue (IntRange.ofKind .OctaveValue o).toStr = max 0 (min 9 o) := by
  have hval : parseBounded .OctaveValue (IntRange.ofKind .OctaveValue o).toStr = (IntRange.ofKind .OctaveValue o).value := by
    rw [parseBounded, IntRange.default, Props.C17_int_round_trip .OctaveValue o 0 h]
  rw [hval]
  show clampInt 0 9 o = _
  unfold clampInt
  split_ifs <;> omega

theorem step_back (s : Api.Step) : (MapName.stepMap.toApi (parseEnum (StringEnum.toStr (MapName.stepMap.toCore s : Core.StepEnum)) : Core.StepEnum) : Api.Step) =
    if s = .unspecified then .c else s := by cases s <;> rfl

theorem alter_back {p : PitchData} (ha : InInt p.alter) (hc : CentsFit p.alter p.cents) : ∃ x, writeAlter p = some x ∧ readAlter x = some (p.alter, p.cents) := by
  unfold writeAlter
  by_cases h : p.alter ≠ 0 ∨ p.cents ≠ 0
  · obtain ⟨s, e1, e2, e3⟩ := alter_text ha hc
    refine ⟨some s, by rw [if_pos h, e1]; rfl, ?_⟩
    rw [readAlter, e2, Option.bind_some, e3]
  · refine ⟨none, by rw [if_neg h], ?_⟩
    push Not at h
    rw [readAlter, h.1, h.2]

theorem yes_back : isYes (some (StringEnum.toStr Core.YesNo.yes)) = true := rfl

theorem accidentalName_back (a : Api.Accidental) : (MapName.accidentalMap.toApi (parseEnum (StringEnum.toStr (MapName.accidentalMap.toCore a : Core.AccidentalValue)) : Core.AccidentalValue) : Api.Accidental) =
    if a = .none then (MapName.accidentalMap.toApi (parseEnum (StringEnum.toStr (MapName.accidentalMap.toCore Api.Accidental.none : Core.AccidentalValue)) : Core.AccidentalValue) : Api.Accidental) else
    if a = .sharpSharp then .natural else a := by
  cases a <;> decide +kernel

theorem accidental_back (p : PitchData) (q : PitchData) (h1 : q.isAccidentalParenthetical = false) (h2 : q.isAccidentalCautionary = false)
    (h3 : q.isAccidentalEditorial = false) (h4 : q.isAccidentalBracketed = false) :
    readAccidental (writeAccidental p) q = { q with accidental := if p.accidental = .sharpSharp then .natural else p.accidental } := by
  unfold writeAccidental
  by_cases h : p.accidental = .none
  · rw [if_neg (not_not_intro h), h]; rfl
  · rw [if_pos h]
    have := accidentalName_back p.accidental
    rw [if_neg h] at this
    rw [readAccidental]
    simp only
    rw [this, h1, h2, h3, h4]
    rfl

theorem name_back (d : Api.DurationName) : (MapName.durationMap.toApi (parseEnum (StringEnum.toStr (MapName.durationMap.toCore d : Core.NoteTypeValue)) : Core.NoteTypeValue) : Api.DurationName) =
    if d = .unspecified then .maxima else d := by cases d <;> rfl

theorem nameCore_back (d : Api.DurationName) : (parseEnum (StringEnum.toStr (MapName.durationMap.toCore d : Core.NoteTypeValue)) : Core.NoteTypeValue) = MapName.durationMap.toCore d := by
  cases d <;> rfl

theorem nameCore_ne : ∀ t d : Api.DurationName, t ≠ .unspecified →
    ((MapName.durationMap.toCore t : Core.NoteTypeValue) ≠ MapName.durationMap.toCore d ↔ t ≠ if d = .unspecified then .maxima else d) := by
  intro t d
  cases t <;> cases d <;> decide

theorem nameApi (t : Api.DurationName) (h : t ≠ .unspecified) : (MapName.durationMap.toApi (MapName.durationMap.toCore t : Core.NoteTypeValue) : Api.DurationName) = t := by
  cases t <;> first | exact absurd rfl h | rfl

theorem notehead_back (h : Api.Notehead) : (MapName.noteheadMap.toApi
    (((if h ≠ .normal then some (StringEnum.toStr (MapName.noteheadMap.toCore h : Core.NoteheadValue)) else none).map (fun t => (parseEnum t : Core.NoteheadValue))).getD .normal) : Api.Notehead) =
    if h = .faUp then .none else h := by cases h <;> rfl

theorem stem_back (s : Api.Stem) : ((if s = .unspecified then none else some (StringEnum.toStr (MapName.stemMap.toCore s : Core.StemValue))).map
    (fun t => (MapName.stemMap.toApi (parseEnum t : Core.StemValue) : Api.Stem))).getD .unspecified = s := by cases s <;> rfl

theorem ties_back (n : NoteDetails) : (if n.noteType = .cue then false else hasTie .start (writeTies n)) = (n.isTieStart && decide (n.noteType ≠ .cue)) ∧
    (if n.noteType = .cue then false else hasTie .stop (writeTies n)) = (n.isTieStop && decide (n.noteType ≠ .cue)) := by
  have key : ∀ (k : NoteKind) (a b : Bool),
      (if k = .cue then false else hasTie .start (if k = .cue then [] else (if b then [StringEnum.toStr Core.StartStop.stop] else []) ++ (if a then [StringEnum.toStr Core.StartStop.start] else []))) = (a && decide (k ≠ .cue)) ∧
      (if k = .cue then false else hasTie .stop (if k = .cue then [] else (if b then [StringEnum.toStr Core.StartStop.stop] else []) ++ (if a then [StringEnum.toStr Core.StartStop.start] else []))) = (b && decide (k ≠ .cue)) := by
    intro k a b
    cases k <;> cases a <;> cases b <;> exact ⟨rfl, rfl⟩
  exact key n.noteType n.isTieStart n.isTieStop

theorem natInt_back {v : Int} (h : InInt v) (h0 : 0 ≤ v) : parseBounded .NonNegativeInteger (IntRange.ofKind .NonNegativeInteger v).toStr = v :=
  parseBounded_text h ⟨h0, h.2⟩

/-- The sound of a note. -/
theorem sound_back (n : NoteDetails) (hn : NoteNumbers n) : ∃ s, writeSound n = some s ∧
    readSound s = some (n.isRest, n.isRest && n.isMeasureRest, !n.isRest && n.isUnpitched, false,
      { keptPitch (NoteDetails.isPitched n) n.pitchData with accidental := .none }) := by
  obtain ⟨h1, h2, _, _, h5⟩ := hn
  unfold writeSound
  cases hr : n.isRest with
  | true =>
    refine ⟨_, if_pos rfl, ?_⟩
    have hp : NoteDetails.isPitched n = false := by rw [NoteDetails.isPitched, hr]; rfl
    rw [hp]
    cases n.isMeasureRest <;> rfl
  | false =>
    rw [if_neg (by simp)]
    cases hu : n.isUnpitched with
    | true =>
      refine ⟨_, if_pos rfl, ?_⟩
      have hp : NoteDetails.isPitched n = false := by rw [NoteDetails.isPitched, hr, hu]; rfl
      rw [hp]
      rfl
    | false =>
      rw [if_neg (by simp)]
      have hp : NoteDetails.isPitched n = true := by rw [NoteDetails.isPitched, hr, hu]; rfl
      obtain ⟨x, e1, e2⟩ := alter_back h2 (h5 hr hu)
      refine ⟨_, by rw [e1]; rfl, ?_⟩
      rw [readSound, e2, hp]
      show some (_, _, _, _, _) = _
      rw [step_back, clamp_octave h1]
      rfl

theorem isModified_iff (d : DurationNames) : isModified d = true ↔ 0 < d.normalNotes ∧ 0 < d.actualNotes ∧ (1 < d.normalNotes ∨ 1 < d.actualNotes) := by
  rw [isModified, decide_eq_true_eq]

theorem modification_back (t : Core.NoteTypeValue) (name : Api.DurationName) (ht : t = MapName.durationMap.toCore name) (hname : name ≠ .unspecified)
    (shown : Option (Api.DurationName × Nat)) (hs : ∀ p, shown = some p → p.1 ≠ .unspecified) (d : DurationNames) (h1 : InInt d.actualNotes) (h2 : InInt d.normalNotes) :
    (readTimeModification t (writeTimeModification shown d)).1 = (if isModified d then d.actualNotes else 1) ∧
    (readTimeModification t (writeTimeModification shown d)).2.1 = (if isModified d then d.normalNotes else 1) ∧
    keepNormalType t ((readTimeModification t (writeTimeModification shown d)).2.2.1, (readTimeModification t (writeTimeModification shown d)).2.2.2) =
      keptNormal (isModified d) name shown := by
  unfold writeTimeModification
  by_cases h : 0 < d.normalNotes ∧ 0 < d.actualNotes ∧ (1 < d.normalNotes ∨ 1 < d.actualNotes)
  · rw [if_pos h, (isModified_iff d).mpr h]
    simp only [readTimeModification, if_true]
    refine ⟨natInt_back h1 (by omega), natInt_back h2 (by omega), ?_⟩
    cases shown with
    | none =>
      show keepNormalType t (t, 0) = _
      rw [keepNormalType, if_neg (by simp)]; rfl
    | some p =>
      obtain ⟨u, k⟩ := p
      have hu : u ≠ .unspecified := hs _ rfl
      show keepNormalType t ((parseEnum (StringEnum.toStr (MapName.durationMap.toCore u : Core.NoteTypeValue)) : Core.NoteTypeValue), (k : Int)) = _
      rw [nameCore_back, keepNormalType, keptNormal]
      have hne := nameCore_ne u name hu
      rw [if_neg hname] at hne
      simp only [true_and]
      by_cases hk : 0 < k ∧ u ≠ name
      · rw [if_pos hk, if_pos ⟨by simpa using hk.1, by rw [ht]; exact hne.mpr hk.2⟩, nameApi u hu]
      · rw [if_neg hk, if_neg]
        rintro ⟨a, b⟩
        rw [ht] at b
        exact hk ⟨by simpa using a, hne.mp b⟩
  · have hm : isModified d = false := by
      rw [← Bool.not_eq_true, isModified_iff]; exact h
    rw [if_neg h, hm]
    refine ⟨rfl, rfl, ?_⟩
    have hr : keptNormal false name shown = (.unspecified, 0) := by
      cases shown <;> simp [keptNormal]
    rw [hr]
    show keepNormalType t (.maxima, 0) = _
    rw [keepNormalType, if_neg (by simp)]

theorem defaultName (d : Api.DurationName) : (MapName.durationMap.toCore d : Core.NoteTypeValue) =
    MapName.durationMap.toCore (if d = .unspecified then .maxima else d) ∧ (if d = .unspecified then Api.DurationName.maxima else d) ≠ .unspecified := by
  cases d <;> decide

/-- The names of a note. -/
theorem duration_back (G : Int) (dv : ℚ) (shown : Option (Api.DurationName × Nat)) (hs : ∀ p, shown = some p → p.1 ≠ .unspecified) (n : NoteDetails) (x : NoteXml)
    (hn : NoteNumbers n) (h1 : x.type = writeType n) (h2 : x.dots = n.durationData.durationDots.toNat)
    (h3 : x.timeModification = writeTimeModification shown n.durationData) :
    readDuration G dv x = keptDuration (n.isRest && n.isMeasureRest) (deriveNoteType G dv) shown n.durationData := by
  obtain ⟨_, _, ha, hno, _⟩ := hn
  unfold readDuration keptDuration
  rw [h1, h2, h3]
  have hd : ((n.durationData.durationDots.toNat : Nat) : Int) = max 0 n.durationData.durationDots := by omega
  rw [hd]
  by_cases hr : n.isRest = true ∧ n.isMeasureRest = true
  · have hb : (n.isRest && n.isMeasureRest) = true := by rw [hr.1, hr.2]; rfl
    have hw : writeType n = none := by rw [writeType, if_pos hr]
    obtain ⟨e1, e2, e3⟩ := modification_back .maxima .maxima rfl (by decide) shown hs n.durationData ha hno
    rw [hw, hb]
    simp only [Option.map_none, Option.getD_none, e1, e2, e3, if_true]
  · have hb : (n.isRest && n.isMeasureRest) = false := by
      rw [← Bool.not_eq_true, Bool.and_eq_true]; exact hr
    have hw : writeType n = some (StringEnum.toStr (MapName.durationMap.toCore n.durationData.durationName : Core.NoteTypeValue)) := by
      rw [writeType, if_neg hr]
    obtain ⟨d1, d2⟩ := defaultName n.durationData.durationName
    obtain ⟨e1, e2, e3⟩ := modification_back (MapName.durationMap.toCore n.durationData.durationName) _ d1 d2 shown hs n.durationData ha hno
    rw [hw, hb]
    simp only [Option.map_some, Option.getD_some, Bool.false_eq_true, if_false]
    rw [name_back, nameCore_back, e1, e2, e3]

/-- The whole note. -/
theorem note_back (G : Int) (dv : ℚ) (shown : Option (Api.DurationName × Nat)) (hs : ∀ p, shown = some p → p.1 ≠ .unspecified) (n : NoteDetails) (hn : NoteNumbers n) :
    (writeNote shown n).bind (readNote G dv) = some (keptNote (deriveNoteType G dv) shown n) := by
  obtain ⟨s, e1, e2⟩ := sound_back n hn
  rw [writeNote, e1, Option.map_some, Option.bind_some, readNote]
  simp only
  rw [e2, Option.map_some, (ties_back n).1, (ties_back n).2, notehead_back, stem_back, beams_back,
    duration_back G dv shown hs n _ hn rfl rfl rfl, accidental_back _ _ rfl rfl rfl rfl]
  rfl

theorem normalNames_ne : ∀ n ∈ normalNames, n ≠ .unspecified := by decide

theorem findNormal_ne {tpq : Int} {l : ℚ} {p : Api.DurationName × Nat} (h : findNormalNameAndDots tpq l = some p) : p.1 ≠ .unspecified := by
  have hm := List.mem_of_find?_eq_some h
  simp only [List.mem_flatMap, List.mem_range, List.mem_map] at hm
  obtain ⟨k, _, m, hm, rfl⟩ := hm
  exact normalNames_ne m hm

theorem tupletNormal_ne (tpq : Int) (siblings : List TupletSibling) (index : Nat) : ∀ p, tupletNormal tpq siblings index = some p → p.1 ≠ .unspecified := by
  intro p h
  unfold tupletNormal at h
  simp only [bind, Option.bind_eq_some_iff] at h
  obtain ⟨_, _, _, _, _, _, _, _, h⟩ := h
  split at h
  · exact findNormal_ne h
  · cases h

theorem map_beams {bs : List Api.Beam} (h : ∀ b ∈ bs, b ≠ .unspecified) : bs.map (fun b => if b = .unspecified then .begin else b) = bs := by
  conv_rhs => rw [← List.map_id bs]
  exact List.map_congr_left (fun b hb => if_neg (h b hb))

theorem keptNote_of_fits {derived : Api.DurationName} {shown : Option (Api.DurationName × Nat)} {n : NoteDetails} (h : NoteFits derived shown n) :
    keptNote derived shown n = n := by
  have hm : (n.isRest && n.isMeasureRest) = n.isMeasureRest := by
    cases hmr : n.isMeasureRest with
    | false => exact Bool.and_false _
    | true => rw [(h.measureRest hmr).1]; rfl
  have hu : (!n.isRest && n.isUnpitched) = n.isUnpitched := by
    cases hun : n.isUnpitched with
    | false => exact Bool.and_false _
    | true => rw [h.unpitched hun]; rfl
  have ht1 : (n.isTieStart && decide (n.noteType ≠ .cue)) = n.isTieStart := by
    by_cases hc : n.noteType = .cue
    · rw [(h.cue hc).1]; rfl
    · rw [decide_eq_true hc, Bool.and_true]
  have ht2 : (n.isTieStop && decide (n.noteType ≠ .cue)) = n.isTieStop := by
    by_cases hc : n.noteType = .cue
    · rw [(h.cue hc).2]; rfl
    · rw [decide_eq_true hc, Bool.and_true]
  have hp : keptPitch (NoteDetails.isPitched n) n.pitchData = n.pitchData := by
    obtain ⟨p1, p2, p3, p4⟩ := h.plain
    have ho := h.octave
    unfold keptPitch
    rw [if_neg h.accidental]
    cases hpp : NoteDetails.isPitched n with
    | true =>
      simp only [if_true]
      rw [if_neg h.step, show max 0 (min 9 n.pitchData.octave) = n.pitchData.octave by omega]
      exact PitchData.ext rfl rfl rfl rfl p1.symm p2.symm p3.symm p4.symm rfl
    | false =>
      have hr : n.isRest = true ∨ n.isUnpitched = true := by
        rw [NoteDetails.isPitched] at hpp
        cases h1 : n.isRest <;> cases h2 : n.isUnpitched <;> simp [h1, h2] at hpp ⊢
      obtain ⟨q1, q2, q3, q4⟩ := h.noPitch hr
      exact PitchData.ext q1.symm q2.symm q3.symm rfl p1.symm p2.symm p3.symm p4.symm q4.symm
  have hd : keptDuration n.isMeasureRest derived shown n.durationData = n.durationData := by
    have hdots := h.dots
    have hnt := h.normalType
    unfold keptDuration
    have hname : (if n.isMeasureRest then Api.DurationName.maxima else if n.durationData.durationName = .unspecified then .maxima else n.durationData.durationName) =
        if n.isMeasureRest then .maxima else n.durationData.durationName := by
      cases hmr : n.isMeasureRest with
      | true => rfl
      | false => rw [if_neg (h.name hmr)]
    simp only
    rw [hname, ← hnt]
    refine DurationNames.ext ?_ ?_ h.isTied.symm ?_ ?_ rfl rfl
    · cases hmr : n.isMeasureRest with
      | true => exact (h.measureRest hmr).2.symm
      | false => exact if_neg (h.name hmr)
    · show max 0 n.durationData.durationDots = _
      omega
    · rcases h.modification with hm | hm
      · show (if isModified n.durationData then _ else _) = _
        rw [hm]; rfl
      · show (if isModified n.durationData then n.durationData.actualNotes else 1) = _
        rw [hm.1, ite_self]
    · rcases h.modification with hm | hm
      · show (if isModified n.durationData then _ else _) = _
        rw [hm]; rfl
      · show (if isModified n.durationData then n.durationData.normalNotes else 1) = _
        rw [hm.2, ite_self]
  unfold keptNote
  rw [hm, hu, ht1, ht2, hp, hd, if_neg h.notehead, List.take_of_length_le h.beams.1, map_beams h.beams.2, ← h.display]

theorem keptNote_numbers {derived : Api.DurationName} {shown : Option (Api.DurationName × Nat)} {n : NoteDetails} (h : NoteNumbers n) :
    NoteNumbers (keptNote derived shown n) := by
  obtain ⟨h1, h2, h3, h4, h5⟩ := h
  have one : InInt 1 := by unfold InInt INT_MIN INT_MAX; omega
  refine ⟨?_, ?_, ?_, ?_, ?_⟩
  · show InInt (if _ then max 0 (min 9 n.pitchData.octave) else 4)
    have key : ∀ o : Int, InInt (max 0 (min 9 o)) := fun o => by unfold InInt INT_MIN INT_MAX; omega
    split_ifs
    · exact key _
    · unfold InInt INT_MIN INT_MAX; omega
  · show InInt (if _ then n.pitchData.alter else 0)
    split_ifs
    · exact h2
    · unfold InInt INT_MIN INT_MAX; omega
  · show InInt (if _ then n.durationData.actualNotes else 1)
    split_ifs
    · exact h3
    · exact one
  · show InInt (if _ then n.durationData.normalNotes else 1)
    split_ifs
    · exact h4
    · exact one
  · intro hr hu
    have hr' : n.isRest = false := hr
    have hu' : (!n.isRest && n.isUnpitched) = false := hu
    rw [hr'] at hu'
    have hp : NoteDetails.isPitched n = true := by rw [NoteDetails.isPitched, hr']; simpa using hu'
    have e := h5 hr' (by simpa using hu')
    show CentsFit (if NoteDetails.isPitched n then n.pitchData.alter else 0) (if NoteDetails.isPitched n then n.pitchData.cents else 0)
    rw [hp]; exact e

theorem isModified_kept (m : Bool) (derived : Api.DurationName) (shown : Option (Api.DurationName × Nat)) (d : DurationNames) :
    isModified (keptDuration m derived shown d) = isModified d := by
  show decide (0 < (if isModified d then d.normalNotes else 1) ∧ 0 < (if isModified d then d.actualNotes else 1) ∧
    (1 < (if isModified d then d.normalNotes else 1) ∨ 1 < (if isModified d then d.actualNotes else 1))) = _
  cases h : isModified d with
  | true =>
    simp only [if_true]
    exact h
  | false => rfl

theorem keptDuration_idem (m : Bool) (derived : Api.DurationName) (shown : Option (Api.DurationName × Nat)) (d : DurationNames) :
    keptDuration m derived shown (keptDuration m derived shown d) = keptDuration m derived shown d := by
  have hmod := isModified_kept m derived shown d
  generalize hk : keptDuration m derived shown d = k at hmod ⊢
  have hname : k.durationName = if m then derived else if d.durationName = .unspecified then .maxima else d.durationName := by rw [← hk]; rfl
  have hdots : k.durationDots = max 0 d.durationDots := by rw [← hk]; rfl
  have ha : k.actualNotes = if isModified d then d.actualNotes else 1 := by rw [← hk]; rfl
  have hno : k.normalNotes = if isModified d then d.normalNotes else 1 := by rw [← hk]; rfl
  have h1 : (if m then Api.DurationName.maxima else if k.durationName = .unspecified then .maxima else k.durationName) =
      if m then .maxima else if d.durationName = .unspecified then .maxima else d.durationName := by
    rw [hname]
    cases m with
    | true => rfl
    | false =>
      show (if (if d.durationName = .unspecified then Api.DurationName.maxima else d.durationName) = .unspecified then Api.DurationName.maxima else (if d.durationName = .unspecified then Api.DurationName.maxima else d.durationName)) = _
      rw [if_neg (defaultName d.durationName).2]
      rfl
  rw [← hk]
  have hn : keptNormal (isModified k) (if m then Api.DurationName.maxima else if k.durationName = .unspecified then .maxima else k.durationName) shown =
      keptNormal (isModified d) (if m then .maxima else if d.durationName = .unspecified then .maxima else d.durationName) shown := by rw [hmod, h1]
  rw [show keptDuration m derived shown (keptDuration m derived shown d) = keptDuration m derived shown k by rw [hk]]
  refine DurationNames.ext ?_ ?_ rfl ?_ ?_ (congrArg Prod.fst hn) (congrArg Prod.snd hn)
  · show (if m then derived else if k.durationName = .unspecified then .maxima else k.durationName) = if m then derived else _
    cases m with
    | true => rfl
    | false => exact h1
  · show max 0 k.durationDots = max 0 d.durationDots
    omega
  · show (if isModified k then k.actualNotes else 1) = if isModified d then d.actualNotes else 1
    rw [hmod, ha]; cases isModified d <;> rfl
  · show (if isModified k then k.normalNotes else 1) = if isModified d then d.normalNotes else 1
    rw [hmod, hno]; cases isModified d <;> rfl

theorem keptPitch_idem (b : Bool) (p : PitchData) : keptPitch b (keptPitch b p) = keptPitch b p := by
  have acc : ∀ a : Api.Accidental, (if (if a = .sharpSharp then Api.Accidental.natural else a) = .sharpSharp then Api.Accidental.natural else (if a = .sharpSharp then .natural else a)) =
      if a = .sharpSharp then .natural else a := by
    intro a
    by_cases h : a = .sharpSharp
    · rw [if_pos h]; rfl
    · rw [if_neg h, if_neg h]
  refine PitchData.ext ?_ ?_ ?_ (acc _) rfl rfl rfl rfl ?_
  · cases b with
    | false => rfl
    | true =>
      show (if (if p.step = .unspecified then Api.Step.c else p.step) = .unspecified then Api.Step.c else (if p.step = .unspecified then .c else p.step)) = if p.step = .unspecified then .c else p.step
      by_cases h : p.step = .unspecified
      · rw [if_pos h]; rfl
      · rw [if_neg h, if_neg h]
  · cases b <;> rfl
  · cases b <;> rfl
  · cases b with
    | false => rfl
    | true =>
      show max 0 (min 9 (max 0 (min 9 p.octave))) = max 0 (min 9 p.octave)
      omega

theorem keptNote_idem (derived : Api.DurationName) (shown : Option (Api.DurationName × Nat)) (n : NoteDetails) :
    keptNote derived shown (keptNote derived shown n) = keptNote derived shown n := by
  have hr : ∀ a b : Bool, (a && (a && b)) = (a && b) := by decide
  have hu : ∀ a b : Bool, (!a && (!a && b)) = (!a && b) := by decide
  have ht : ∀ a b : Bool, (a && b && b) = (a && b) := by decide
  have hp : NoteDetails.isPitched (keptNote derived shown n) = NoteDetails.isPitched n := by
    show (!n.isRest && !(!n.isRest && n.isUnpitched)) = (!n.isRest && !n.isUnpitched)
    cases n.isRest <;> cases n.isUnpitched <;> rfl
  refine NoteDetails.ext rfl (hr _ _) (hu _ _) rfl (ht _ _) (ht _ _) rfl ?_ ?_ rfl ?_ ?_
  · show (if (if n.notehead = .faUp then Api.Notehead.none else n.notehead) = .faUp then Api.Notehead.none else (if n.notehead = .faUp then Api.Notehead.none else n.notehead)) = if n.notehead = .faUp then Api.Notehead.none else n.notehead
    by_cases h : n.notehead = .faUp
    · rw [if_pos h]; rfl
    · rw [if_neg h, if_neg h]
  · show keptPitch (NoteDetails.isPitched (keptNote derived shown n)) (keptPitch (NoteDetails.isPitched n) n.pitchData) = keptPitch (NoteDetails.isPitched n) n.pitchData
    rw [hp, keptPitch_idem]
  · show keptDuration (n.isRest && (n.isRest && n.isMeasureRest)) derived shown (keptDuration (n.isRest && n.isMeasureRest) derived shown n.durationData) = _
    rw [hr, keptDuration_idem]
    rfl
  · show (((n.beams.take 8).map (fun b => if b = .unspecified then Api.Beam.begin else b)).take 8).map (fun b => if b = .unspecified then Api.Beam.begin else b) = (n.beams.take 8).map (fun b => if b = .unspecified then Api.Beam.begin else b)
    rw [← List.map_take, List.take_take, Nat.min_self, map_beams]
    intro b hb
    obtain ⟨c, _, rfl⟩ := List.mem_map.mp hb
    cases c <;> decide

theorem beamLevel_text {i : Nat} (h : i < 8) : (IntRange.ofKind .BeamLevel ((i : Int) + 1)).toStr = showInt ((i : Int) + 1) := by
  have : ∀ i : Nat, i < 8 → (IntRange.ofKind .BeamLevel ((i : Int) + 1)).toStr = showInt ((i : Int) + 1) := by decide +kernel
  exact this i h

/-! ### Beams in any order -/

theorem mapPut_keys {V : Type} (k : Int) (v : V) (m : List (Int × V)) (h : k ∉ m.map (·.1)) : (mapPut k v m).Perm ((k, v) :: m) := by
  induction m with
  | nil => exact List.Perm.refl _
  | cons p m ih =>
    obtain ⟨k', v'⟩ := p
    simp only [List.map_cons, List.mem_cons, not_or] at h
    rw [mapPut]
    split
    · exact List.Perm.refl _
    · rw [if_neg h.1]
      exact ((ih h.2).cons _).trans (List.Perm.swap _ _ _)

theorem mapPut_sorted {V : Type} (k : Int) (v : V) (m : List (Int × V)) (hs : m.Pairwise (fun a b => a.1 < b.1)) :
    (mapPut k v m).Pairwise (fun a b => a.1 < b.1) := by
  induction m with
  | nil => exact List.pairwise_singleton _ _
  | cons p m ih =>
    obtain ⟨k', v'⟩ := p
    obtain ⟨h1, h2⟩ := List.pairwise_cons.mp hs
    rw [mapPut]
    split
    · rename_i hlt
      refine List.pairwise_cons.mpr ⟨fun a ha => ?_, hs⟩
      rcases List.mem_cons.mp ha with rfl | ha
      · exact hlt
      · exact lt_trans hlt (h1 a ha)
    · rename_i hlt
      split
      · rename_i he
        subst he
        exact List.pairwise_cons.mpr ⟨h1, h2⟩
      · rename_i he
        refine List.pairwise_cons.mpr ⟨fun a ha => ?_, ih h2⟩
        have hsub : ∀ (m : List (Int × V)), ∀ a ∈ mapPut k v m, a = (k, v) ∨ a ∈ m := by
          intro m
          induction m with
          | nil => intro a ha; left; simpa [mapPut] using ha
          | cons q m ih' =>
            intro a ha
            rw [mapPut] at ha
            split at ha
            · rcases List.mem_cons.mp ha with rfl | ha
              · left; rfl
              · right; exact ha
            · split at ha
              · rcases List.mem_cons.mp ha with rfl | ha
                · left; rfl
                · right; exact List.mem_cons_of_mem _ ha
              · rcases List.mem_cons.mp ha with rfl | ha
                · right; exact List.mem_cons_self
                · rcases ih' a ha with h | h
                  · left; exact h
                  · right; exact List.mem_cons_of_mem _ h
        rcases hsub m a ha with rfl | ha
        · show k' < k
          omega
        · exact h1 a ha

/-- The pair of the map for a numbered beam. -/
def beamPair (x : Nat × Core.BeamValue) : Int × Core.BeamValue := ((x.1 : Int), x.2)

theorem parseBeam_back (v : Core.BeamValue) : (parseEnum (StringEnum.toStr v) : Core.BeamValue) = v := by cases v <;> rfl

theorem beamNumber_back {i : Nat} (h1 : 1 ≤ i) (h8 : i ≤ 8) : parseBounded .BeamLevel (showInt (i : Int)) = (i : Int) := by
  have key : ∀ i : Nat, i < 9 → 1 ≤ i → parseBounded .BeamLevel (showInt (i : Int)) = (i : Int) := by decide +kernel
  exact key i (by omega) h1

theorem readBeamsFrom_perm (xs : List (Nat × Core.BeamValue)) : ∀ (start : Int) (m : List (Int × Core.BeamValue)),
    (∀ x ∈ xs, 1 ≤ x.1 ∧ x.1 ≤ 8) → (m.map (·.1) ++ xs.map (fun x => (x.1 : Int))).Nodup → m.Pairwise (fun a b => a.1 < b.1) →
    (readBeamsFrom start m (xs.map (fun x => { number := some (showInt x.1), value := StringEnum.toStr x.2 }))).Perm (m ++ xs.map beamPair) ∧
    (readBeamsFrom start m (xs.map (fun x => { number := some (showInt x.1), value := StringEnum.toStr x.2 }))).Pairwise (fun a b => a.1 < b.1) := by
  induction xs with
  | nil => intro start m _ _ hs; simpa [readBeamsFrom] using hs
  | cons x xs ih =>
    intro start m hb hd hs
    obtain ⟨b1, b8⟩ := hb x List.mem_cons_self
    have hnot : (x.1 : Int) ∉ m.map (·.1) := by
      intro hm
      rw [List.map_cons] at hd
      exact (List.nodup_append.mp hd).2.2 _ hm _ List.mem_cons_self rfl
    have hany : m.any (fun p => decide (p.1 = (x.1 : Int))) = false := by
      rw [List.any_eq_false]
      intro p hp e
      exact hnot (List.mem_map.mpr ⟨p, hp, by simpa using e⟩)
    have hidx : beamIndex start m { number := some (showInt x.1), value := StringEnum.toStr x.2 } = (x.1 : Int) := by
      unfold beamIndex
      show (if _ then _ else _) = _
      rw [beamNumber_back b1 b8, hany]
      rfl
    rw [List.map_cons, readBeamsFrom, hidx]
    simp only
    rw [parseBeam_back]
    have hperm := mapPut_keys (x.1 : Int) x.2 m hnot
    have hkeys : ((mapPut (x.1 : Int) x.2 m).map (·.1) ++ xs.map (fun x => (x.1 : Int))).Perm (m.map (·.1) ++ (x :: xs).map (fun x => (x.1 : Int))) := by
      rw [List.map_cons]
      refine ((hperm.map _).append_right _).trans ?_
      rw [List.map_cons, List.cons_append]
      exact List.perm_middle.symm
    obtain ⟨r1, r2⟩ := ih (start + 1) (mapPut (x.1 : Int) x.2 m) (fun y hy => hb y (List.mem_cons_of_mem _ hy)) (hkeys.nodup_iff.mpr hd) (mapPut_sorted _ _ _ hs)
    refine ⟨r1.trans ?_, r2⟩
    rw [List.map_cons]
    refine (hperm.append_right _).trans ?_
    rw [List.cons_append]
    exact List.perm_middle.symm

theorem readBeams_any_order {xs ys : List (Nat × Core.BeamValue)} (h : ∀ x ∈ xs, 1 ≤ x.1 ∧ x.1 ≤ 8) (hd : (xs.map (·.1)).Nodup)
    (hp : ys.Perm xs) (hy : ys.Pairwise (fun a b => a.1 < b.1)) :
    readBeams (xs.map (fun x => { number := some (showInt x.1), value := StringEnum.toStr x.2 })) = ys.map (fun y => MapName.beamMap.toApi y.2) := by
  have hd' : (([] : List (Int × Core.BeamValue)).map (·.1) ++ xs.map (fun x => (x.1 : Int))).Nodup := by
    rw [List.map_nil, List.nil_append]
    have : xs.map (fun x => (x.1 : Int)) = (xs.map (·.1)).map (fun n : Nat => (n : Int)) := by rw [List.map_map]; rfl
    rw [this]
    exact hd.map (fun a b e => by exact_mod_cast e)
  obtain ⟨r1, r2⟩ := readBeamsFrom_perm xs 0 [] h hd' List.Pairwise.nil
  rw [List.nil_append] at r1
  have hy' : (ys.map beamPair).Pairwise (fun a b => a.1 < b.1) := by
    rw [List.pairwise_map]
    exact hy.imp (fun {a b} hab => by show (a.1 : Int) < (b.1 : Int); exact_mod_cast hab)
  have heq := List.Perm.eq_of_pairwise (le := fun a b : Int × Core.BeamValue => a.1 < b.1) (fun a b _ _ h1 h2 => absurd (lt_trans h1 h2) (lt_irrefl _)) r2 hy' (r1.trans (hp.map beamPair).symm)
  rw [readBeams, heq, List.map_map]
  rfl

end Mx
