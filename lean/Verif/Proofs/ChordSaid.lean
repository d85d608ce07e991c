import Verif.Spec.ChordSaid
import Verif.Model.DirectionsThrough
import Verif.Proofs.DirectionSaid

/-! Lemmas for `Verif/Props/ChordFileProps.lean`. -/
namespace Mx.Directions
open _root_.Spec Mx.Spec

theorem alterKept_facts {v : Int} (h : AlterKept v) : InInt v ∧ HasDecimals 6 (v : ℚ) ∧ |(v : ℚ)| ≤ 2147483647 := by
  unfold AlterKept INT_MIN INT_MAX at h
  refine ⟨⟨by unfold INT_MIN; omega, h.2⟩, ⟨v * 10 ^ 6, by push_cast; ring⟩, ?_⟩
  rw [← Int.cast_abs]
  have : |v| ≤ 2147483647 := abs_le.mpr ⟨by omega, by omega⟩
  exact_mod_cast this

/-- A number of semitones is read, however it is written. -/
theorem semitones_read {t : Str} {v : Int} (h : DecimalText t v) (hv : AlterKept v) : (decimalValue .Semitones t).bind roundTo = some v := by
  obtain ⟨h1, h2, h3⟩ := alterKept_facts hv
  have : decimalValue .Semitones t = some (v : ℚ) := parseSemitones_decimal h h2 h3
  rw [this, Option.bind_some, roundTo_int h1]

theorem semitones_written {t : Str} {v : Int} (hv : AlterKept v) (h : decimalText .Semitones v = some t) : DecimalText t v := by
  obtain ⟨-, h2, h3⟩ := alterKept_facts hv
  obtain ⟨s, k1, k2⟩ := semitones_says h2 h3
  have : decimalText .Semitones v = some s := k1
  rw [h] at this
  cases this
  exact k2

theorem alter_read {t : Option Str} {v : Int} (h : AlterSays t v) (hv : AlterKept v) : readChordAlter t = some v := by
  cases t with
  | none =>
    have : v = 0 := h
    rw [this]; rfl
  | some t => exact semitones_read h hv

theorem alter_written {v : Int} {t : Option Str} (hv : AlterKept v) (h : writeChordAlter v = some t) : AlterSays t v := by
  unfold writeChordAlter at h
  by_cases h0 : v = 0
  · rw [if_neg (by simpa using h0)] at h
    cases h
    exact h0
  · rw [if_pos h0] at h
    obtain ⟨s, h1, rfl⟩ := Option.map_eq_some_iff.mp h
    exact semitones_written hv h1

theorem step_there (s : Core.StepEnum) : (MapName.stepMap.toApi (parseEnum (StringEnum.toStr s) : Core.StepEnum) : Api.Step) ≠ .unspecified ∧
    StringEnum.toStr (MapName.stepMap.toCore (MapName.stepMap.toApi (parseEnum (StringEnum.toStr s) : Core.StepEnum) : Api.Step) : Core.StepEnum) = StringEnum.toStr s := by cases s <;> decide +kernel

theorem kind_there (d : Core.KindValue) : (MapName.kindMap.toCore (MapName.kindMap.toApi (parseEnum (StringEnum.toStr d) : Core.KindValue) : Api.ChordKind) : Core.KindValue) = d := by cases d <;> decide +kernel

theorem degreeType_there (d : Core.DegreeTypeValue) : degreeType (extensionType (parseEnum (StringEnum.toStr d))) = d := by cases d <;> decide +kernel

theorem degree_there {v : Int} (h : v ∈ ([1, 2, 3, 4, 5, 6, 7, 9, 11, 13] : List Int)) : ∃ n, extensionNumber v = some n ∧ extensionValue n = v := by
  simp only [List.mem_cons, List.not_mem_nil, or_false] at h
  rcases h with rfl | rfl | rfl | rfl | rfl | rfl | rfl | rfl | rfl | rfl <;> exact ⟨_, rfl, rfl⟩

theorem degreeAlter_there {a : Int} (h : -2 ≤ a ∧ a ≤ 2) : extensionSemitones (extensionAlter a) = a := by
  obtain ⟨h1, h2⟩ := h
  have : a = -2 ∨ a = -1 ∨ a = 0 ∨ a = 1 ∨ a = 2 := by omega
  rcases this with rfl | rfl | rfl | rfl | rfl <;> rfl

/-- The degree comes out as it was. -/
theorem degree_said {x : DegreeXml} {d : Core.DegreeTypeValue × Int × Int} (hs : DegreeSays x d) (hk : d.2.1 ∈ ([1, 2, 3, 4, 5, 6, 7, 9, 11, 13] : List Int) ∧ -2 ≤ d.2.2 ∧ d.2.2 ≤ 2) :
    ∃ e, readDegree x = some (some e) ∧ ∀ y, writeExtension e = some y → DegreeSays y d := by
  obtain ⟨h1, h2, h3⟩ := hs
  have hb : 1 ≤ d.2.1 ∧ d.2.1 ≤ 13 := by
    have := hk.1
    simp only [List.mem_cons, List.not_mem_nil, or_false] at this
    omega
  have hv : parseBounded .PositiveInteger x.value = d.2.1 := parseBounded_numeral h2 ⟨by unfold INT_MIN; omega, by unfold INT_MAX; omega⟩ ⟨hb.1, by show _ ≤ INT_MAX; unfold INT_MAX; omega⟩
  have ha : AlterKept d.2.2 := ⟨by unfold INT_MIN; omega, by unfold INT_MAX; omega⟩
  obtain ⟨n, hn1, hn2⟩ := degree_there hk.1
  unfold readDegree
  rw [semitones_read h3 ha, hv, hn1, h1]
  refine ⟨_, rfl, ?_⟩
  intro y hy
  unfold writeExtension at hy
  obtain ⟨t, ht, rfl⟩ := Option.map_eq_some_iff.mp hy
  rw [degreeAlter_there hk.2] at ht
  refine ⟨?_, ?_, semitones_written ha ht⟩
  · show StringEnum.toStr (degreeType (extensionType (parseEnum (StringEnum.toStr d.1)))) = _
    rw [degreeType_there]
  · show IntegerText (IntRange.ofKind .PositiveInteger (extensionValue n)).toStr _
    rw [hn2]
    exact bounded_says ⟨hb.1, by show _ ≤ INT_MAX; unfold INT_MAX; omega⟩

theorem degrees_said {xs : List DegreeXml} {ds : List (Core.DegreeTypeValue × Int × Int)} (hs : List.Forall₂ DegreeSays xs ds)
    (hk : ∀ d ∈ ds, d.2.1 ∈ ([1, 2, 3, 4, 5, 6, 7, 9, 11, 13] : List Int) ∧ -2 ≤ d.2.2 ∧ d.2.2 ≤ 2) :
    ∃ es : List (Option Extension), xs.mapM readDegree = some es ∧ ∀ ys, (es.filterMap id).mapM writeExtension = some ys → List.Forall₂ DegreeSays ys ds := by
  induction hs with
  | nil => exact ⟨[], rfl, fun ys h => by cases h; exact .nil⟩
  | @cons x d xs ds h1 _ ih =>
    obtain ⟨e, k1, k2⟩ := degree_said h1 (hk d List.mem_cons_self)
    obtain ⟨es, k3, k4⟩ := ih (fun d hd => hk d (List.mem_cons_of_mem _ hd))
    refine ⟨some e :: es, by rw [List.mapM_cons, k1, k3]; rfl, ?_⟩
    intro ys hy
    rw [List.filterMap_cons_some (by rfl : id (some e) = some e)] at hy
    have := mapM_forall₂ hy
    cases this with
    | @cons _ y _ ys' g1 g2 =>
      refine .cons (k2 y g1) (k4 _ ?_)
      rw [List.mapM_cons, g1] at hy
      cases hr : (es.filterMap id).mapM writeExtension with
      | none => rw [hr] at hy; cases hy
      | some zs => rw [hr] at hy; cases hy; rfl

theorem symbols_there (b : Option Bool) : ∀ u : Api.Bool, u = ((b.map (fun b => if b then chars "yes" else chars "no")).map (fun t => if (parseEnum t : Core.YesNo) = .yes then Api.Bool.yes else Api.Bool.no)).getD .unspecified →
    (if u ≠ .unspecified then some (StringEnum.toStr (if u = .yes then Core.YesNo.yes else Core.YesNo.no)) else none) = b.map (fun b => if b then chars "yes" else chars "no") := by
  rintro u rfl
  rcases b with _ | _ | _ <;> decide +kernel

/-- One chord symbol. -/
theorem chord_said {misc : List MiscData} {h : HarmonyXml} {x y : ChordXml} {a : ChordSaid} {c : ChordData} (hs : ChordSays x a) (hk : ChordKept a) (hr : readChord misc h x = some c) (hw : writeChord c = some y) :
    ChordSays y a := by
  obtain ⟨es, d1, d2⟩ := degrees_said hs.degrees hk.degrees
  have hb : ∃ b, readBass x.bass = some b ∧ ∀ c : ChordData, c.bass = b.1 → c.bassAlter = b.2 → ∀ z, writeBass c = some z → BassSays z a.bass := by
    have h1 := hs.bass
    have h2 := hk.bassAlter
    generalize x.bass = xb at h1
    generalize a.bass = ab at h1 h2
    rcases xb with _ | ⟨s, al⟩ <;> rcases ab with _ | ⟨step, v⟩
    · refine ⟨_, rfl, ?_⟩
      intro c hc _ z hz
      rw [writeBass, if_neg (by rw [hc]; simp)] at hz
      cases hz
      trivial
    · cases h1
    · cases h1
    · obtain ⟨rfl, h3⟩ := h1
      have hv := h2 _ rfl
      refine ⟨_, by rw [readBass, alter_read h3 hv]; rfl, ?_⟩
      intro c hc1 hc2 z hz
      rw [writeBass, if_pos (by rw [hc1]; exact (step_there step).1)] at hz
      obtain ⟨t, ht, rfl⟩ := Option.map_eq_some_iff.mp hz
      rw [hc2] at ht
      exact ⟨by rw [hc1]; exact (step_there step).2, alter_written hv ht⟩
  obtain ⟨b, b1, b2⟩ := hb
  unfold readChord at hr
  rw [alter_read hs.rootAlter hk.rootAlter, b1, d1] at hr
  simp only [Option.bind_eq_bind, Option.bind_eq_some_iff, Option.pure_def, Option.some.injEq] at hr
  obtain ⟨_, rfl, _, rfl, _, rfl, _, _, rfl⟩ := hr
  unfold writeChord at hw
  simp only [Option.bind_eq_bind, Option.bind_eq_some_iff, Option.pure_def, Option.some.injEq] at hw
  obtain ⟨t, w1, z, w2, ys, w3, rfl⟩ := hw
  refine { isRoot := rfl, root := ?_, rootAlter := alter_written hk.rootAlter w1, kind := ?_, text := ?_, useSymbols := ?_, bass := b2 _ rfl rfl z w2, degrees := d2 ys w3 }
  · show StringEnum.toStr (MapName.stepMap.toCore (if (MapName.stepMap.toApi (parseEnum x.rootStep : Core.StepEnum) : Api.Step) = .unspecified then .c else _) : Core.StepEnum) = _
    rw [hs.root, if_neg (step_there _).1]
    exact (step_there _).2
  · show StringEnum.toStr (MapName.kindMap.toCore (MapName.kindMap.toApi (parseEnum x.kind : Core.KindValue)) : Core.KindValue) = _
    rw [hs.kind, kind_there]
  · show (if (x.kindText.map xsToken).getD [] ≠ [] then some (xsToken ((x.kindText.map xsToken).getD [])) else none) = _
    rw [hs.text]
    cases ht : a.text with
    | none => rfl
    | some t =>
      obtain ⟨g1, g2⟩ := hk.text t ht
      have : (Option.map xsToken (some t)).getD [] = t := Props.C25_normalised_kept t g2
      rw [this, if_pos g1, Props.C25_normalised_kept t g2]
  · exact symbols_there a.useSymbols _ (by rw [hs.useSymbols])

/-- All of them. -/
theorem chords_said {misc : List MiscData} {h : HarmonyXml} {xs ys : List ChordXml} {as : List ChordSaid} {cs : List ChordData} (hs : List.Forall₂ ChordSays xs as) (hk : ∀ a ∈ as, ChordKept a)
    (hr : List.Forall₂ (fun x c => readChord misc h x = some c) xs cs) (hw : List.Forall₂ (fun c y => writeChord c = some y) cs ys) : List.Forall₂ ChordSays ys as := by
  induction hs generalizing cs ys with
  | nil => cases hr; cases hw; exact .nil
  | cons h1 _ ih =>
    cases hr with
    | cons r1 r2 =>
      cases hw with
      | cons w1 w2 => exact .cons (chord_said h1 (hk _ List.mem_cons_self) r1 w1) (ih (fun a ha => hk a (List.mem_cons_of_mem _ ha)) r2 w2)

theorem harmony_said {cursor cursor' staffIndex : Int} {staffSaid : Bool} {x : HarmonyXml} {as : List ChordSaid} (hs : List.Forall₂ ChordSays x.chords as) (hn : as ≠ []) (hk : ∀ a ∈ as, ChordKept a) {l : List ElementXml}
    (h : harmonyThrough cursor staffSaid staffIndex cursor' x = .ok l) : ∃ y, l = [.harmony y] ∧ List.Forall₂ ChordSays y.chords as := by
  obtain ⟨d, hr, hw⟩ := bind_ok' h
  unfold readHarmony at hr
  obtain ⟨tick, -, hr⟩ := bind_ok' hr
  obtain ⟨misc, -, hr⟩ := bind_ok' hr
  obtain ⟨cs, hc, hr⟩ := bind_ok' hr
  cases hr
  have hf : x.chords.filter (fun c => c.isRoot) = x.chords := by
    rw [List.filter_eq_self]
    intro c hc
    obtain ⟨i, hi⟩ := List.getElem?_of_mem hc
    have hlt := (List.getElem?_eq_some_iff.mp hi).1
    have := hs.get (i := i) hlt (by rw [← hs.length_eq]; exact hlt)
    rw [show x.chords.get ⟨i, hlt⟩ = c from (List.getElem?_eq_some_iff.mp hi).2] at this
    exact this.isRoot
  rw [hf] at hc
  have hc' := mapM_forall₂ (orUndefined_ok hc)
  unfold getDirectionLikeThings at hw
  obtain ⟨off, -, hw⟩ := bind_ok' hw
  obtain ⟨o', -, hw⟩ := bind_ok' hw
  obtain ⟨ts, ht, hw⟩ := bind_ok' hw
  obtain ⟨hm, hh, hw⟩ := bind_ok' hw
  cases ht
  cases hw
  have hh := orUndefined_ok hh
  cases cs with
  | nil =>
    have h0 : as.length = 0 := by rw [← hs.length_eq, hc'.length_eq]; rfl
    exact absurd (List.length_eq_zero_iff.mp h0) hn
  | cons c cs =>
    unfold createHarmony at hh
    simp only [Option.bind_eq_bind, Option.bind_eq_some_iff, Option.pure_def, Option.some.injEq] at hh
    obtain ⟨p, -, ys, hy, o, -, rfl⟩ := hh
    refine ⟨_, rfl, ?_⟩
    exact chords_said hs hk hc' (mapM_forall₂ hy)

end Mx.Directions
