import Verif.Proofs.ApiQueries

/-! The questions that objects of the API answer about themselves. -/
open Spec
namespace Mx.Props
open Fl Spec Queries

variable {P : Type}

/-- **C85** `getNumStaves` is the largest number of staves of a measure. -/
theorem C85_staves (measures : List (Measure.MeasureData P)) : LargestOrZero (measures.map (fun m => (m.staves.length : Int))) (getNumStaves measures) := by
  rw [getNumStaves_eq]; exact largestOrZero_foldl _

/-- **C85** `getMaxVoice` is the largest number of a voice, in whatever measure and staff (zero if no number is positive). -/
theorem C85_voices (measures : List (Measure.MeasureData P)) : LargestOrZero (voiceNumbers measures) (getMaxVoice measures) := by
  rw [getMaxVoice_eq]; exact largestOrZero_foldl _

example :
    let staff (l : List Int) : Measure.StaffData Nat := { clefs := [], keys := [], voices := l.map (fun k => (k, [])), directions := [] }
    let ms : List (Measure.MeasureData Nat) := [{ staves := [staff [0, 3]], keys := [], barlines := [] }, { staves := [staff [1], staff [2]], keys := [], barlines := [] }]
    getNumStaves ms = 2 ∧ getMaxVoice ms = 3 := by decide

/-- **C85** The alteration of an extension is set to the nearest that exists, and given back. -/
theorem C85_alter_value (v : Int) (old : Api.ExtensionAlter) : getAlterValue (setAlterValue v old) = max (-2) (min 2 v) := by
  unfold setAlterValue
  split_ifs <;> simp only [getAlterValue] <;> omega

/-- **C85** Setting the alteration that an extension has changes nothing. -/
theorem C85_alter_same (a old : Api.ExtensionAlter) : setAlterValue (getAlterValue a) old = a := by cases a <;> cases old <;> rfl

/-- **C85** The numbers are those of the document: what is written for an extension is its `getAlterValue`, what is read is what `setAlterValue` makes of the number. -/
theorem C85_alter_document (a : Api.ExtensionAlter) (v : Int) (old : Api.ExtensionAlter) : Directions.extensionSemitones a = getAlterValue a ∧ Directions.extensionAlter v = setAlterValue v old := by
  constructor
  · cases a <;> rfl
  · unfold setAlterValue Directions.extensionAlter
    split_ifs <;> first | rfl | omega

example : getAlterValue (setAlterValue 7 .flat) = 2 ∧ getAlterValue (setAlterValue (-1) .sharp) = -1 := by decide

/-- **C85** `isUsed` of layout objects is false exactly for an object in which nothing has been set. -/
theorem C85_used : (∀ m : PageMarginsData, m.isUsed = false ↔ m = {}) ∧ (∀ p : PageLayoutData, p.isUsed = false ↔ p = {}) ∧ (∀ s : SystemLayoutData, s.isUsed = false ↔ s = {})
    ∧ (∀ s : SystemData, s.isUsed = false ↔ s = {}) ∧ (∀ p : PageData, p.isUsed = false ↔ p = {}) ∧ (∀ l : LayoutData, layoutIsUsed l = false ↔ l = {})
    ∧ (∀ t : TransposeData, t.isUsed = false ↔ t = ⟨0, 0⟩) := by
  have h1 : ∀ m : PageMarginsData, m.isUsed = false ↔ m = {} := by
    rintro ⟨o, e⟩; cases o <;> cases e <;> simp [PageMarginsData.isUsed]
  have h2 : ∀ p : PageLayoutData, p.isUsed = false ↔ p = {} := by
    rintro ⟨s, m⟩
    have := h1 m
    cases s <;> cases hm : m.isUsed <;> simp_all [PageLayoutData.isUsed]
  have h3 : ∀ s : SystemLayoutData, s.isUsed = false ↔ s = {} := by
    rintro ⟨a, b, c, d⟩; cases a <;> cases b <;> cases c <;> cases d <;> simp [SystemLayoutData.isUsed]
  have h4 : ∀ s : SystemData, s.isUsed = false ↔ s = {} := by
    rintro ⟨n, l⟩
    have := h3 l
    cases n <;> cases hm : l.isUsed <;> simp_all [SystemData.isUsed]
  have h5 : ∀ p : PageData, p.isUsed = false ↔ p = {} := by
    rintro ⟨n, l, k⟩
    have := h2 l
    cases n <;> cases k <;> cases hm : l.isUsed <;> simp_all [PageData.isUsed]
  refine ⟨h1, h2, h3, h4, h5, ?_, ?_⟩
  · rintro ⟨s, p⟩
    have := h4 s
    have := h5 p
    cases hs : s.isUsed <;> cases hm : p.isUsed <;> simp_all [layoutIsUsed]
  · rintro ⟨c, d⟩
    simp [TransposeData.isUsed]

/-- **C85** `<print>` is written exactly for a layout that is used. -/
theorem C85_print_written (l : LayoutData) (x : Option PrintElement) (h : writeMeasurePrint l = some x) : x.isSome = layoutIsUsed l := by
  unfold writeMeasurePrint writeSystemInfo at h
  unfold layoutIsUsed
  cases hs : l.system.isUsed <;> cases hp : l.page.isUsed <;> simp only [hs, hp, if_true, Bool.false_eq_true, if_false, Option.bind_eq_some_iff, Option.map_eq_some_iff, Option.some.injEq] at h <;> grind

/-- **C85** The constructor `LayoutData{ newSystem, newPage }` gives the `<print>` that its comment promises. -/
theorem C85_breaks (newSystem newPage : Bool) : writeMeasurePrint (layoutOf newSystem newPage) =
    some (if newSystem || newPage then some { newSystem := if newSystem then some (chars "yes") else none, newPage := if newPage then some (chars "yes") else none } else none) := by
  cases newSystem <;> cases newPage <;> decide +kernel

/-- **C85** `isEqualTo` of time signatures: the same `<time>` is written for both if they are displayed alike. -/
theorem C85_time_equal (a b : TimeSignatureData) (ha : InInt a.beats ∧ InInt a.beatType) (hb : InInt b.beats ∧ InInt b.beatType) (display : Api.Bool) :
    timeIsEqualTo a b = true ↔ writeTime { a with display := display } = writeTime { b with display := display } := by
  simp only [timeIsEqualTo, decide_eq_true_eq, writeTime, TimeXml.signature.injEq]
  constructor
  · rintro ⟨h1, h2, h3⟩; rw [h1, h2, h3]; exact ⟨rfl, trivial, rfl, rfl⟩
  · rintro ⟨h1, -, h2, h3⟩
    refine ⟨showInt_injective ha.1 hb.1 h2, showInt_injective ha.2 hb.2 h3, ?_⟩
    revert h1
    generalize a.symbol = s
    generalize b.symbol = t
    cases s <;> cases t <;> decide

example : timeIsEqualTo { beats := 3, isImplicit := false } { beats := 3, display := .no } = true ∧ timeIsEqualTo { symbol := .common } {} = false := by decide

/-- **C85** `toBool` and `fromBool`. -/
theorem C85_bool (b : Bool) (c : Api.Bool) : toBool (fromBool b) = b ∧ (toBool c = true ↔ c = .yes) ∧ (fromBool (toBool c) = c ↔ c ≠ .unspecified) := by cases b <;> cases c <;> decide

/-- **C85** Tenths per inch are right up to a relative error of 2⁻⁵¹, whenever millimetres are not zero. -/
theorem C85_tenths_per_inch {prec : Nat} (hp : 53 ≤ prec) (d : DefaultsData) (h : d.scalingMillimeters ≠ 0) :
    ∃ v, tenthsPerInch prec d = some v ∧ |v - d.scalingTenths / d.scalingMillimeters * 25.4| ≤ |d.scalingTenths / d.scalingMillimeters * 25.4| / 2 ^ 51 := by
  refine ⟨_, by rw [tenthsPerInch, tenthsPerMillimeter, if_neg h]; rfl, ?_⟩
  have := perInch_near hp (d.scalingTenths / d.scalingMillimeters)
  norm_num at this ⊢
  linarith

/-- **C85, violated** A score without scaling (both members -1) has one tenth per millimetre; with zero millimetres a division by zero happens. -/
theorem C85_no_scaling (prec : Nat) (hp : 53 ≤ prec) : tenthsPerMillimeter prec {} = some 1 ∧ tenthsPerMillimeter prec { scalingMillimeters := 0 } = none := by
  constructor
  · simp only [tenthsPerMillimeter]
    norm_num
    exact_mod_cast fl_int (p := prec) (n := 1) (by omega) (by rw [abs_one]; exact one_le_pow₀ (by norm_num))
  · simp [tenthsPerMillimeter]

/-- **C85, violated** `isBlack` is true of a colour exactly if it is written as opaque white … -/
theorem C85_black_is_white (c : ColorData) : isBlack c = true ↔ writeColor true c = some (chars "#FFFFFF") ∨ writeColor true c = some (chars "#FFFFFFFF") := by
  obtain ⟨r, g, b, al, a⟩ := c
  have e : ∀ (v : Fin 256), (v = 255) = (Color.hexDigit ((Color.byte (v.val : Int)).toNat / 16) = 'F' ∧ Color.hexDigit ((Color.byte (v.val : Int)).toNat % 16) = 'F') := fun v => propext (hexFF v)
  simp only [isBlack, decide_eq_true_eq, e, writeColor, if_true, Option.some.injEq]
  cases al
  · simp [createCoreColor, Color.toStr, Color.rgb, Color.hex2, and_assoc]
  · simp [createCoreColor, Color.toStr, Color.argb, Color.hex2, and_assoc]; constructor <;> (rintro ⟨h1, h2, h3, h4, h5, h6, h7, h8⟩; exact ⟨‹_›, ‹_›, ‹_›, ‹_›, ‹_›, ‹_›, ‹_›, ‹_›⟩)

/-- **C85, violated** … and of no black colour. -/
theorem C85_black (c : ColorData) (h : Black c) : isBlack c = false := by
  obtain ⟨h1, -, -, -⟩ := h
  simp [isBlack, h1]

/-- **C85** If a point of a curve claims to say something, it does. -/
theorem C85_curve_points_partial (p : CurvePoints) (h : curvePointsSpecified p = true) : SaysSomething p := by
  simp only [curvePointsSpecified, Bool.or_eq_true] at h
  unfold SaysSomething
  tauto

/-- **C85, violated** A point with nothing but a relative position or a placement claims to say nothing. -/
theorem C85_curve_points : (∀ v : ℚ, SaysSomething { positionData := { relativeX := ⟨true, v⟩ } } ∧ curvePointsSpecified { positionData := { relativeX := ⟨true, v⟩ } } = false)
    ∧ SaysSomething { positionData := { placement := .above } } ∧ curvePointsSpecified { positionData := { placement := .above } } = false := by
  refine ⟨fun v => ⟨by simp [SaysSomething], rfl⟩, by simp [SaysSomething], rfl⟩

/-- **C85** If a line claims to say something, it does. -/
theorem C85_line_partial (l : LineData) (h : lineSpecified l = true) : LineSaysSomething l := by
  simp only [lineSpecified, decide_eq_true_eq] at h
  unfold LineSaysSomething
  tauto

/-- **C85, violated** A line with nothing but a hook at its end claims to say nothing. -/
theorem C85_line : LineSaysSomething { lineHook := .up, endLength := ⟨true, 10⟩ } ∧ lineSpecified { lineHook := .up, endLength := ⟨true, 10⟩ } = false := by
  constructor
  · simp [LineSaysSomething]
  · rfl

example : curvePointsSpecified { bezierX := ⟨true, 5⟩ } = true ∧ lineSpecified { lineType := .dashed } = true ∧ isBlack { red := 0, green := 0, blue := 0 } = false ∧ isBlack {} = true := by decide

end Mx.Props
