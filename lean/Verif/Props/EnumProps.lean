import Verif.Proofs.SchemaEnums
import Verif.Proofs.ApiEnums
import Verif.Proofs.Sounds
import Verif.Proofs.OpenEnums

/-! Properties of the enumerations: C23, C24, C53. -/
namespace Mx.Props

/-- C23. Every value of every enumeration is written as the text that the schema gives for it. -/
theorem C23_written_text (n : EnumName) (x : n.Carrier) (s : Str) : StringEnum.toStr x = s ↔ (x, s) ∈ Spec.schemaRows n := by
  obtain ⟨h1, h2⟩ := schemaAgrees_all n
  constructor
  · rintro rfl; exact h1 x
  · intro h; exact h2 _ h

/-- C23. A text is read as a value exactly when the schema gives that text for the value. -/
theorem C23_read_text (n : EnumName) (x : n.Carrier) (s : Str) : (tryParse s : Option n.Carrier) = some x ↔ (x, s) ∈ Spec.schemaRows n := by
  rw [← C23_written_text]
  constructor
  · intro h; exact ((roundTrips_all n x s).mp h).symm
  · intro h; exact (roundTrips_all n x s).mpr h.symm

/-- C23. What is written is read back. -/
theorem C23_round_trip (n : EnumName) (x : n.Carrier) : (parseEnum (StringEnum.toStr x) : n.Carrier) = x := by
  rw [parseEnum, (roundTrips_all n x _).mpr rfl]; rfl

/-- C23. Different values have different texts. -/
theorem C23_distinct_texts (n : EnumName) (x y : n.Carrier) (h : StringEnum.toStr x = StringEnum.toStr y) : x = y := by
  have h1 := (roundTrips_all n x _).mpr rfl
  rw [h, (roundTrips_all n y _).mpr rfl] at h1
  injection h1 with h1
  exact h1.symm

/-- C23. All texts that the schema does not list are read as one and the same value. -/
theorem C23_unknown_text (n : EnumName) (s t : Str) (hs : ∀ x, (x, s) ∉ Spec.schemaRows n) (ht : ∀ x, (x, t) ∉ Spec.schemaRows n) :
    (parseEnum s : n.Carrier) = parseEnum t := by
  have key : ∀ s : Str, (∀ x, (x, s) ∉ Spec.schemaRows n) → (tryParse s : Option n.Carrier) = none := by
    intro s hs
    cases h : (tryParse s : Option n.Carrier) with
    | none => rfl
    | some x => exact absurd ((C23_read_text n x s).mp h) (hs x)
  rw [parseEnum, parseEnum, key s hs, key t ht]

-- The schema's list of accidentals is not empty, and unknown texts exist.
example : (Core.AccidentalValue.slashQuarterSharp, chars "slash-quarter-sharp") ∈ Spec.schemaRows .AccidentalValue := by decide +kernel
example : ∀ x, (x, chars "Sharp") ∉ Spec.schemaRows .AccidentalValue := by intro x; cases x <;> decide +kernel

/-- C24. Every api value that stands for a MusicXML text is written as that text and read back as itself, except the three values of
`missingInTable`. -/
theorem C24_api_values_partial (n : MapName) (a : n.ApiType) (s : Str) (h : Spec.apiText n a = some s) (hm : missingInTable n a = false) :
    Spec.coreText n (n.toCore a) = s ∧ n.toApi (n.toCore a) = a :=
  apiRow_ok (apiRow_all n a) s h hm

/-- C24. Every MusicXML value is read as the api value that stands for its text and written back unchanged, except those of `unsupportedText`. -/
theorem C24_core_values_partial (n : MapName) (c : n.CoreType) (hu : unsupportedText n c = false) :
    n.toCore (n.toApi c) = c ∧ Spec.apiText n (n.toApi c) = some (Spec.coreText n c) :=
  coreRow_ok (coreRow_all n c) hu

example : Spec.apiText .accidentalMap .flatFlat = some (chars "flat-flat") ∧ missingInTable .accidentalMap .flatFlat = false := by decide +kernel
example : Spec.apiText .barlineMap .lightHeavy = some (chars "light-heavy") := by decide +kernel
example : unsupportedText .ornamentsMap .schleifer = false := by decide +kernel

/-- C24, negative: the notehead `faUp` is written as `none`. -/
theorem C24_fa_up_lost : Spec.apiText .noteheadMap .faUp = some (chars "fa up") ∧ Spec.coreText .noteheadMap (MapName.noteheadMap.toCore .faUp) = chars "none" ∧
    MapName.noteheadMap.toApi .faUp = .none := by decide +kernel

/-- C24, negative: the accidental `sharpSharp` is written as a natural, and read as no accidental. -/
theorem C24_sharp_sharp_lost : Spec.apiText .accidentalMap .sharpSharp = some (chars "sharp-sharp") ∧
    Spec.coreText .accidentalMap (MapName.accidentalMap.toCore .sharpSharp) = chars "natural" ∧ MapName.accidentalMap.toApi .sharpSharp = .none := by decide +kernel

/-- C24, negative: the technical mark `fingernails` is written as `other-technical`. -/
theorem C24_fingernails_lost : Spec.apiText .technicalMarkMap .fingernails = some (chars "fingernails") ∧
    Spec.coreText .technicalMarkMap (MapName.technicalMarkMap.toCore .fingernails) = chars "other-technical" ∧
    MapName.technicalMarkMap.toApi .fingernails = .unspecified := by decide +kernel

/-- C24. Every instrument sound of the api has a text, and the text gives the sound back. -/
theorem C24_sound_round_trip (x : Api.SoundID) :
    ∃ s, soundIDToString x = .ok s ∧ (x ≠ .unspecified → x ≠ .errorBadString → soundIDFromString s = x) := by
  by_cases h1 : x = .unspecified
  · exact ⟨chars "unspecified", by rw [soundIDToString, if_pos h1], fun h => absurd h1 h⟩
  by_cases h2 : x = .errorBadString
  · exact ⟨chars "error.bad.string", by rw [soundIDToString, if_neg h1, if_pos h2], fun _ h => absurd h2 h⟩
  obtain ⟨s, hs, _⟩ := sound_text (instrumentMap.toCore x)
  refine ⟨s, by rw [soundIDToString, if_neg h1, if_neg h2, hs], fun _ _ => ?_⟩
  rw [soundIDFromString, sound_parse.mpr hs]
  exact sound_toCore h1 h2

/-- C24. A text is read as a sound exactly when it is the text of the sound; every other text gives `errorBadString`, never an exception. -/
theorem C24_sound_text (s : Str) (x : Api.SoundID) (hu : x ≠ .unspecified) (he : x ≠ .errorBadString) :
    soundIDFromString s = x ↔ soundIDToString x = .ok s := by
  rw [soundIDToString, if_neg hu, if_neg he]
  constructor
  · rintro rfl
    rw [soundIDFromString] at hu he ⊢
    cases h : playbackSoundFromString s with
    | error e => rw [h] at he; exact absurd rfl he
    | ok p => dsimp only; rw [(sound_toApi p).1]; exact sound_parse.mp h
  · intro h
    rw [soundIDFromString, sound_parse.mpr h]; exact sound_toCore hu he

theorem C24_sound_never_unspecified (s : Str) : soundIDFromString s ≠ .unspecified := by
  rw [soundIDFromString]
  cases h : playbackSoundFromString s with
  | error e => exact fun h => by cases h
  | ok p => exact (sound_toApi p).2.1

example : soundIDFromString (chars "wind.reed.oboe-da-caccia") = .windReedOboeDaCaccia := by decide +kernel
example : soundIDFromString (chars "unspecified") = .errorBadString := by decide +kernel

/-- C53. For every history of setting texts and enumerators, the value of an open text type (dynamics, distance type, line width type, mode) is the one
described by the specification; partial: none of the texts is the literal name of the "own text" enumerator. -/
theorem C53_histories_partial (o : OpenName) (ops : List (OpenValue.Op o.enumName.Carrier)) (v : o.Value) (hv : OpenName.Ok v)
    (hops : ∀ s, OpenValue.Op.setText s ∈ ops → s ≠ Spec.otherName o) :
    Spec.OpenText.Steps (OpenName.abs v) ops (OpenName.abs (ops.foldl OpenValue.step v)) ∧ OpenName.Ok (ops.foldl OpenValue.step v) := by
  induction ops generalizing v with
  | nil => exact ⟨.nil, hv⟩
  | cons op t ih =>
    have hstep : OpenName.Ok (v.step op) ∧ Spec.OpenText.Step (OpenName.abs v) op (OpenName.abs (v.step op)) := by
      cases op with
      | setEnum e => exact open_setEnum v e hv
      | setText s =>
        have := open_setText v s (hops s (List.mem_cons_self ..))
        exact ⟨this.1, .text this.2⟩
    obtain ⟨h1, h2⟩ := ih (v.step op) hstep.1 (fun s hs => hops s (List.mem_cons_of_mem _ hs))
    exact ⟨.cons hstep.2 h1, h2⟩

/-- C53. The text read is the text written back; partial: not for the literal name of the "own text" enumerator. -/
theorem C53_text_kept_partial (o : OpenName) (s : Str) (hs : s ≠ Spec.otherName o) : (OpenValue.ofText s : o.Value).valueString = s := by
  obtain ⟨_, h2⟩ := open_setText (o := o) { enum := OpenEnum.other, custom := s } s hs
  have h3 : (OpenValue.ofText s : o.Value) = OpenValue.setText { enum := OpenEnum.other, custom := s } s := rfl
  rw [h3]
  revert h2
  generalize (OpenValue.setText { enum := OpenEnum.other, custom := s } s : o.Value) = v
  intro h2
  by_cases he : v.enum = OpenEnum.other
  · have h4 : OpenName.abs v = .own v.custom := if_pos he
    rw [h4] at h2
    rw [OpenValue.valueString, if_neg (fun h => h he)]; exact h2.1
  · have h4 : OpenName.abs v = .named v.enum := if_neg he
    rw [h4] at h2
    rw [OpenValue.valueString, if_pos he]; exact open_row.mp h2.1

/-- C53. The text written is the one of the value. -/
theorem C53_written_text (o : OpenName) (v : o.Value) : Spec.OpenText.Writes (OpenName.abs v) v.valueString := by
  by_cases he : v.enum = OpenEnum.other
  · have h4 : OpenName.abs v = .own v.custom := if_pos he
    rw [h4, OpenValue.valueString, if_neg (fun h => h he)]; rfl
  · have h4 : OpenName.abs v = .named v.enum := if_neg he
    rw [h4, OpenValue.valueString, if_pos he]; exact open_row.mpr rfl

/-- C53, negative: the dynamics text "other-dynamics" and the mode "other" are lost. -/
theorem C53_other_text_lost :
    (OpenValue.ofText (chars "other-dynamics") : OpenName.Value .DynamicsValue).valueString = [] ∧
    (OpenValue.ofText (chars "other") : OpenName.Value .ModeValue).valueString = [] := by decide +kernel

-- A concrete history: an own text, a named value, "own text" again.
example : OpenName.abs ([OpenValue.Op.setText (chars "sffpp"), .setEnum .pp, .setEnum .otherDynamics, .setText (chars "fz")].foldl OpenValue.step
    (OpenValue.ofEnum .mf : OpenName.Value .DynamicsValue)) = .named .fz := by decide +kernel
example : (OpenValue.ofText (chars "sffpp") : OpenName.Value .DynamicsValue).valueString = chars "sffpp" := by decide +kernel
example : OpenName.Ok (OpenValue.ofEnum .mf : OpenName.Value .DynamicsValue) := fun _ => by decide +kernel

end Mx.Props
