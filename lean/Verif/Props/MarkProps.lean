import Verif.Proofs.Marks
import Verif.Props.NotationProps

/-
C38: categories of marks, C41: marks of notes, C42: fonts and print data.
-/
open Spec
namespace Mx.Props
open Mx.Spec

/-! ### C38 -/

/-- The categories named in the property. -/
def categories (t : Api.MarkType) : List Bool := [isMarkArticulation t, isMarkDynamic t, isMarkOrnament t, isMarkTechnical t, isMarkFermata t, isMarkPedal t]

/-- **C38** A mark type is in at most one category. -/
theorem C38_at_most_one (t : Api.MarkType) : (categories t).count true ≤ 1 := by cases t <;> decide

/-- **C38** Tremolos are ornaments. -/
theorem C38_tremolo_is_ornament (t : Api.MarkType) (h : isMarkTremolo t = true) : isMarkOrnament t = true := by
  revert h; cases t <;> decide

/-- **C38** The number of slashes is between 1 and 5 exactly for tremolos; it is −1 for all other marks. -/
theorem C38_slashes (t : Api.MarkType) : (isMarkTremolo t = true ↔ 1 ≤ numTremoloSlashes t ∧ numTremoloSlashes t ≤ 5) ∧ (isMarkTremolo t = false → numTremoloSlashes t = -1) := by
  cases t <;> decide

/-- **C38** Every number of slashes from 1 to 5 is that of exactly one mark. -/
theorem C38_slashes_unique (n : Int) (h1 : 1 ≤ n) (h5 : n ≤ 5) : ∃! t, numTremoloSlashes t = n := by
  have h : ∀ t, numTremoloSlashes t = n → t = if n = 1 then .tremoloSingleOne else if n = 2 then .tremoloSingleTwo else if n = 3 then .tremoloSingleThree
      else if n = 4 then .tremoloSingleFour else .tremoloSingleFive := by
    intro t e
    subst e
    revert h1
    cases t <;> decide
  refine ⟨_, ?_, h⟩
  have : n = 1 ∨ n = 2 ∨ n = 3 ∨ n = 4 ∨ n = 5 := by omega
  rcases this with e | e | e | e | e <;> subst e <;> decide

/-- **C38** The categories are complete: every mark that stands for an element of `<dynamics>`, `<articulations>`, `<ornaments>` or
`<technical>` is in the category of that name. -/
theorem C38_complete : (∀ c : Core.DynamicsEnum, isMarkDynamic (MapName.dynamicsMap.toApi c) = true) ∧
    (∀ c : Core.ArticulationsChoice, isMarkArticulation (MapName.articulationsMap.toApi c) = true) ∧
    (∀ c : Core.OrnamentsChoice, isMarkOrnament (MapName.ornamentsMap.toApi c) = true) ∧
    (∀ c : Core.TechnicalChoice, MapName.technicalMarkMap.toApi c ≠ Api.MarkType.unspecified → isMarkTechnical (MapName.technicalMarkMap.toApi c) = true) := by
  refine ⟨fun c => ?_, fun c => ?_, fun c => ?_, fun c => ?_⟩ <;> cases c <;> decide +kernel

/-- **C38** The other groups of marks (arpeggios, custom marks) are apart from the categories as well. -/
theorem C38_others_apart (t : Api.MarkType) (h : isMarkArpeggiate t = true ∨ isMarkNonArpeggiate t = true ∨ isMarkCustom t = true) : (categories t).count true = 0 := by
  revert h; cases t <;> decide

example : categories .tremoloSingleFour = [false, false, true, false, false, false] ∧ numTremoloSlashes .tremoloSingleFour = 4 := by decide
example : categories .unspecified = [false, false, false, false, false, false] := by decide

/-! ### C41: marks -/

/-- **C41** exactly: which marks of a note come back, in which order, with which types, names and positions. -/
theorem C41_marks (tick : Int) (marks : List MarkData) (h : ∀ m ∈ marks, MarkFits m) : (writeMarks marks).bind (readMarks tick) = some (keptMarks tick marks) := marks_back tick marks h

theorem keptMark_plain {tick : Int} {m : MarkData} (h : PlainMark tick m) : keptMark tick m = m := by
  obtain ⟨_, h2, h3, h4, _, h6⟩ := h
  rw [keptMark, h2, h6, ← h3, ← h4]

theorem plain_fits {tick : Int} {m : MarkData} (h : PlainMark tick m) : MarkFits m := by
  refine ⟨h.fits, fun e => ?_⟩
  rw [h.print] at e
  cases e

theorem map_plain {tick : Int} {l : List MarkData} (h : ∀ m ∈ l, PlainMark tick m) : l.map (keptMark tick) = l := by
  have e : ∀ m ∈ l, keptMark tick m = m := fun m hm => keptMark_plain (h m hm)
  rw [List.map_congr_left e, List.map_id'' (fun x => rfl)]

/-- The marks by group. -/
def grouped (l : List MarkData) : List MarkData := inGroup .alone l ++ inGroup .articulations l ++ inGroup .ornaments l ++ inGroup .technical l

theorem mem_grouped {l : List MarkData} {m : MarkData} (h : m ∈ grouped l) : m ∈ l := by
  unfold grouped at h
  simp only [List.mem_append] at h
  rcases h with ((h | h) | h) | h <;> exact List.mem_of_mem_filter h

theorem grouped_perm {l : List MarkData} (h : ∀ m ∈ l, groupOf m.markType ≠ none) : (grouped l).Perm l := by
  induction l with
  | nil => exact List.Perm.refl _
  | cons m l ih =>
    have ih := ih (fun x hx => h x (List.mem_cons_of_mem _ hx))
    have hm := h m List.mem_cons_self
    have hc : ∀ g, inGroup g (m :: l) = if groupOf m.markType = some g then m :: inGroup g l else inGroup g l := by
      intro g
      unfold inGroup
      rw [List.filter_cons]
      by_cases e : groupOf m.markType = some g <;> simp [e]
    refine List.Perm.trans ?_ (List.Perm.cons m ih)
    unfold grouped
    rw [hc, hc, hc, hc]
    cases e : groupOf m.markType with
    | none => exact absurd e hm
    | some g =>
      cases g
      · simp
      · simpa using List.perm_middle
      · simp only [Option.some.injEq, reduceCtorEq, if_false, if_true, ← List.append_assoc]
        exact (List.perm_middle.append_right _).trans (by simp)
      · simp only [Option.some.injEq, reduceCtorEq, if_false, if_true]
        exact List.perm_middle

/-- **C41 (partial)** Marks that MusicXML can hold come back unchanged, those of one group in their order.  The full property would include print data, the position of
fermatas, all mark types and the order of different groups; the theorems below show what happens to those. -/
theorem C41_marks_partial (tick : Int) (marks : List MarkData) (h : ∀ m ∈ marks, PlainMark tick m) :
    ∃ back, (writeMarks marks).bind (readMarks tick) = some back ∧ back.Perm marks ∧ ∀ g, inGroup g back = inGroup g marks := by
  refine ⟨grouped marks, ?_, grouped_perm (fun m hm => (h m hm).written), ?_⟩
  · rw [C41_marks tick marks (fun m hm => plain_fits (h m hm))]
    show some ((grouped marks).map (keptMark tick)) = _
    rw [map_plain (fun m hm => h m (mem_grouped hm))]
  · intro g
    have hf : ∀ g', inGroup g (inGroup g' marks) = if g = g' then inGroup g marks else [] := by
      intro g'
      unfold inGroup
      by_cases e : g = g'
      · subst e; rw [if_pos rfl, List.filter_filter]; simp
      · rw [if_neg e, List.filter_eq_nil_iff]
        intro m hm c
        have h1 := of_decide_eq_true c
        have h2 := of_decide_eq_true (List.mem_filter.mp hm).2
        rw [h1] at h2
        exact e (Option.some.inj h2)
    unfold grouped
    have ha : ∀ a b : List MarkData, inGroup g (a ++ b) = inGroup g a ++ inGroup g b := fun a b => List.filter_append _ _
    rw [ha, ha, ha, hf, hf, hf, hf]
    cases g <;> simp

/-- **C41 (partial)** A single mark that MusicXML can hold comes back unchanged. -/
theorem C41_mark_partial (tick : Int) (m : MarkData) (h : PlainMark tick m) : (writeMarks [m]).bind (readMarks tick) = some [m] := by
  obtain ⟨back, a, b, _⟩ := C41_marks_partial tick [m] (fun x hx => by rw [List.mem_singleton.mp hx]; exact h)
  rw [a, List.perm_singleton.mp b]

/-- **C41** Every fermata decodes to the same shape and direction, whatever its position and print data. -/
theorem C41_fermata (tick : Int) (m : MarkData) (hm : isMarkFermata m.markType = true) (h : MarkFits m) :
    ∃ back, (writeMarks [m]).bind (readMarks tick) = some [back] ∧ back.markType = m.markType ∧ back.tickTimePosition = tick := by
  refine ⟨keptMark tick m, ?_, ?_, rfl⟩
  · rw [C41_marks tick [m] (fun x hx => by rw [List.mem_singleton.mp hx]; exact h)]
    have hg : groupOf m.markType = some .alone := by rw [groupOf, hm, Bool.or_true]; rfl
    simp [keptMarks, inGroup, hg]
  · show (keptType m).1 = m.markType
    obtain ⟨t, name, tk, pr, pos⟩ := m
    replace hm : isMarkFermata t = true := hm
    cases t <;> first
      | exact absurd hm (by decide)
      | rfl

/-- **C41** Different fermatas are written differently: shape and direction determine the mark. -/
theorem C41_fermata_parts (a b : Api.MarkType) (ha : isMarkFermata a = true) (hb : isMarkFermata b = true) (h : fermataParts a = fermataParts b) : a = b := by
  have key : ∀ t, isMarkFermata t = true → fermataType (fermataParts t).1 (fermataParts t).2 = t := by intro t; cases t <;> decide
  rw [← key a ha, ← key b hb, h]

/-- A staccato, a square inverted fermata, a trill, an up bow and a tremolo as they are read from a document. -/
def sampleMarks : List MarkData :=
  [{ markType := .staccato, name := chars "staccato", tickTimePosition := 7, positionData := samplePosition },
   { markType := .fermataSquareInverted, tickTimePosition := 7 },
   { markType := .tremoloSingleTwo, name := chars "tremolo", tickTimePosition := 7 },
   { markType := .upBow, name := chars "up-bow", tickTimePosition := 7, positionData := { placement := .above } },
   { markType := .sfz, name := chars "sfz", tickTimePosition := 7, positionData := { horizontalAlignment := .right } },
   { markType := .otherArticulation, name := chars "rip", tickTimePosition := 7 }]

theorem emptyPosition_fits {p : PositionData} (h1 : p.defaultX = {}) (h2 : p.defaultY = {}) (h3 : p.relativeX = {}) (h4 : p.relativeY = {}) : PositionFits p := by
  have h : NumFits {} := fun h => (by cases h)
  exact ⟨by rw [h1]; exact h, by rw [h2]; exact h, by rw [h3]; exact h, by rw [h4]; exact h⟩

theorem sampleMarks_plain : ∀ m ∈ sampleMarks, PlainMark 7 m := by
  intro m hm
  simp only [sampleMarks, List.mem_cons, List.not_mem_nil, or_false] at hm
  rcases hm with rfl | rfl | rfl | rfl | rfl | rfl
  · exact ⟨by decide, by decide +kernel, rfl, rfl, samplePosition_fits, by decide +kernel⟩
  all_goals exact ⟨by decide, by decide +kernel, rfl, rfl, emptyPosition_fits rfl rfl rfl rfl, by decide +kernel⟩

/-- The hypotheses of `C41_marks_partial` are met by marks of all groups. -/
example : ∃ back, (writeMarks sampleMarks).bind (readMarks 7) = some back ∧ back.Perm sampleMarks ∧ ∀ g, inGroup g back = inGroup g sampleMarks :=
  C41_marks_partial 7 sampleMarks sampleMarks_plain

/-! What is lost or changed. -/

/-- **C41 is false for the order** of marks of different groups. -/
theorem C41_mark_order_lost : (writeMarks [.make .staccato, .make .fermata]).bind (readMarks 0) = some [.make .fermata, { MarkData.make .staccato with name := chars "staccato" }] := by
  decide +kernel

/-- **C41 is false for these types**: pedals, arpeggios, accidental marks and the unknown types are not written at all. -/
theorem C41_marks_not_written (marks : List MarkData) (h : ∀ m ∈ marks, groupOf m.markType = none) : writeMarks marks = some [] := by
  have step : ∀ (l : List MarkData) (w : WrittenMarks), (∀ m ∈ l, groupOf m.markType = none) → l.foldlM writeMark w = some w := by
    intro l
    induction l with
    | nil => intro w _; rfl
    | cons m l ih =>
      intro w hl
      have hm := hl m List.mem_cons_self
      have hw : writeMark w m = some w := by
        rcases group_cases m.markType with ⟨g, _⟩ | ⟨g, _⟩ | ⟨g, _⟩ | ⟨g, _⟩ | ⟨g, _⟩ | ⟨g, d, f, a, o, t⟩
        all_goals first
          | (rw [hm] at g; cases g; done)
          | simp [writeMark, addArticulation, addOrnament, addRest, a, o, t, d, f]
      rw [List.foldlM_cons, hw]
      exact ih w (fun x hx => hl x (List.mem_cons_of_mem _ hx))
  unfold writeMarks
  rw [step marks {} h]
  rfl

example : groupOf .pedal = none ∧ groupOf .damp = none ∧ groupOf .arpeggiateUp = none ∧ groupOf .nonArpeggiate = none ∧ groupOf .accidentalMarkSharp = none ∧
    groupOf .unknownFermata = none ∧ groupOf .unknownTechnical = none := by decide

/-- **C41 is false for arpeggios**: they are read from a document but not written. -/
theorem C41_arpeggio_not_written : ∃ m, readNotation 0 (.arpeggiate (some (chars "up"))) = some [m] ∧ m.markType = .arpeggiateUp ∧ writeMarks [m] = some [] :=
  ⟨MarkData.make .arpeggiateUp, by decide +kernel, rfl, by decide +kernel⟩

/-- **C41 is false for accidental marks**: they are read from a document but not written. -/
theorem C41_accidental_mark_not_written : ∃ m, readNotation 0 (.accidentalMark (chars "sharp") {}) = some [m] ∧ m.markType = .accidentalMarkSharp ∧ writeMarks [m] = some [] :=
  ⟨{ markType := .accidentalMarkSharp, name := chars "sharp" }, by decide +kernel, rfl, by decide +kernel⟩

/-- **C41 is false for fingernails**: the mark becomes an unnamed other technical mark, without its position. -/
theorem C41_fingernails_lost : (writeMarks [{ markType := .fingernails, name := chars "fingernails", positionData := { placement := .above } }]).bind (readMarks 0) =
    some [{ markType := .otherTechnical }] := by decide +kernel

/-- The element `<fingernails>` of a document is skipped. -/
theorem C41_fingernails_not_read (tick : Int) (x : MarkXml Core.TechnicalChoice) (h : x.choice = .fingernails) : readTechnical tick x = some none := by
  rw [readTechnical, h]; rfl

/-- **C41 is false for the position of a fermata.** -/
theorem C41_fermata_position_lost : (writeMarks [{ markType := .fermata, positionData := { defaultY := ⟨true, 20⟩ } }]).bind (readMarks 0) = some [{ markType := .fermata }] := by
  decide +kernel

/-- **C41 is false for print data**: no mark comes back with any, whatever was specified. -/
theorem C41_print_data_lost (tick : Int) (marks : List MarkData) (h : ∀ m ∈ marks, MarkFits m) :
    ∃ back, (writeMarks marks).bind (readMarks tick) = some back ∧ ∀ m ∈ back, m.printData = {} := by
  refine ⟨keptMarks tick marks, C41_marks tick marks h, ?_⟩
  intro m hm
  obtain ⟨x, _, rfl⟩ := List.mem_map.mp hm
  rfl

/-- A bold red `ff` loses weight and colour, although both are in the document. -/
theorem C41_dynamic_color_lost : ∃ x, writeMarks [{ MarkData.make .ff with printData := { isColorSpecified := true, color := { red := 255, green := 0, blue := 0 }, fontData := { weight := .bold } } }] =
    some [.dynamics x] ∧ x.print.color ≠ none ∧ x.print.weight = some (chars "bold") ∧ readMarks 0 [.dynamics x] = some [.make .ff] :=
  ⟨{ child := chars "ff", print := { weight := some (chars "bold"), color := some (chars "#FF0000") } }, by decide +kernel, by decide, rfl, by decide +kernel⟩

/-- **C41 is false for some names**: another dynamic named like a standard one becomes that one; an other articulation with the custom text becomes a custom mark. -/
theorem C41_named_dynamic_changed : (writeMarks [{ markType := .otherDynamics, name := chars "pp" }]).bind (readMarks 0) = some [.make .pp] := by decide +kernel

theorem C41_custom_name_changed : (writeMarks [{ markType := .otherArticulation, name := customName }]).bind (readMarks 0) = some [{ markType := .customAccentTenuto, name := customName }] := by
  decide +kernel

/-- **C41** Tremolos between notes are not read as marks, whatever else they say. -/
theorem C41_tremolo_between (tick : Int) (x : MarkXml Core.OrnamentsChoice) (hc : x.choice = .tremolo) (ht : x.tremoloType = some (chars "start") ∨ x.tremoloType = some (chars "stop")) :
    readOrnament tick x = some none := by
  have : isOtherTremolo x = true := by
    unfold isOtherTremolo
    rw [hc]
    rcases ht with e | e <;> rw [e] <;> decide +kernel
  rw [readOrnament, this]
  rfl

/-- **C41** A tremolo with a number of slashes from 1 to 5 is read as the mark with that number; without slashes it is read as three. -/
theorem C41_tremolo_read (tick n : Int) (hn : n ∈ [1, 2, 3, 4, 5]) (type : Option Str) (ht : type = none ∨ type = some (chars "single")) :
    ∃ m, readOrnament tick { choice := .tremolo, tremoloType := type, text := showInt n } = some (some m) ∧ numTremoloSlashes m.markType = n := by
  have h5 : n = 1 ∨ n = 2 ∨ n = 3 ∨ n = 4 ∨ n = 5 := by simpa using hn
  have hs : numTremoloSlashes (tremoloType (parseBounded .TremoloMarks (showInt n))) = n := by rcases h5 with rfl | rfl | rfl | rfl | rfl <;> decide +kernel
  rcases ht with rfl | rfl <;> exact ⟨_, rfl, hs⟩

theorem C41_no_slashes : tremoloType 0 = .tremoloSingleThree := rfl

/-- **C41 is false for tremolos of more than five slashes**: they are read as three. -/
theorem C41_many_slashes (n : Int) (h : n = 6 ∨ n = 7 ∨ n = 8) : tremoloType n = .tremoloSingleThree := by
  rcases h with rfl | rfl | rfl <;> decide +kernel

/-! ### C42: fonts and print data -/

/-- **C42** exactly: what comes back of font and colour through an element with any set of print attributes. -/
theorem C42_print (m : PrintMembers) (p : PrintData) (h : SizeFits p.fontData) (hf : FamilyFits p.fontData.fontFamily) (hl : LinesFit p.fontData) :
    (writePrint m p).bind (readPrint m) = some (keptPrint m p) := by
  obtain ⟨x, a, b⟩ := print_back m h hf hl
  rw [a, Option.bind_some, b]

/-- An element with all attributes of fonts and colours. -/
def fullPrint : PrintMembers := { lines := true, color := true, printObject := true }

/-- Print data without contradictions: only the size that is in use, up to three lines, the default alpha if it is not specified. -/
structure PlainPrint (p : PrintData) : Prop where
  printObject : p.printObject = .unspecified
  size : SizeFits p.fontData
  point : p.fontData.sizeType ≠ .point → p.fontData.sizePoint = -1
  css : p.fontData.sizeType ≠ .css → p.fontData.sizeCss = .unspecified
  cssGiven : p.fontData.sizeType = .css → p.fontData.sizeCss ≠ .unspecified
  family : FamilyFits p.fontData.fontFamily
  underline : 0 ≤ p.fontData.underline ∧ p.fontData.underline ≤ 3
  overline : 0 ≤ p.fontData.overline ∧ p.fontData.overline ≤ 3
  lineThrough : 0 ≤ p.fontData.lineThrough ∧ p.fontData.lineThrough ≤ 3
  color : keptColor p.isColorSpecified p.color = p.color

theorem keptLines_self {n : Int} (h : 0 ≤ n ∧ n ≤ 3) : keptLines n = n := by unfold keptLines; split <;> omega

/-- **C42 (partial)** Fonts and colours come back unchanged.  Missing: `printObject`, which is never written (`C42_print_object_lost`). -/
theorem C42_print_partial (p : PrintData) (h : PlainPrint p) : (writePrint fullPrint p).bind (readPrint fullPrint) = some p := by
  obtain ⟨h1, h2, h3, h4, h5, h6, h7, h8, h9, h10⟩ := h
  have hi : ∀ {n : Int}, 0 ≤ n ∧ n ≤ 3 → InInt n := by intro n hn; unfold InInt INT_MIN INT_MAX; omega
  rw [C42_print fullPrint p h2 h6 ⟨hi h7, hi h8, hi h9⟩]
  obtain ⟨po, ⟨st, sp, sc, fs, fw, ff, ul, ol, lt⟩, ic, c⟩ := p
  simp only at h1 h3 h4 h5 h7 h8 h9 h10
  subst h1
  simp only [keptPrint, fullPrint, if_true, true_and, Bool.true_and, keptLines_self h7, keptLines_self h8, keptLines_self h9, h10]
  have e1 : (if st = .point then sp else -1) = sp := by
    by_cases e : st = .point
    · rw [if_pos e]
    · rw [if_neg e, h3 e]
  have e2 : (if st = .css then (if sc = .unspecified then .medium else sc) else .unspecified) = sc := by
    by_cases e : st = .css
    · rw [if_pos e, if_neg (h5 e)]
    · rw [if_neg e, h4 e]
  rw [e1, e2]

/-- The hypotheses are met by an italic 10.5 point font with two families, underlined twice, in a half transparent colour. -/
def samplePrint : PrintData :=
  { fontData := { sizeType := .point, sizePoint := 21 / 2, style := .italic, fontFamily := [chars "Maestro", chars "Times New Roman"], underline := 2 }
    isColorSpecified := true, color := { red := 10, alpha := 128, isAlphaSpecified := true } }

theorem samplePrint_plain : PlainPrint samplePrint := by
  refine ⟨rfl, fun _ => ⟨⟨10500000, by norm_num [samplePrint]⟩, ?_⟩, fun h => absurd rfl h, fun _ => rfl, fun h => (by cases h), ⟨?_, by decide⟩, by decide, by decide, by decide, by decide⟩
  · show |(21 / 2 : ℚ)| ≤ _
    rw [abs_le]; constructor <;> norm_num
  · intro x hx
    simp only [samplePrint, List.mem_cons, List.not_mem_nil, or_false] at hx
    have hn : ∀ s : Str, xsToken s = s → Normalised s := fun s e => e ▸ C25_token_normalised s
    rcases hx with rfl | rfl <;> exact ⟨by decide, hn _ (by decide +kernel)⟩

example : (writePrint fullPrint samplePrint).bind (readPrint fullPrint) = some samplePrint := C42_print_partial samplePrint samplePrint_plain

/-- **C42 is false for `printObject`**: it is never written. -/
theorem C42_print_object_lost (m : PrintMembers) (p : PrintData) (x : PrintXml) (h : writePrint m p = some x) : x.printObject = none := by
  unfold writePrint at h
  cases e : ifMember m.font (writeFontSize p.fontData) with
  | none => rw [e] at h; cases h
  | some s =>
    rw [e] at h
    rw [← Option.some.inj h]

/-- **C42 is false for more than three lines**: they become three. -/
theorem C42_lines_limited : (writePrint fullPrint { fontData := { underline := 7 } }).bind (readPrint fullPrint) = some { fontData := { underline := 3 } } := by decide +kernel

/-- **C42 is false for font families with commas or an empty last name.** -/
theorem C42_family_comma_splits : readFamily (writeFamily [chars "a,b"]) = [chars "a", chars "b"] := by decide +kernel
theorem C42_empty_family_lost : readFamily (writeFamily [chars "a", []]) = [chars "a"] := by decide +kernel

end Mx.Props
