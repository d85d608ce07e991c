import Verif.Proofs.ScoreHeader
import Verif.Props.DirectionProps

/-
C70: titles, creators, rights, encoding and page texts survive writing and reading.
-/
open Spec
namespace Mx.Props
open Mx.Spec Header Directions

/-- **C70** Exactly what comes back of the texts of a score: all titles and numbers, composer, lyricist and copyright, encoder, description and software as they are; the date as the nearest one; the names of supported items and of miscellaneous fields with single spaces; and the page texts with their pages. -/
theorem C70_exact (s : ScoreTexts) (h : TextsFit s) : (writeHeader s).bind readHeader = some (keptTexts s) := by
  obtain ⟨x, a, b⟩ := header_back h
  rw [a]; exact b

/-- **C70** Texts in the form in which documents hold them, without arranger and publisher, come back unchanged. (For all texts this is false, see the witnesses below.) -/
theorem C70_unchanged_partial (s : ScoreTexts) (h : PlainTexts s) : (writeHeader s).bind readHeader = some s := by
  rw [C70_exact s (plainTexts_fit h), keptTexts_self h]

/-- **C70** All texts that need no numbers come back, whatever characters they hold: nothing is exchanged between the fields. -/
theorem C70_texts (s : ScoreTexts) (h : TextsFit s) : ∃ x t, writeHeader s = some x ∧ readHeader x = some t ∧
    t.workTitle = s.workTitle ∧ t.workNumber = s.workNumber ∧ t.movementTitle = s.movementTitle ∧ t.movementNumber = s.movementNumber ∧
    t.composer = s.composer ∧ t.lyricist = s.lyricist ∧ t.copyright = s.copyright ∧
    t.encoding.encoder = s.encoding.encoder ∧ t.encoding.encodingDescription = s.encoding.encodingDescription ∧ t.encoding.software = s.encoding.software ∧
    t.encoding.miscelaneousFields.map (·.2) = s.encoding.miscelaneousFields.map (·.2) ∧
    t.pageTextItems.map (·.text) = s.pageTextItems.map (·.text) ∧ t.pageTextItems.map (·.description) = s.pageTextItems.map (·.description) := by
  obtain ⟨x, a, b⟩ := header_back h
  refine ⟨x, _, a, b, rfl, rfl, rfl, rfl, rfl, rfl, rfl, rfl, rfl, rfl, ?_, ?_, ?_⟩
  · show (s.encoding.miscelaneousFields.map _).map _ = _
    rw [List.map_map]; rfl
  · show (s.pageTextItems.map _).map _ = _
    rw [List.map_map]; rfl
  · show (s.pageTextItems.map _).map _ = _
    rw [List.map_map]; rfl

/-- **C70** A date of the calendar comes back, and so does no date at all. -/
theorem C70_date (s : ScoreTexts) (h : TextsFit s) (hd : PlainDate s.encoding.encodingDate) : ∃ t, (writeHeader s).bind readHeader = some t ∧ t.encoding.encodingDate = s.encoding.encodingDate :=
  ⟨_, C70_exact s h, keptDate_self hd⟩

/-- **C70** The text of the date in the file is always that of a day of the calendar. -/
theorem C70_date_written (s : ScoreTexts) (x : HeaderXml) (h : writeHeader s = some x) (i : IdentificationXml) (hi : x.identification = some i) (t : Str) (ht : .date t ∈ i.encoding.getD []) :
    ∃ d : Date, ValidDate d.year d.month d.day ∧ t = d.toStr := by
  have hx : x.identification = writeIdentification s := by
    unfold writeHeader at h
    cases e : s.pageTextItems.mapM writePageText with
    | none => rw [e] at h; cases h
    | some xs => rw [e] at h; cases h; rfl
  rw [hx] at hi
  unfold writeIdentification at hi
  simp only at hi
  split at hi
  · cases hi
  · cases hi
    have hm : .date t ∈ writeEncoding s.encoding := by
      simp only at ht
      split at ht
      · cases ht
      · exact ht
    unfold writeEncoding at hm
    simp only [List.mem_append] at hm
    rcases hm with (((hm | hm) | hm) | hm) | hm
    · split at hm
      · cases hm
      · cases List.mem_singleton.mp hm
    · unfold writeDate at hm
      simp only at hm
      split at hm
      · cases List.mem_singleton.mp hm
        exact ⟨_, Date.make_valid _ _ _, rfl⟩
      · cases hm
    · split at hm
      · cases hm
      · cases List.mem_singleton.mp hm
    · obtain ⟨_, _, h⟩ := List.mem_map.mp hm; cases h
    · obtain ⟨_, _, h⟩ := List.mem_map.mp hm; cases h

/-- **C70** Who is taken for composer and lyricist, for every document: the first creator of type composer, otherwise the last one without a type; and the last lyricist, arranger or publisher. No arranger or publisher is ever returned. -/
theorem C70_creators (x : HeaderXml) (s : ScoreTexts) (h : readHeader x = some s) :
    s.composer = composerOf ((x.identification.map (·.creators)).getD []) ∧ s.lyricist = lyricistOf ((x.identification.map (·.creators)).getD []) ∧ s.arranger = [] ∧ s.publisher = [] :=
  header_creators h

/-- **C70** What is read from any document whose page texts have plain positions and fonts is unchanged by writing and reading it again. -/
theorem C70_loaded_stable (x : HeaderXml) (s : ScoreTexts) (h : readHeader x = some s) (hp : ∀ p ∈ s.pageTextItems, PlainPageText p) : (writeHeader s).bind readHeader = some s :=
  C70_unchanged_partial s (header_plain h hp)

/-! ### Witnesses -/

/-- Arranger and publisher of a score are not written at all. -/
theorem C70_arranger_lost : ∃ s t, TextsFit s ∧ (writeHeader s).bind readHeader = some t ∧ s.arranger = chars "Busoni" ∧ s.publisher = chars "Peters" ∧ t = {} :=
  ⟨{ arranger := chars "Busoni", publisher := chars "Peters" }, {}, (by intro p hp; cases hp), by decide, rfl, rfl, rfl⟩

/-- A document with a lyricist and an arranger: the arranger is taken for the lyricist, and is called so when the score is written. -/
theorem C70_arranger_as_lyricist : ∃ x s y i, readHeader x = some s ∧ s.lyricist = chars "Busoni" ∧ s.arranger = [] ∧
    x.identification.map (·.creators) = some [⟨some (chars "lyricist"), chars "Rilke"⟩, ⟨some (chars "arranger"), chars "Busoni"⟩] ∧
    writeHeader s = some y ∧ y.identification = some i ∧ i.creators = [⟨some (chars "lyricist"), chars "Busoni"⟩] :=
  ⟨{ identification := some { creators := [⟨some (chars "lyricist"), chars "Rilke"⟩, ⟨some (chars "arranger"), chars "Busoni"⟩] } }, { lyricist := chars "Busoni" },
   { identification := some { creators := [⟨some (chars "lyricist"), chars "Busoni"⟩] } }, { creators := [⟨some (chars "lyricist"), chars "Busoni"⟩] }, by decide, rfl, rfl, rfl, by decide, rfl, rfl⟩

/-- A year alone comes back as the first of January of that year; the 30th of February as the last of February. -/
theorem C70_date_changed : keptDate ⟨2020, -1, -1⟩ = ⟨2020, 1, 1⟩ ∧ keptDate ⟨2021, 2, 30⟩ = ⟨2021, 2, 28⟩ ∧ keptDate ⟨0, 5, -3⟩ = ⟨1, 5, 1⟩ ∧ keptDate ⟨-1, 13, 0⟩ = {} := by decide

/-- An encoding date that is no date is read as the first of January 1900. -/
theorem C70_date_invented : ∃ x s, readHeader x = some s ∧ x.identification = some { encoding := some [.date (chars "last week")] } ∧ s.encoding.encodingDate = ⟨1900, 1, 1⟩ :=
  ⟨{ identification := some { encoding := some [.date (chars "last week")] } }, { encoding := { encodingDate := ⟨1900, 1, 1⟩ } }, by decide, rfl, rfl⟩

/-! ### Examples -/

/-- A score with all texts. -/
def fullTexts : ScoreTexts :=
  { is30 := true, workTitle := chars "Winterreise", workNumber := chars "D 911", movementTitle := chars "Gute Nacht", movementNumber := chars "1"
    composer := chars "Franz Schubert", lyricist := chars "Wilhelm Müller", copyright := chars "public domain"
    encoding := {
      encodingDate := ⟨2024, 2, 29⟩, encoder := chars "A. B.", encodingDescription := chars "two  spaces", software := [chars "x 1.0", chars "y"]
      supportedItems := [{ elementName := chars "print", attributeName := chars "new-page", specificValue := chars "yes" }, { elementName := chars "beam", isSupported := false }]
      miscelaneousFields := [(chars "key", chars " value ")] }
    pageTextItems := [{ text := chars "Winterreise", pageNumber := 1, description := chars "title" }, { text := chars "everywhere" }] }

example : PlainTexts fullTexts where
  type := rfl
  arranger := rfl
  publisher := rfl
  encoding := ⟨.inr (by decide), by
      intro s hs
      have h : ∀ s ∈ fullTexts.encoding.supportedItems, xsToken s.elementName = s.elementName ∧ xsToken s.attributeName = s.attributeName ∧ xsToken s.specificValue = s.specificValue := by decide +kernel
      obtain ⟨a, b, c⟩ := h s hs
      exact ⟨a ▸ C25_token_normalised _, b ▸ C25_token_normalised _, c ▸ C25_token_normalised _⟩, by
      intro m hm
      have h : ∀ m ∈ fullTexts.encoding.miscelaneousFields, xsToken m.1 = m.1 := by decide +kernel
      exact h m hm ▸ C25_token_normalised _⟩
  pages := by
    intro p hp
    rcases List.mem_cons.mp hp with rfl | hp
    · exact ⟨by decide, plainAt_empty _, plainFont_empty⟩
    · cases List.mem_singleton.mp hp
      exact ⟨by decide, plainAt_empty _, plainFont_empty⟩

example : keptTexts { fullTexts with arranger := chars "Liszt", encoding := { miscelaneousFields := [(chars " a  b", chars " v ")] } } =
    { fullTexts with encoding := { miscelaneousFields := [(chars "a b", chars " v ")] } } := by decide +kernel

end Mx.Props
