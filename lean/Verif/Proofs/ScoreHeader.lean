import Verif.Spec.ScoreHeader
import Verif.Proofs.DirectionsPlain
import Verif.Proofs.Instruments
import Verif.Props.DateProps

/-
Proofs about the texts of a score.
-/
open Spec
namespace Mx.Header
open Mx.Spec Directions

/-! ### The date -/

theorem constrain_eq {v lo hi : Int} (h : lo ≤ hi) : Date.constrainToRange v lo hi = nearestIn lo hi v := by
  unfold Date.constrainToRange nearestIn
  split
  · omega
  · split <;> omega

theorem monthLength_pos (y m : Int) : 1 ≤ monthLength y m := by
  unfold monthLength; split <;> [omega; split <;> [split <;> omega; omega]]

theorem make_nearest (d : EncodingDate) : Date.make d.year d.month d.day = ⟨(nearestDate d).year, (nearestDate d).month, (nearestDate d).day⟩ := by
  have hy : (1 : Int) ≤ nearestIn 1 9999 d.year ∧ nearestIn 1 9999 d.year ≤ 9999 := by unfold nearestIn; omega
  have hm : (1 : Int) ≤ nearestIn 1 12 d.month ∧ nearestIn 1 12 d.month ≤ 12 := by unfold nearestIn; omega
  simp only [Date.make, Date.setYear, Date.setMonth, Date.setDay, nearestDate]
  rw [constrain_eq (v := d.year) (by decide), constrain_eq (v := d.month) (by decide), Date.daysInMonth_eq hy.1 hy.2 hm.1 hm.2,
    constrain_eq (v := d.day) (monthLength_pos _ _)]

theorem date_back (d : EncodingDate) : ((writeDate d = [] ∧ keptDate d = {}) ∨ ∃ t, writeDate d = [.date t] ∧ keptDate d = ⟨(Date.ofString t).year, (Date.ofString t).month, (Date.ofString t).day⟩) := by
  have hv := Date.make_valid d.year d.month d.day
  unfold writeDate keptDate
  simp only
  rw [make_nearest] at hv ⊢
  simp only
  by_cases h : d.year = (nearestDate d).year ∨ d.month = (nearestDate d).month ∨ d.day = (nearestDate d).day
  · rw [if_pos h, if_pos h]
    refine .inr ⟨_, rfl, ?_⟩
    rw [Date.ofString, Date.parse_toStr hv]
  · rw [if_neg h, if_neg h]
    exact .inl ⟨rfl, rfl⟩

/-! ### Encoding -/

theorem token_twice (s : Str) : xsToken (xsToken s) = joined [' '] (words s) := by
  rw [Props.C25_idempotent, Props.C25_token_is_words]

theorem token_text (s : Str) : (((ifText s).map xsToken).map xsToken).getD [] = joined [' '] (words s) := by
  unfold ifText
  by_cases h : s = []
  · subst h; decide
  · rw [if_neg h]; exact token_twice s

theorem fold_software (l : List Str) (f : EncodingFound) : (l.map EncodingXml.software).foldl readEncodingItem f = { f with data := { f.data with software := f.data.software ++ l } } := by
  induction l generalizing f with
  | nil => simp
  | cons a l ih =>
    rw [List.map_cons, List.foldl_cons, ih]
    simp [readEncodingItem]

theorem supported_back (f : EncodingFound) (s : SupportedItem) : readEncodingItem f (writeSupported s) = { f with data := { f.data with supportedItems := f.data.supportedItems ++ [keptSupported s] } } := by
  have hyn : decide ((parseEnum (StringEnum.toStr (if s.isSupported then Core.YesNo.yes else Core.YesNo.no)) : Core.YesNo) = .yes) = s.isSupported := by
    cases s.isSupported <;> rfl
  unfold writeSupported readEncodingItem keptSupported
  simp only [hyn, token_text, token_twice]

theorem fold_supported (l : List SupportedItem) (f : EncodingFound) :
    (l.map writeSupported).foldl readEncodingItem f = { f with data := { f.data with supportedItems := f.data.supportedItems ++ l.map keptSupported } } := by
  induction l generalizing f with
  | nil => simp
  | cons a l ih =>
    rw [List.map_cons, List.foldl_cons, supported_back, ih]
    simp

theorem writeEncoding_back (e : EncodingData) : ((writeEncoding e).foldl readEncodingItem {}).data = { keptEncoding e with miscelaneousFields := [] } := by
  unfold writeEncoding
  rw [List.foldl_append, List.foldl_append, List.foldl_append, List.foldl_append, fold_supported, fold_software]
  have h1 : (if e.encoder = [] then ([] : List EncodingXml) else [.encoder e.encoder]).foldl readEncodingItem {} = { data := { encoder := e.encoder }, encoder := decide (e.encoder ≠ []) } := by
    by_cases h : e.encoder = []
    · rw [if_pos h, h]; rfl
    · rw [if_neg h, decide_eq_true h]; rfl
  have h2 (f : EncodingFound) (hf : f.date = false) (hd : f.data.encodingDate = {}) : ∃ b, (writeDate e.encodingDate).foldl readEncodingItem f = { f with data := { f.data with encodingDate := keptDate e.encodingDate }, date := b } := by
    rcases date_back e.encodingDate with ⟨a, b⟩ | ⟨t, a, b⟩
    · refine ⟨f.date, ?_⟩
      rw [a, b, List.foldl_nil, ← hd]
    · refine ⟨true, ?_⟩
      rw [a, b, List.foldl_cons, List.foldl_nil]
      simp only [readEncodingItem, hf, Bool.false_eq_true, if_false]
  have h3 (f : EncodingFound) (hf : f.description = false) (hd : f.data.encodingDescription = []) :
      ∃ b, (if e.encodingDescription = [] then ([] : List EncodingXml) else [.description e.encodingDescription]).foldl readEncodingItem f =
        { f with data := { f.data with encodingDescription := e.encodingDescription }, description := b } := by
    by_cases h : e.encodingDescription = []
    · refine ⟨f.description, ?_⟩
      rw [if_pos h, List.foldl_nil, h, ← hd]
    · refine ⟨true, ?_⟩
      rw [if_neg h, List.foldl_cons, List.foldl_nil]
      simp only [readEncodingItem, hf, Bool.false_eq_true, if_false]
  rw [h1]
  obtain ⟨b, hb⟩ := h2 { data := { encoder := e.encoder }, encoder := decide (e.encoder ≠ []) } rfl rfl
  rw [hb]
  obtain ⟨c, hc⟩ := h3 { data := { encoder := e.encoder, encodingDate := keptDate e.encodingDate }, encoder := decide (e.encoder ≠ []), date := b } rfl rfl
  rw [hc]
  simp [keptEncoding]

theorem encoding_back (e : EncodingData) (c r : List TypedText) :
    readEncoding { creators := c, rights := r, encoding := if writeEncoding e = [] ∧ writeMisc e = none then none else some (writeEncoding e), miscellaneous := writeMisc e } = keptEncoding e := by
  have hopt : (if writeEncoding e = [] ∧ writeMisc e = none then none else some (writeEncoding e)).getD [] = writeEncoding e := by
    split
    · rename_i h; rw [h.1]; rfl
    · rfl
  have hm : ((writeMisc e).getD []).map (fun m => (xsToken m.1, m.2)) = e.miscelaneousFields.map fun m => (joined [' '] (words m.1), m.2) := by
    unfold writeMisc
    by_cases h : e.miscelaneousFields = []
    · rw [if_pos h, h]; rfl
    · rw [if_neg h, Option.getD_some, List.map_map]
      apply List.map_congr_left
      intro m _
      simp only [Function.comp, token_twice]
  unfold readEncoding
  simp only
  rw [hopt, hm, writeEncoding_back]
  simp [keptEncoding]

/-! ### Creators and rights -/

theorem creators_back (s : ScoreTexts) (a b : Str) (ha : s.composer = []) (hb : s.lyricist = []) :
    ((writeTyped (chars "composer") a ++ writeTyped (chars "lyricist") b).foldl readCreator (s, false)).1 = { s with composer := a, lyricist := b } := by
  have t1 : xsToken (xsToken (chars "composer")) = chars "composer" := by decide
  have t2 : xsToken (xsToken (chars "lyricist")) = chars "lyricist" := by decide
  have n1 : ¬ chars "composer" = chars "lyricist" := by decide
  have n2 : ¬ chars "composer" = chars "arranger" := by decide
  have n3 : ¬ chars "composer" = chars "publisher" := by decide
  have n4 : ¬ chars "lyricist" = chars "composer" := by decide
  have n5 : ¬ chars "lyricist" = chars "arranger" := by decide
  have n6 : ¬ chars "lyricist" = chars "publisher" := by decide
  have c1 (x : Str) : readCreator (s, false) ⟨some (xsToken (chars "composer")), x⟩ = ({ s with composer := x }, true) := by
    simp only [readCreator, Option.map_some, Option.getD_some, t1, n1, n2, n3, if_false, and_self, if_true, reduceCtorEq, and_false, Bool.true_eq_false, false_and]
  have c2 (s : ScoreTexts) (f : Bool) (x : Str) : readCreator (s, f) ⟨some (xsToken (chars "lyricist")), x⟩ = ({ s with lyricist := x }, f) := by
    simp only [readCreator, Option.map_some, Option.getD_some, t2, n4, n5, n6, if_false, if_true, reduceCtorEq, and_false, false_and]
  unfold writeTyped
  by_cases h1 : a = [] <;> by_cases h2 : b = []
  · subst h1 h2; rw [if_pos rfl, if_pos rfl]; simp only [List.append_nil, List.foldl_nil]; cases s; simp only at ha hb; subst ha hb; rfl
  · subst h1; rw [if_pos rfl, if_neg h2, List.nil_append, List.foldl_cons, List.foldl_nil, c2]; simp only; rw [← ha]
  · subst h2; rw [if_neg h1, if_pos rfl, List.append_nil, List.foldl_cons, List.foldl_nil, c1]; simp only; rw [← hb]
  · rw [if_neg h1, if_neg h2, List.cons_append, List.nil_append, List.foldl_cons, List.foldl_cons, List.foldl_nil, c1, c2]

theorem rights_back (s : ScoreTexts) (a : Str) (ha : s.copyright = []) : ((writeTyped (chars "copyright") a).foldl readRights (s, false)).1 = { s with copyright := a } := by
  have t1 : xsToken (xsToken (chars "copyright")) = chars "copyright" := by decide
  unfold writeTyped
  by_cases h1 : a = []
  · subst h1; rw [if_pos rfl, List.foldl_nil, ← ha]
  · rw [if_neg h1, List.foldl_cons, List.foldl_nil]
    simp only [readRights, Option.map_some, t1, and_self, if_true, Bool.true_eq_false, false_and, if_false]

theorem identification_back (s t : ScoreTexts) (h1 : t.composer = []) (h2 : t.lyricist = []) (h3 : t.copyright = []) (h4 : t.encoding = {}) :
    readIdentification t (writeIdentification s) = { t with composer := s.composer, lyricist := s.lyricist, copyright := s.copyright, encoding := keptEncoding s.encoding } := by
  have hc := creators_back t s.composer s.lyricist h1 h2
  have hr := rights_back { t with composer := s.composer, lyricist := s.lyricist } s.copyright h3
  have he := encoding_back s.encoding (writeTyped (chars "composer") s.composer ++ writeTyped (chars "lyricist") s.lyricist) (writeTyped (chars "copyright") s.copyright)
  unfold writeIdentification
  simp only
  split
  · rename_i h
    obtain ⟨a, b, c, d⟩ := h
    rw [a] at hc
    rw [b] at hr
    rw [c, d] at he
    simp only [List.foldl_nil] at hc hr
    have he' : keptEncoding s.encoding = {} := by rw [← he]; rfl
    rw [readIdentification, he', ← h4]
    rw [← hc] at hr
    exact hr
  · rw [readIdentification, hc, hr, he]

/-! ### Page texts -/

theorem pageText_back {p : PageTextData} (h : PageTextFits p) : ∃ x, writePageText p = some x ∧ x.isWords = true ∧ readPageText x = some (keptPageText p) := by
  obtain ⟨q, a, a'⟩ := position_back creditMembers h.2.1
  obtain ⟨r, b, b'⟩ := print_back wordsPrint (p := { fontData := p.fontData }) h.2.2.1 h.2.2.2.1 h.2.2.2.2
  refine ⟨_, by rw [writePageText, a, b]; rfl, rfl, ?_⟩
  rw [readPageText]
  simp only
  rw [a', b']
  have hn : ((if p.pageNumber > 0 then some (IntRange.ofKind .PositiveInteger p.pageNumber).toStr else none).map (parseBounded .PositiveInteger)).getD 0 = max 0 p.pageNumber := by
    by_cases hp : p.pageNumber > 0
    · rw [if_pos hp, Option.map_some, Option.getD_some, parseBounded_write h.1 (by decide)]
      have := h.1
      unfold nearestIn IntKind.bounds
      unfold InInt at this
      simp only
      omega
    · rw [if_neg hp, Option.map_none, Option.getD_none]; omega
  have hd : ((if p.description = [] then [] else [p.description]).head?).getD [] = p.description := by
    by_cases hp : p.description = []
    · rw [if_pos hp, hp]; rfl
    · rw [if_neg hp]; rfl
  show some _ = _
  rw [hn, hd]
  rfl

theorem ifText_back (s : Str) : (ifText s).getD [] = s := by
  unfold ifText; split
  · rename_i h; rw [h]; rfl
  · rfl

theorem filter_words {l : List CreditXml} (h : ∀ c ∈ l, c.isWords = true) : l.filter (·.isWords) = l := List.filter_eq_self.mpr h

theorem mapM_words : ∀ {l : List PageTextData} {xs : List CreditXml}, l.mapM writePageText = some xs → (∀ p ∈ l, PageTextFits p) → ∀ c ∈ xs, c.isWords = true
  | [], xs, h, _, c, hc => by simp at h; subst h; cases hc
  | p :: l, xs, h, hf, c, hc => by
    obtain ⟨x, a, b, _⟩ := pageText_back (hf p (by simp))
    rw [List.mapM_cons, a] at h
    cases e : l.mapM writePageText with
    | none => rw [e] at h; cases h
    | some ys =>
      rw [e] at h
      have : xs = x :: ys := by cases h; rfl
      subst this
      rcases List.mem_cons.mp hc with rfl | hc
      · exact b
      · exact mapM_words e (fun p hp => hf p (by simp [hp])) c hc

theorem header_back {s : ScoreTexts} (h : TextsFit s) : ∃ x, writeHeader s = some x ∧ readHeader x = some (keptTexts s) := by
  obtain ⟨xs, a, _, b⟩ := Directions.mapM_back (w := writePageText) (r := readPageText) (k := keptPageText) (l := s.pageTextItems)
    (fun p hp => by obtain ⟨x, h1, _, h2⟩ := pageText_back (h p hp); exact ⟨x, h1, h2⟩)
  refine ⟨_, by rw [writeHeader, a]; rfl, ?_⟩
  rw [readHeader]
  simp only
  rw [filter_words (mapM_words a h), b]
  have hv : decide ((if s.is30 then some (chars "3.0") else none).map xsToken = some (chars "3.0")) = s.is30 := by cases s.is30 <;> decide
  show some _ = _
  rw [hv, ifText_back, ifText_back, ifText_back, ifText_back, identification_back s _ rfl rfl rfl rfl]
  rfl

/-! ### Texts that come back unchanged -/

theorem nearest_valid {d : EncodingDate} (h : ValidDate d.year d.month d.day) : nearestDate d = d := by
  obtain ⟨a, b, c, e, f, g⟩ := h
  have hy : nearestIn 1 9999 d.year = d.year := by unfold nearestIn; omega
  have hm : nearestIn 1 12 d.month = d.month := by unfold nearestIn; omega
  unfold nearestDate
  simp only [hy, hm]
  have hd : nearestIn 1 (monthLength d.year d.month) d.day = d.day := by unfold nearestIn; omega
  rw [hd]

theorem keptDate_self {d : EncodingDate} (h : PlainDate d) : keptDate d = d := by
  rcases h with rfl | h
  · decide
  · rw [keptDate, nearest_valid h, if_pos (.inl rfl)]

theorem nearest_isValid (d : EncodingDate) : ValidDate (nearestDate d).year (nearestDate d).month (nearestDate d).day := by
  have := Date.make_valid d.year d.month d.day
  rw [make_nearest] at this
  exact this

theorem keptDate_plain (d : EncodingDate) : PlainDate (keptDate d) := by
  unfold keptDate
  split
  · exact .inr (nearest_isValid d)
  · exact .inl rfl

theorem joined_self {s : Str} (h : Normalised s) : joined [' '] (words s) = s := by
  rw [← Props.C25_token_is_words, Props.C25_normalised_kept s h]

theorem joined_normal (s : Str) : Normalised (joined [' '] (words s)) := by
  rw [← Props.C25_token_is_words]; exact Props.C25_token_normalised s

theorem map_self {α : Type} {f : α → α} {l : List α} (h : ∀ a ∈ l, f a = a) : l.map f = l := by
  conv_rhs => rw [← List.map_id l]
  exact List.map_congr_left h

theorem keptEncoding_self {e : EncodingData} (h : PlainEncoding e) : keptEncoding e = e := by
  unfold keptEncoding
  rw [keptDate_self h.date, map_self (f := keptSupported), map_self (f := fun m : Str × Str => (joined [' '] (words m.1), m.2))]
  · intro m hm; simp only [joined_self (h.misc m hm)]
  · intro s hs
    obtain ⟨a, b, c⟩ := h.supported s hs
    simp only [keptSupported, joined_self a, joined_self b, joined_self c]

theorem keptEncoding_plain (e : EncodingData) : PlainEncoding (keptEncoding e) where
  date := keptDate_plain _
  supported := by
    intro s hs
    obtain ⟨t, _, rfl⟩ := List.mem_map.mp hs
    exact ⟨joined_normal _, joined_normal _, joined_normal _⟩
  misc := by
    intro s hs
    obtain ⟨t, _, rfl⟩ := List.mem_map.mp hs
    exact joined_normal _

theorem plainPage_fits {p : PageTextData} (h : PlainPageText p) : PageTextFits p :=
  ⟨⟨by have := h.number.1; unfold INT_MIN; omega, h.number.2⟩, h.position.fits, h.font.size, h.font.family, by
    have h1 := h.font.underline
    have h2 := h.font.overline
    have h3 := h.font.lineThrough
    unfold LinesFit InInt INT_MIN INT_MAX
    refine ⟨?_, ?_, ?_⟩ <;> omega⟩

theorem keptPage_self {p : PageTextData} (h : PlainPageText p) : keptPageText p = p := by
  have hn : max 0 p.pageNumber = p.pageNumber := by have := h.number.1; omega
  unfold keptPageText
  rw [hn, kept_at rfl rfl h.position, font_self h.font]

theorem keptTexts_self {s : ScoreTexts} (h : PlainTexts s) : keptTexts s = s := by
  unfold keptTexts
  rw [keptEncoding_self h.encoding, map_self (f := keptPageText) (fun p hp => keptPage_self (h.pages p hp))]
  obtain ⟨h1, h2, h3, _, _⟩ := h
  cases s
  simp only at h1 h2 h3
  simp only [h1, h2, h3]

theorem plainTexts_fit {s : ScoreTexts} (h : PlainTexts s) : TextsFit s := fun p hp => plainPage_fits (h.pages p hp)

/-! ### Who wrote it -/

theorem type_eq (c : TypedText) : (c.type.map xsToken).getD [] = creatorType c := by
  unfold creatorType; cases c.type with
  | none => rfl
  | some t => exact Props.C25_token_is_words t

theorem untyped {c : TypedText} (h : c.type = none) : creatorType c = [] := by unfold creatorType; rw [h]; rfl

/-- One creator: the composer. -/
theorem creator_composer (s : ScoreTexts) (f : Bool) (c : TypedText) :
    (readCreator (s, f) c).2 = (f || decide (creatorType c = chars "composer")) ∧
    (readCreator (s, f) c).1.composer = if f = false ∧ (creatorType c = chars "composer" ∨ c.type = none) then c.text else s.composer := by
  unfold readCreator
  simp only [type_eq]
  by_cases h1 : creatorType c = chars "composer"
  · have n1 : ¬ chars "composer" = chars "lyricist" := by decide
    have n2 : ¬ chars "composer" = chars "arranger" := by decide
    have n3 : ¬ chars "composer" = chars "publisher" := by decide
    cases f
    · simp [h1, n1, n2, n3]
    · simp [h1, n1, n2, n3]
  · by_cases h2 : c.type = none
    · have := untyped h2
      have n1 : ¬ [] = chars "lyricist" := by decide
      have n2 : ¬ [] = chars "arranger" := by decide
      have n3 : ¬ [] = chars "publisher" := by decide
      have n4 : ¬ [] = chars "composer" := by decide
      cases f <;> simp [this, n1, n2, n3, n4, h2]
    · simp only [h1, h2, false_and, and_false, if_false, decide_false, Bool.or_false, or_self]
      constructor
      · split <;> split <;> split <;> rfl
      · split <;> split <;> split <;> rfl

theorem creator_lyricist (s : ScoreTexts) (f : Bool) (c : TypedText) :
    (readCreator (s, f) c).1.lyricist = if creatorType c = chars "lyricist" ∨ creatorType c = chars "arranger" ∨ creatorType c = chars "publisher" then c.text else s.lyricist := by
  unfold readCreator
  simp only [type_eq]
  have e1 : ∀ (p : Prop) [Decidable p] (a b : ScoreTexts × Bool), (if p then a else b).1.lyricist = if p then a.1.lyricist else b.1.lyricist := by intro p _ a b; split <;> rfl
  simp only [e1]
  by_cases h1 : creatorType c = chars "lyricist" <;> by_cases h2 : creatorType c = chars "arranger" <;> by_cases h3 : creatorType c = chars "publisher" <;> simp [h1, h2, h3]

theorem creators_composer (l : List TypedText) (s : ScoreTexts) (f : Bool) :
    (l.foldl readCreator (s, f)).1.composer = if f then s.composer else
      match l.find? (fun c => decide (creatorType c = chars "composer")) with
      | some c => c.text
      | none => ((l.filter (fun c => c.type.isNone)).getLast?.map (·.text)).getD s.composer := by
  induction l generalizing s f with
  | nil => cases f <;> rfl
  | cons c l ih =>
    obtain ⟨h1, h2⟩ := creator_composer s f c
    rw [List.foldl_cons]
    cases e : readCreator (s, f) c with
    | mk s' f' =>
      rw [e] at h1 h2
      simp only at h1 h2
      rw [ih, h1, h2]
      cases f
      · by_cases hc : creatorType c = chars "composer"
        · simp [hc]
        · by_cases hn : c.type = none
          · have hl (l : List TypedText) (a b : Str) : ((c :: l).getLast?.map (·.text)).getD b = ((l.getLast?).map (·.text)).getD c.text := by
              rw [List.getLast?_cons]; cases l.getLast? <;> rfl
            have hf : (c :: l).filter (fun c => c.type.isNone) = c :: l.filter (fun c => c.type.isNone) := by
              apply List.filter_cons_of_pos; simp [hn]
            rw [hf, hl _ [] s.composer, List.find?_cons]
            simp only [hc, decide_false, Bool.or_false, Bool.false_eq_true, if_false, hn, or_true, and_self, if_true]
          · have hf : (c :: l).filter (fun c => c.type.isNone) = l.filter (fun c => c.type.isNone) := by
              apply List.filter_cons_of_neg; cases h : c.type with
              | none => exact absurd h hn
              | some t => simp
            rw [hf, List.find?_cons]
            simp only [hc, decide_false, Bool.or_false, Bool.false_eq_true, if_false, hn, or_self, and_false]
      · simp

theorem creators_lyricist (l : List TypedText) (s : ScoreTexts) (f : Bool) :
    (l.foldl readCreator (s, f)).1.lyricist = ((l.filter (fun c => decide (creatorType c = chars "lyricist" ∨ creatorType c = chars "arranger" ∨ creatorType c = chars "publisher"))).getLast?.map (·.text)).getD s.lyricist := by
  induction l generalizing s f with
  | nil => rfl
  | cons c l ih =>
    have h2 := creator_lyricist s f c
    rw [List.foldl_cons]
    cases e : readCreator (s, f) c with
    | mk s' f' =>
      rw [e] at h2
      simp only at h2
      rw [ih, h2]
      by_cases hc : creatorType c = chars "lyricist" ∨ creatorType c = chars "arranger" ∨ creatorType c = chars "publisher"
      · rw [if_pos hc, List.filter_cons_of_pos (by simpa using hc), List.getLast?_cons]
        generalize (l.filter _).getLast? = o
        cases o <;> rfl
      · rw [if_neg hc, List.filter_cons_of_neg (by simpa using hc)]

/-- The rights do not change the creators. -/
theorem rights_keep (l : List TypedText) (s : ScoreTexts) (f : Bool) :
    (l.foldl readRights (s, f)).1.composer = s.composer ∧ (l.foldl readRights (s, f)).1.lyricist = s.lyricist ∧
    (l.foldl readRights (s, f)).1.arranger = s.arranger ∧ (l.foldl readRights (s, f)).1.publisher = s.publisher := by
  induction l generalizing s f with
  | nil => exact ⟨rfl, rfl, rfl, rfl⟩
  | cons c l ih =>
    rw [List.foldl_cons]
    have h : (readRights (s, f) c).1.composer = s.composer ∧ (readRights (s, f) c).1.lyricist = s.lyricist ∧ (readRights (s, f) c).1.arranger = s.arranger ∧ (readRights (s, f) c).1.publisher = s.publisher := by
      unfold readRights; simp only
      split <;> split <;> exact ⟨rfl, rfl, rfl, rfl⟩
    cases e : readRights (s, f) c with
    | mk s' f' =>
      rw [e] at h
      obtain ⟨h1, h2, h3, h4⟩ := h
      obtain ⟨i1, i2, i3, i4⟩ := ih s' f'
      exact ⟨i1.trans h1, i2.trans h2, i3.trans h3, i4.trans h4⟩

theorem creators_keep (l : List TypedText) (s : ScoreTexts) (f : Bool) : (l.foldl readCreator (s, f)).1.arranger = s.arranger ∧ (l.foldl readCreator (s, f)).1.publisher = s.publisher := by
  induction l generalizing s f with
  | nil => exact ⟨rfl, rfl⟩
  | cons c l ih =>
    rw [List.foldl_cons]
    have e1 : ∀ (p : Prop) [Decidable p] (a b : ScoreTexts × Bool), (if p then a else b).1.arranger = if p then a.1.arranger else b.1.arranger := by intro p _ a b; split <;> rfl
    have e2 : ∀ (p : Prop) [Decidable p] (a b : ScoreTexts × Bool), (if p then a else b).1.publisher = if p then a.1.publisher else b.1.publisher := by intro p _ a b; split <;> rfl
    have h : (readCreator (s, f) c).1.arranger = s.arranger ∧ (readCreator (s, f) c).1.publisher = s.publisher := by
      unfold readCreator
      simp only [e1, e2, ite_self, and_self]
    cases e : readCreator (s, f) c with
    | mk s' f' =>
      rw [e] at h
      exact ⟨(ih s' f').1.trans h.1, (ih s' f').2.trans h.2⟩

theorem header_creators {x : HeaderXml} {s : ScoreTexts} (h : readHeader x = some s) :
    s.composer = composerOf ((x.identification.map (·.creators)).getD []) ∧ s.lyricist = lyricistOf ((x.identification.map (·.creators)).getD []) ∧ s.arranger = [] ∧ s.publisher = [] := by
  unfold readHeader at h
  cases e : (x.credits.filter (·.isWords)).mapM readPageText with
  | none => rw [e] at h; cases h
  | some ts =>
    rw [e] at h
    cases h
    cases e' : x.identification with
    | none => exact ⟨rfl, rfl, rfl, rfl⟩
    | some i =>
      simp only [readIdentification, Option.map_some, Option.getD_some]
      obtain ⟨a, b, c, d⟩ := rights_keep i.rights (i.creators.foldl readCreator (_, false)).1 false
      refine ⟨a.trans ?_, b.trans ?_, c.trans ?_, d.trans ?_⟩
      · rw [creators_composer, if_neg (by decide)]; rfl
      · rw [creators_lyricist]; rfl
      · rw [(creators_keep _ _ _).1]
      · rw [(creators_keep _ _ _).2]

/-! ### What is read from any document -/

theorem ofString_valid (t : Str) : ValidDate (Date.ofString t).year (Date.ofString t).month (Date.ofString t).day := by
  rw [Date.ofString]
  rcases Props.C13_parse_iff t Date.init with ⟨d, h1, _, h3⟩ | ⟨_, h⟩
  · rw [h3]; exact h1
  · rw [h]; exact Date.init_valid

theorem encodingItem_plain (f : EncodingFound) (x : EncodingXml) (h : PlainEncoding f.data) : PlainEncoding (readEncodingItem f x).data := by
  obtain ⟨h1, h2, h3⟩ := h
  cases x with
  | date t =>
    rw [readEncodingItem]; split
    · exact ⟨h1, h2, h3⟩
    · refine ⟨.inr ?_, h2, h3⟩
      exact ofString_valid t
  | encoder t => rw [readEncodingItem]; split <;> exact ⟨h1, h2, h3⟩
  | description t => rw [readEncodingItem]; split <;> exact ⟨h1, h2, h3⟩
  | software t => exact ⟨h1, h2, h3⟩
  | supports a b c d =>
    refine ⟨h1, ?_, h3⟩
    intro s hs
    rw [readEncodingItem] at hs
    simp only at hs
    rcases List.mem_append.mp hs with hs | hs
    · exact h2 s hs
    · have ho (o : Option Str) : Normalised ((o.map xsToken).getD []) := by
        cases o with
        | none => exact joined_normal []
        | some t => exact Props.C25_token_normalised t
      rw [List.mem_singleton.mp hs]
      exact ⟨Props.C25_token_normalised b, ho c, ho d⟩

theorem encodingItems_plain (l : List EncodingXml) (f : EncodingFound) (h : PlainEncoding f.data) : PlainEncoding (l.foldl readEncodingItem f).data := by
  induction l generalizing f with
  | nil => exact h
  | cons x l ih => exact ih _ (encodingItem_plain f x h)

theorem encoding_empty : PlainEncoding {} := ⟨.inl rfl, by simp, by simp⟩

theorem readEncoding_plain (i : IdentificationXml) : PlainEncoding (readEncoding i) := by
  obtain ⟨a, b, c⟩ := encodingItems_plain (i.encoding.getD []) {} encoding_empty
  refine ⟨a, b, ?_⟩
  intro m hm
  rw [readEncoding] at hm
  simp only at hm
  rcases List.mem_append.mp hm with hm | hm
  · exact c m hm
  · obtain ⟨t, _, rfl⟩ := List.mem_map.mp hm
    exact Props.C25_token_normalised _

theorem creators_type (l : List TypedText) (s : ScoreTexts) (f : Bool) : (l.foldl readCreator (s, f)).1.musicXmlType = s.musicXmlType := by
  induction l generalizing s f with
  | nil => rfl
  | cons c l ih =>
    rw [List.foldl_cons]
    have e1 : ∀ (p : Prop) [Decidable p] (a b : ScoreTexts × Bool), (if p then a else b).1.musicXmlType = if p then a.1.musicXmlType else b.1.musicXmlType := by intro p _ a b; split <;> rfl
    have h : (readCreator (s, f) c).1.musicXmlType = s.musicXmlType := by
      unfold readCreator
      simp only [e1, ite_self]
    cases e : readCreator (s, f) c with
    | mk s' f' =>
      rw [e] at h
      exact (ih s' f').trans h

theorem rights_type (l : List TypedText) (s : ScoreTexts) (f : Bool) : (l.foldl readRights (s, f)).1.musicXmlType = s.musicXmlType := by
  induction l generalizing s f with
  | nil => rfl
  | cons c l ih =>
    rw [List.foldl_cons]
    have e1 : ∀ (p : Prop) [Decidable p] (a b : ScoreTexts × Bool), (if p then a else b).1.musicXmlType = if p then a.1.musicXmlType else b.1.musicXmlType := by intro p _ a b; split <;> rfl
    have h : (readRights (s, f) c).1.musicXmlType = s.musicXmlType := by
      unfold readRights
      simp only [e1, ite_self]
    cases e : readRights (s, f) c with
    | mk s' f' =>
      rw [e] at h
      exact (ih s' f').trans h

theorem header_plain {x : HeaderXml} {s : ScoreTexts} (h : readHeader x = some s) (hp : ∀ p ∈ s.pageTextItems, PlainPageText p) : PlainTexts s := by
  obtain ⟨_, _, ha, hb⟩ := header_creators h
  unfold readHeader at h
  cases e : (x.credits.filter (·.isWords)).mapM readPageText with
  | none => rw [e] at h; cases h
  | some ts =>
    rw [e] at h
    cases h
    refine ⟨?_, ha, hb, ?_, hp⟩
    · cases e' : x.identification with
      | none => rfl
      | some i => simp only [readIdentification, rights_type, creators_type]
    · cases e' : x.identification with
      | none => exact encoding_empty
      | some i => exact readEncoding_plain i

end Mx.Header
