import Verif.Spec.HeaderSaid
import Verif.Proofs.ScoreHeader
import Verif.Proofs.DirectionSaid

open Spec
namespace Mx
open Mx.Spec Header Directions

theorem token_words (o : Option Str) : words ((o.map xsToken).getD []) = words (o.getD []) := by
  cases o with
  | none => rfl
  | some t => exact Props.C25_words_preserved t

/-- What has been found in the elements of the encoding. -/
theorem encoding_found (l : List EncodingXml) (f : EncodingFound) :
    let g := l.foldl readEncodingItem f
    g.data.software = f.data.software ++ softwareOf l ∧
    g.data.encoder = (if f.encoder then f.data.encoder else (encodersOf l).head?.getD f.data.encoder) ∧
    g.data.encodingDescription = (if f.description then f.data.encodingDescription else (descriptionsOf l).head?.getD f.data.encodingDescription) ∧
    g.data.encodingDate = (if f.date then f.data.encodingDate else ((datesOf l).head?.map fun t => (⟨(Date.ofString t).year, (Date.ofString t).month, (Date.ofString t).day⟩ : EncodingDate)).getD f.data.encodingDate) ∧
    g.data.miscelaneousFields = f.data.miscelaneousFields ∧
    g.data.supportedItems.map (fun s => (s.isSupported, words s.elementName, words s.attributeName, words s.specificValue)) =
      f.data.supportedItems.map (fun s => (s.isSupported, words s.elementName, words s.attributeName, words s.specificValue)) ++
        (supportsOf l).map (fun s => (decide ((parseEnum s.1 : Core.YesNo) = .yes), s.2)) := by
  induction l generalizing f with
  | nil => obtain ⟨d, a, b, c⟩ := f; cases a <;> cases b <;> cases c <;> simp [softwareOf, encodersOf, descriptionsOf, datesOf, supportsOf]
  | cons x l ih =>
    obtain ⟨h1, h2, h3, h4, h5, h6⟩ := ih (readEncodingItem f x)
    obtain ⟨d, a, b, c⟩ := f
    simp only [List.foldl_cons]
    refine ⟨h1.trans ?_, h2.trans ?_, h3.trans ?_, h4.trans ?_, h5.trans ?_, h6.trans ?_⟩ <;>
    · cases x <;> cases a <;> cases b <;> cases c <;>
        simp [readEncodingItem, softwareOf, encodersOf, descriptionsOf, datesOf, supportsOf, Props.C25_words_preserved, token_words]

/-! ### Writing -/

theorem written_encoding (e : EncodingData) :
    encodersOf (writeEncoding e) = oneText e.encoder ∧ descriptionsOf (writeEncoding e) = oneText e.encodingDescription ∧ softwareOf (writeEncoding e) = e.software ∧
    datesOf (writeEncoding e) = datesOf (writeDate e.encodingDate) ∧
    supportsOf (writeEncoding e) = e.supportedItems.map (fun s => (if s.isSupported then chars "yes" else chars "no", words s.elementName, words s.attributeName, words s.specificValue)) := by
  have hs : ∀ (l : List SupportedItem), encodersOf (l.map writeSupported) = [] ∧ descriptionsOf (l.map writeSupported) = [] ∧ softwareOf (l.map writeSupported) = [] ∧
      datesOf (l.map writeSupported) = [] ∧ supportsOf (l.map writeSupported) =
        l.map (fun s => (if s.isSupported then chars "yes" else chars "no", words s.elementName, words s.attributeName, words s.specificValue)) := by
    intro l
    induction l with
    | nil => exact ⟨rfl, rfl, rfl, rfl, rfl⟩
    | cons a l ih =>
      obtain ⟨h1, h2, h3, h4, h5⟩ := ih
      refine ⟨h1, h2, h3, h4, ?_⟩
      show _ :: supportsOf (l.map writeSupported) = _ :: _
      rw [h5]
      congr 1
      have ht : ∀ s : Str, words (((ifText s).map xsToken).getD []) = words s := by
        intro s
        rw [token_words, ifText_back]
      rw [ht, ht, Props.C25_words_preserved]
      obtain ⟨_, _, _, b⟩ := a
      cases b <;> rfl
  have hw : ∀ (l : List Str), encodersOf (l.map EncodingXml.software) = [] ∧ descriptionsOf (l.map EncodingXml.software) = [] ∧ softwareOf (l.map EncodingXml.software) = l ∧
      datesOf (l.map EncodingXml.software) = [] ∧ supportsOf (l.map EncodingXml.software) = [] := by
    intro l
    induction l with
    | nil => exact ⟨rfl, rfl, rfl, rfl, rfl⟩
    | cons a l ih =>
      obtain ⟨h1, h2, h3, h4, h5⟩ := ih
      exact ⟨h1, h2, congrArg (a :: ·) h3, h4, h5⟩
  have hd : encodersOf (writeDate e.encodingDate) = [] ∧ descriptionsOf (writeDate e.encodingDate) = [] ∧ softwareOf (writeDate e.encodingDate) = [] ∧ supportsOf (writeDate e.encodingDate) = [] := by
    rcases date_back e.encodingDate with ⟨h, _⟩ | ⟨t, h, _⟩ <;> rw [h] <;> exact ⟨rfl, rfl, rfl, rfl⟩
  obtain ⟨s1, s2, s3, s4, s5⟩ := hs e.supportedItems
  obtain ⟨w1, w2, w3, w4, w5⟩ := hw e.software
  obtain ⟨d1, d2, d3, d5⟩ := hd
  unfold writeEncoding
  unfold encodersOf descriptionsOf softwareOf datesOf supportsOf at *
  simp only [List.filterMap_append, s1, s2, s3, s4, s5, w1, w2, w3, w4, w5, d1, d2, d3, d5, List.append_nil]
  unfold oneText
  refine ⟨?_, ?_, ?_, ?_, ?_⟩ <;> split <;> (try split) <;> simp

theorem written_identification (s : ScoreTexts) :
    ((writeIdentification s).getD {}).creators = writeTyped (chars "composer") s.composer ++ writeTyped (chars "lyricist") s.lyricist ∧
    ((writeIdentification s).getD {}).rights = writeTyped (chars "copyright") s.copyright ∧
    ((writeIdentification s).getD {}).encoding.getD [] = writeEncoding s.encoding ∧
    ((writeIdentification s).getD {}).miscellaneous = writeMisc s.encoding := by
  unfold writeIdentification
  simp only
  by_cases h : (writeTyped (chars "composer") s.composer ++ writeTyped (chars "lyricist") s.lyricist = [] ∧ writeTyped (chars "copyright") s.copyright = [] ∧ writeEncoding s.encoding = [] ∧ writeMisc s.encoding = none)
  · rw [if_pos h]
    obtain ⟨h1, h2, h3, h4⟩ := h
    rw [h1, h2, h3, h4]
    exact ⟨rfl, rfl, rfl, rfl⟩
  · rw [if_neg h]
    refine ⟨rfl, rfl, ?_, rfl⟩
    show (if _ then _ else _ : Option _).getD [] = _
    by_cases h' : writeEncoding s.encoding = [] ∧ writeMisc s.encoding = none
    · rw [if_pos h', h'.1]; rfl
    · rw [if_neg h']; rfl

theorem typed_said (type s : Str) (h : joined [' '] (words type) = type) : (writeTyped type s).map typedSaid = oneTyped type s := by
  unfold writeTyped oneTyped
  by_cases hs : s = []
  · rw [if_pos hs, if_pos hs]; rfl
  · rw [if_neg hs, if_neg hs]
    show [(joined [' '] (words (xsToken type)), s)] = _
    rw [Props.C25_words_preserved, h]

/-! ### Reading -/

theorem readCreator_only (s : ScoreTexts × Bool) (c : TypedText) : ∃ a b f, readCreator s c = ({ s.1 with composer := a, lyricist := b }, f) := by
  unfold readCreator
  obtain ⟨s, f⟩ := s
  simp only
  split <;> split <;> split <;> split <;> split <;> exact ⟨_, _, _, rfl⟩

theorem creators_only (l : List TypedText) (s : ScoreTexts × Bool) : ∃ a b f, l.foldl readCreator s = ({ s.1 with composer := a, lyricist := b }, f) := by
  induction l generalizing s with
  | nil => exact ⟨s.1.composer, s.1.lyricist, s.2, rfl⟩
  | cons c l ih =>
    obtain ⟨a, b, f, h⟩ := readCreator_only s c
    rw [List.foldl_cons, h]
    obtain ⟨a', b', f', h'⟩ := ih ({ s.1 with composer := a, lyricist := b }, f)
    exact ⟨a', b', f', h'⟩

theorem type_of {c : TypedText} {t : Str} (h : creatorType c = t) (hne : t ≠ []) : c.type.map xsToken = some t := by
  unfold creatorType at h
  cases ht : c.type with
  | none => rw [ht] at h; exact absurd h.symm hne
  | some u =>
    rw [ht] at h
    show some (xsToken u) = _
    rw [Props.C25_token_is_words]
    exact congrArg some h

theorem one_typed {l : List TypedText} {t s : Str} (h : l.map typedSaid = oneTyped t s) : (s = [] ∧ l = []) ∨ ∃ c, l = [c] ∧ creatorType c = t ∧ c.text = s := by
  unfold oneTyped at h
  by_cases hs : s = []
  · rw [if_pos hs, List.map_eq_nil_iff] at h
    exact .inl ⟨hs, h⟩
  · rw [if_neg hs] at h
    obtain ⟨c, rfl, hc⟩ := List.map_eq_singleton_iff.mp h
    injection hc with h1 h2
    exact .inr ⟨c, rfl, h1, h2⟩

theorem rights_kept {l : List TypedText} {r : Str} (h : l.map typedSaid = oneTyped (chars "copyright") r) (s : ScoreTexts) (hs : s.copyright = []) :
    (l.foldl readRights (s, false)).1 = { s with copyright := r } := by
  rcases one_typed h with ⟨rfl, rfl⟩ | ⟨c, rfl, h1, h2⟩
  · show s = _
    rw [← hs]
  · have ht := type_of h1 (by decide)
    show (readRights (s, false) c).1 = _
    unfold readRights
    simp only [ht]
    have hn : c.type ≠ none := by intro e; rw [e] at ht; cases ht
    simp [h2]

theorem creators_kept {l : List TypedText} {c t : Str} (h : l.map typedSaid = oneTyped (chars "composer") c ++ oneTyped (chars "lyricist") t) :
    composerOf l = c ∧ lyricistOf l = t := by
  obtain ⟨l1, l2, rfl, h1, h2⟩ := List.map_eq_append_iff.mp h
  have hty : ∀ {x : TypedText}, creatorType x = chars "lyricist" → x.type.isNone = false := by
    intro x hx
    have := type_of hx (by decide)
    cases hc : x.type with
    | none => rw [hc] at this; cases this
    | some _ => rfl
  rcases one_typed h1 with ⟨rfl, rfl⟩ | ⟨a, rfl, a1, a2⟩ <;> rcases one_typed h2 with ⟨rfl, rfl⟩ | ⟨b, rfl, b1, b2⟩
  · exact ⟨rfl, rfl⟩
  · have n1 : ¬ chars "lyricist" = chars "composer" := by decide
    constructor
    · simp [composerOf, b1, n1, hty b1]
    · simp [lyricistOf, b1, b2]
  · have n1 : ¬ (chars "composer" = chars "lyricist" ∨ chars "composer" = chars "arranger" ∨ chars "composer" = chars "publisher") := by decide
    constructor
    · simp [composerOf, a1, a2]
    · simp only [lyricistOf, List.append_nil, List.filter_cons, a1, decide_eq_true_eq, n1, if_false]
      rfl
  · have n1 : ¬ (chars "composer" = chars "lyricist" ∨ chars "composer" = chars "arranger" ∨ chars "composer" = chars "publisher") := by decide
    constructor
    · simp [composerOf, a1, a2]
    · simp only [lyricistOf, List.cons_append, List.nil_append, List.filter_cons, a1, b1, decide_eq_true_eq, n1, if_false]
      simp [b2]

theorem credit_through {c : CreditXml} {p : PageTextData} {d : CreditXml} (h1 : readPageText c = some p) (h2 : writePageText p = some d) {g : Option Str} {k t : Str}
    (hc : creditSaid c = some (g, oneText k, t)) (hg : ∀ s ∈ g, ∃ n : Int, 1 ≤ n ∧ n ≤ INT_MAX ∧ CanonicalInteger s n) : creditSaid d = some (g, oneText k, t) := by
  unfold readPageText at h1
  cases e1 : readPosition creditMembers c.position with
  | none => simp [e1] at h1
  | some pos =>
    cases e2 : readPrint wordsPrint c.print with
    | none => simp [e1, e2] at h1
    | some pr =>
      simp only [e1, e2, Option.bind_eq_bind, Option.bind_some] at h1
      injection h1 with h1
      subst h1
      unfold writePageText at h2
      simp only at h2
      cases e3 : writePosition creditMembers pos with
      | none => simp [e3] at h2
      | some pos' =>
        cases e4 : writePrint wordsPrint { fontData := pr.fontData } with
        | none => simp [e3, e4] at h2
        | some pr' =>
          simp only [e3, e4, Option.bind_eq_bind, Option.bind_some] at h2
          injection h2 with h2
          subst h2
          unfold creditSaid at hc ⊢
          by_cases hw : c.isWords
          · rw [if_pos hw] at hc
            injection hc with hc
            injection hc with c1 hc
            injection hc with c2 c3
            rw [if_pos rfl]
            have hp : (if ((c.page.map (parseBounded .PositiveInteger)).getD 0) > 0 then some (IntRange.ofKind .PositiveInteger ((c.page.map (parseBounded .PositiveInteger)).getD 0)).toStr else none) = g := by
              subst c1
              cases hpg : c.page with
              | none => rfl
              | some s =>
                obtain ⟨n, n1, n2, n3⟩ := hg s (by rw [hpg]; rfl)
                have hs := (canonical_iff s n).mp n3
                have hn : parseBounded .PositiveInteger s = n := parseBounded_numeral (by rw [hs]; exact showInt_text n) ⟨by unfold INT_MIN; omega, n2⟩ ⟨n1, n2⟩
                show (if parseBounded .PositiveInteger s > 0 then some (IntRange.ofKind .PositiveInteger (parseBounded .PositiveInteger s)).toStr else none) = _
                rw [hn, if_pos (by omega), hs]
                congr 1
                rw [IntRange.toStr]
                congr 1
                show clampInt _ _ _ = _
                unfold clampInt
                rw [if_neg (show ¬ n < IntKind.PositiveInteger.bounds.1 from not_lt.mpr n1), if_neg (show ¬ n > IntKind.PositiveInteger.bounds.2 from not_lt.mpr n2)]
            have hd : (if (c.types.head?).getD [] = [] then [] else [(c.types.head?).getD []]) = oneText k := by
              rw [c2]
              unfold oneText
              by_cases hk : k = []
              · rw [if_pos hk]; rfl
              · rw [if_neg hk]
                show (if k = [] then [] else [k]) = _
                rw [if_neg hk]
            exact congrArg some (Prod.ext hp (Prod.ext hd c3))
          · rw [if_neg hw] at hc
            cases hc

theorem credits_through {l : List CreditXml} (hk : ∀ c ∈ l.map creditSaid, ∃ p d t, c = some (p, oneText d, t) ∧ ∀ s ∈ p, ∃ n : Int, 1 ≤ n ∧ n ≤ INT_MAX ∧ CanonicalInteger s n) :
    ∀ {ps : List PageTextData} {out : List CreditXml}, (l.filter (·.isWords)).mapM readPageText = some ps → ps.mapM writePageText = some out → out.map creditSaid = l.map creditSaid := by
  induction l with
  | nil =>
    intro ps out h1 h2
    simp at h1
    subst h1
    simp at h2
    subst h2
    rfl
  | cons c l ih =>
    intro ps out h1 h2
    obtain ⟨g, k, t, e, hg⟩ := hk (creditSaid c) (List.mem_cons_self ..)
    have hw : c.isWords = true := by
      unfold creditSaid at e
      by_contra hc
      rw [if_neg hc] at e
      cases e
    rw [List.filter_cons_of_pos hw, List.mapM_cons] at h1
    cases e1 : readPageText c with
    | none => simp [e1] at h1
    | some p =>
      cases e2 : (l.filter (·.isWords)).mapM readPageText with
      | none => simp [e1, e2] at h1
      | some ps' =>
        simp only [e1, e2, Option.bind_eq_bind, Option.bind_some] at h1
        injection h1 with h1
        subst h1
        rw [List.mapM_cons] at h2
        cases e3 : writePageText p with
        | none => simp [e3] at h2
        | some d =>
          cases e4 : ps'.mapM writePageText with
          | none => simp [e3, e4] at h2
          | some out' =>
            simp only [e3, e4, Option.bind_eq_bind, Option.bind_some] at h2
            injection h2 with h2
            subst h2
            rw [List.map_cons, List.map_cons, ih (fun c hc => hk c (List.mem_cons_of_mem _ hc)) e2 e4, credit_through e1 e3 e hg, e]

/-! ### All together -/

theorem one_text {l : List Str} {t : Str} (h : l = oneText t) : l.head?.getD [] = t := by
  rw [h]
  unfold oneText
  by_cases ht : t = []
  · rw [if_pos ht, ht]; rfl
  · rw [if_neg ht]; rfl

theorem date_kept {l : List Str} (h : l = [] ∨ ∃ d : Date, ValidDate d.year d.month d.day ∧ l = [d.toStr]) :
    datesOf (writeDate ((l.head?.map fun t => (⟨(Date.ofString t).year, (Date.ofString t).month, (Date.ofString t).day⟩ : EncodingDate)).getD {})) = l := by
  rcases h with rfl | ⟨d, hd, rfl⟩
  · decide
  · have he : Date.ofString d.toStr = d := by
      unfold Date.ofString
      rw [Props.C13_parse_toString d _ hd]
    show datesOf (writeDate ⟨(Date.ofString d.toStr).year, (Date.ofString d.toStr).month, (Date.ofString d.toStr).day⟩) = _
    rw [he]
    unfold writeDate
    simp only [Date.make_of_valid hd]
    rfl

theorem header_said {x y : HeaderXml} (hk : HeaderKept (headerSaid x)) (h : headerThrough x = some y) : headerSaid y = headerSaid x := by
  obtain ⟨⟨c, l, k1⟩, ⟨r, k2⟩, ⟨en, k3⟩, ⟨de, k4⟩, k5, k6, k7⟩ := hk
  have hi : ∀ s : ScoreTexts, s.composer = [] → s.lyricist = [] → s.copyright = [] → s.encoding = {} →
      readIdentification s x.identification = { s with composer := c, lyricist := l, copyright := r, encoding := readEncoding (x.identification.getD {}) } := by
    intro s s1 s2 s3 s4
    have k1' : ((x.identification.getD {}).creators).map typedSaid = _ := k1
    have k2' : ((x.identification.getD {}).rights).map typedSaid = _ := k2
    cases hx : x.identification with
    | none =>
      rw [hx] at k1' k2'
      have e1 := creators_kept k1'
      have e2 := one_typed (l := []) k2'
      have hc : c = [] := e1.1.symm
      have hl : l = [] := e1.2.symm
      have hr : r = [] := by
        rcases e2 with ⟨e, _⟩ | ⟨_, e, _⟩
        · exact e
        · cases e
      show s = { s with composer := c, lyricist := l, copyright := r, encoding := readEncoding {} }
      rw [hc, hl, hr, show readEncoding {} = {} from rfl, ← s1]
      obtain ⟨⟩ := s
      simp only at s1 s2 s3 s4 ⊢
      subst s1 s2 s3 s4
      rfl
    | some i =>
      rw [hx] at k1' k2'
      replace k2' : i.rights.map typedSaid = _ := k2'
      obtain ⟨a, b, f, e⟩ := creators_only i.creators (s, false)
      have ec := creators_composer i.creators s false
      have el := creators_lyricist i.creators s false
      have e1 := creators_kept k1'
      have ha : a = c := by
        have : (i.creators.foldl readCreator (s, false)).1.composer = composerOf i.creators := by
          rw [ec, s1]; rfl
        rw [e] at this
        rw [← e1.1]; exact this
      have hb : b = l := by
        have : (i.creators.foldl readCreator (s, false)).1.lyricist = lyricistOf i.creators := by
          rw [el, s2]; rfl
        rw [e] at this
        rw [← e1.2]; exact this
      subst ha hb
      show { (i.rights.foldl readRights ((i.creators.foldl readCreator (s, false)).1, false)).1 with encoding := readEncoding i } = _
      rw [e, rights_kept k2' _ (by exact s3)]
      rfl
  unfold headerThrough readHeader at h
  cases e1 : (x.credits.filter (·.isWords)).mapM readPageText with
  | none => simp [e1] at h
  | some texts =>
    simp only [e1, Option.bind_eq_bind, Option.bind_some] at h
    rw [hi _ rfl rfl rfl rfl] at h
    replace h : writeHeader _ = some y := h
    unfold writeHeader at h
    simp only at h
    cases e2 : texts.mapM writePageText with
    | none => simp [e2] at h
    | some out =>
      simp only [e2, Option.bind_eq_bind, Option.bind_some] at h
      injection h with h
      subst h
      obtain ⟨w1, w2, w3, w4⟩ := written_identification
        { is30 := decide (x.version.map xsToken = some (chars "3.0")), workTitle := x.workTitle.getD [], workNumber := x.workNumber.getD [], movementTitle := x.movementTitle.getD [],
          movementNumber := x.movementNumber.getD [], composer := c, lyricist := l, copyright := r, encoding := readEncoding (x.identification.getD {}), pageTextItems := texts }
      obtain ⟨v1, v2, v3, v4, v5⟩ := written_encoding (readEncoding (x.identification.getD {}))
      obtain ⟨f1, f2, f3, f4, f5, f6⟩ := encoding_found ((x.identification.getD {}).encoding.getD []) {}
      unfold headerSaid
      simp only [HeaderSaid.mk.injEq, w1, w2, w3, w4]
      refine ⟨?_, ?_, ?_, ?_, ?_, ?_, ?_, ?_, ?_, ?_⟩
      · rw [ifText_back, ifText_back, ifText_back, ifText_back]
      · rw [List.map_append, typed_said _ _ (by decide), typed_said _ _ (by decide)]
        exact k1.symm
      · rw [typed_said _ _ (by decide)]
        exact k2.symm
      · rw [v1]
        refine Eq.trans (congrArg oneText ?_) k3.symm
        show (List.foldl readEncodingItem {} _).data.encoder = _
        rw [f2]
        exact one_text k3
      · rw [v4]
        show datesOf (writeDate (List.foldl readEncodingItem {} _).data.encodingDate) = _
        rw [f4]
        exact date_kept k5
      · rw [v2]
        refine Eq.trans (congrArg oneText ?_) k4.symm
        show (List.foldl readEncodingItem {} _).data.encodingDescription = _
        rw [f3]
        exact one_text k4
      · rw [v3]
        exact f1
      · rw [v5]
        have hmap : (fun s : SupportedItem => (if s.isSupported then chars "yes" else chars "no", words s.elementName, words s.attributeName, words s.specificValue)) =
            (fun q : Bool × List Str × List Str × List Str => (if q.1 then chars "yes" else chars "no", q.2)) ∘
              (fun s : SupportedItem => (s.isSupported, words s.elementName, words s.attributeName, words s.specificValue)) := rfl
        rw [hmap, ← List.map_map]
        show List.map _ (List.map _ (List.foldl readEncodingItem {} _).data.supportedItems) = _
        rw [f6]
        show List.map _ (List.map _ (supportsOf _)) = _
        rw [List.map_map]
        refine Header.map_self fun s hs => ?_
        rcases k6 s hs with e | e
        · obtain ⟨s1, s2⟩ := s
          simp only at e
          subst e
          rfl
        · obtain ⟨s1, s2⟩ := s
          simp only at e
          subst e
          rfl
      · have hm : (readEncoding (x.identification.getD {})).miscelaneousFields = ((x.identification.getD {}).miscellaneous.getD []).map fun m => (xsToken m.1, m.2) := by
          show (List.foldl readEncodingItem {} _).data.miscelaneousFields ++ _ = _
          rw [f5]
          rfl
        unfold writeMisc
        rw [hm]
        generalize (x.identification.getD {}).miscellaneous.getD [] = ms
        by_cases hms : ms.map (fun m : Str × Str => (xsToken m.1, m.2)) = []
        · rw [if_pos hms, List.map_eq_nil_iff.mp hms]; rfl
        · rw [if_neg hms]
          show List.map _ (List.map _ (List.map _ ms)) = _
          rw [List.map_map, List.map_map]
          refine List.map_congr_left fun m _ => ?_
          show (words (xsToken (xsToken m.1)), m.2) = _
          rw [Props.C25_words_preserved, Props.C25_words_preserved]
      · exact credits_through k7 e1 e2

end Mx
