import Verif.Proofs.StringLists
import Verif.Props.DecimalProps
import Verif.Props.IntegerProps

/-!
# Properties C20, C21, C22, C25, C26, C27, C36, C37, C52: text values
Specification: `Verif/Spec/Tokens.lean` (words, tokens, names, numerals), `Verif/Spec/XmlText.lean` (how an XML processor reads text).
-/
namespace Mx.Props
open Spec Mx

/-! ### C25 -/

/-- **C25** A token consists of the words of the given text with single spaces between them. -/
theorem C25_token_is_words (s : Str) : xsToken s = joined [' '] (words s) := reduce_words s

/-- **C25** A token has white space only as single spaces between other characters. -/
theorem C25_token_normalised (s : Str) : Normalised (xsToken s) := reduce_normalised s

/-- **C25** Normalised text is kept. -/
theorem C25_normalised_kept (s : Str) (h : Normalised s) : xsToken s = s := reduce_of_normalised h

/-- **C25** Normalising twice is the same as once. -/
theorem C25_idempotent (s : Str) : xsToken (xsToken s) = xsToken s := reduce_of_normalised (reduce_normalised s)

/-- **C25** The sequence of words is preserved. -/
theorem C25_words_preserved (s : Str) : words (xsToken s) = words s := by
  have h := C25_idempotent s
  rw [C25_token_is_words (xsToken s), C25_token_is_words s] at h
  rw [C25_token_is_words s]
  -- the words of a text are determined by the joined text
  have key : ∀ (a b : List Str), (∀ w ∈ a, w ≠ [] ∧ ∀ c ∈ w, ¬ White c) → (∀ w ∈ b, w ≠ [] ∧ ∀ c ∈ w, ¬ White c) →
      joined [' '] a = joined [' '] b → a = b := by
    have span : ∀ (x y r r' : Str), (∀ c ∈ x, ¬ White c) → (∀ c ∈ y, ¬ White c) → (∀ c, r.head? = some c → c = ' ') → (∀ c, r'.head? = some c → c = ' ') →
        x ++ r = y ++ r' → x = y ∧ r = r' := by
      intro x
      induction x with
      | nil =>
        intro y r r' _ hy hr _ e
        cases y with
        | nil => exact ⟨rfl, e⟩
        | cons d u =>
          have : d = ' ' := hr d (by rw [List.nil_append] at e; rw [e]; rfl)
          exact absurd (by rw [this]; decide : White d) (hy d (by simp))
      | cons c t ih =>
        intro y r r' hx hy hr hr' e
        cases y with
        | nil =>
          have : c = ' ' := hr' c (by rw [List.nil_append] at e; rw [← e]; rfl)
          exact absurd (by rw [this]; decide : White c) (hx c (by simp))
        | cons d u =>
          rw [List.cons_append, List.cons_append, List.cons.injEq] at e
          obtain ⟨e1, e2⟩ := ih u r r' (fun z hz => hx z (List.mem_cons_of_mem _ hz)) (fun z hz => hy z (List.mem_cons_of_mem _ hz)) hr hr' e.2
          exact ⟨by rw [e.1, e1], e2⟩
    have hd : ∀ (l : List Str) (c : Char), (l.flatMap ([' '] ++ ·)).head? = some c → c = ' ' := by
      intro l c hc
      cases l with
      | nil => cases hc
      | cons x xs => simp at hc; exact hc.symm
    have flat : ∀ (a b : List Str), (∀ w ∈ a, w ≠ [] ∧ ∀ c ∈ w, ¬ White c) → (∀ w ∈ b, w ≠ [] ∧ ∀ c ∈ w, ¬ White c) →
        a.flatMap ([' '] ++ ·) = b.flatMap ([' '] ++ ·) → a = b := by
      intro a
      induction a with
      | nil =>
        intro b _ _ e
        cases b with
        | nil => rfl
        | cons x xs => simp at e
      | cons x xs ih =>
        intro b ha hb e
        cases b with
        | nil => simp at e
        | cons y ys =>
          rw [List.flatMap_cons, List.flatMap_cons, List.append_assoc, List.append_assoc, List.append_cancel_left_eq] at e
          obtain ⟨e1, e2⟩ := span x y _ _ (ha x (by simp)).2 (hb y (by simp)).2 (hd xs) (hd ys) e
          rw [e1, ih ys (fun w hw => ha w (List.mem_cons_of_mem _ hw)) (fun w hw => hb w (List.mem_cons_of_mem _ hw)) e2]
    intro a b ha hb e
    cases a with
    | nil =>
      cases b with
      | nil => rfl
      | cons y ys =>
        rw [joined_cons] at e
        exact absurd (List.append_eq_nil_iff.mp e.symm).1 (hb y (by simp)).1
    | cons x xs =>
      cases b with
      | nil =>
        rw [joined_cons] at e
        exact absurd (List.append_eq_nil_iff.mp e).1 (ha x (by simp)).1
      | cons y ys =>
        rw [joined_cons, joined_cons] at e
        obtain ⟨e1, e2⟩ := span x y _ _ (ha x (by simp)).2 (hb y (by simp)).2 (hd xs) (hd ys) e
        rw [e1, flat xs ys (fun w hw => ha w (List.mem_cons_of_mem _ hw)) (fun w hw => hb w (List.mem_cons_of_mem _ hw)) e2]
  exact key _ _ (words_noWhite _) (words_noWhite s) h

example : xsToken " a\t\nbc  d ".toList = "a bc d".toList ∧ words " a\t\nbc  d ".toList = ["a".toList, "bc".toList, "d".toList] := by decide +kernel

/-! ### C26 -/

/-- **C26** Escaped text has no `<` and no `>`, and every `&` in it starts one of the three entities. -/
theorem C26_no_markup (s : Str) : '<' ∉ escapeXml s ∧ '>' ∉ escapeXml s ∧
    ∀ a b, escapeXml s = a ++ '&' :: b → ∃ e ∈ ["lt;".toList, "gt;".toList, "amp;".toList], e <+: b := by
  induction s with
  | nil => refine ⟨by simp [escapeXml], by simp [escapeXml], ?_⟩; intro a b h; simp [escapeXml] at h
  | cons c t ih =>
    obtain ⟨h1, h2, h3⟩ := ih
    -- an entity in front
    have ent : ∀ e ∈ ["lt;".toList, "gt;".toList, "amp;".toList], ∀ a b, ('&' :: e) ++ escapeXml t = a ++ '&' :: b →
        ∃ e ∈ ["lt;".toList, "gt;".toList, "amp;".toList], e <+: b := by
      intro e he a b h
      have amp : '&' ∉ e := (by decide : ∀ e ∈ ["lt;".toList, "gt;".toList, "amp;".toList], '&' ∉ e) e he
      cases a with
      | nil =>
        simp at h
        exact ⟨e, he, ⟨escapeXml t, h⟩⟩
      | cons x a' =>
        simp only [List.cons_append, List.cons.injEq] at h
        obtain ⟨-, h⟩ := h
        rcases List.append_eq_append_iff.mp h with ⟨u, e1, e2⟩ | ⟨u, e1, e2⟩
        · exact h3 u b e2
        · cases u with
          | nil => simp at e2; exact h3 [] b (by rw [← e2]; rfl)
          | cons y u' =>
            simp at e2
            exact absurd (by rw [e1, ← e2.1]; simp : '&' ∈ e) amp
    rw [escapeXml_cons]
    by_cases a1 : c = '<'
    · rw [if_pos a1]
      exact ⟨by rw [List.mem_append]; exact fun h => h.elim (by decide) h1, by rw [List.mem_append]; exact fun h => h.elim (by decide) h2,
        ent "lt;".toList (by decide)⟩
    · rw [if_neg a1]
      by_cases a2 : c = '>'
      · rw [if_pos a2]
        exact ⟨by rw [List.mem_append]; exact fun h => h.elim (by decide) h1, by rw [List.mem_append]; exact fun h => h.elim (by decide) h2,
          ent "gt;".toList (by decide)⟩
      · rw [if_neg a2]
        by_cases a3 : c = '&'
        · rw [if_pos a3]
          exact ⟨by rw [List.mem_append]; exact fun h => h.elim (by decide) h1, by rw [List.mem_append]; exact fun h => h.elim (by decide) h2,
            ent "amp;".toList (by decide)⟩
        · rw [if_neg a3]
          refine ⟨?_, ?_, ?_⟩
          · simp only [List.cons_append, List.nil_append, List.mem_cons]; rintro (e | e); exact a1 e.symm; exact h1 e
          · simp only [List.cons_append, List.nil_append, List.mem_cons]; rintro (e | e); exact a2 e.symm; exact h2 e
          · intro a b h
            cases a with
            | nil => simp at h; exact absurd h.1 a3
            | cons x a' => simp at h; exact h3 a' b h.2

/-- **C26** The escaped text denotes the original text and nothing else. -/
theorem C26_unescape (s v : Str) : Denotes (escapeXml s) v ↔ v = s :=
  ⟨fun h => Denotes.unique h (escape_denotes s), fun h => h ▸ escape_denotes s⟩

/-- **C26** Different texts are written differently. -/
theorem C26_injective (s t : Str) (h : escapeXml s = escapeXml t) : s = t :=
  Denotes.unique (escape_denotes s) (h ▸ escape_denotes t)

example : escapeXml "a<b>&c\"".toList = "a&lt;b&gt;&amp;c\"".toList := by decide +kernel

/-! ### C52 -/

/-- **C52** The text of an element (written with escapes) is read back by an XML processor exactly if it consists of characters allowed in XML other
than carriage returns. -/
theorem C52_content_partial (s : Str) : ContentReads (escapeXml s) s ↔ ∀ c ∈ s, XmlChar c ∧ c ≠ '\r' :=
  ⟨content_chars, content_escape⟩

/-- **C52** The value of an attribute (written with escapes) is read back by an XML processor exactly if it has no control characters (tab, line ends) and no
double quote. -/
theorem C52_attribute_partial (s : Str) : AttributeReads (escapeXml s) s ↔ ∀ c ∈ s, ' ' ≤ c ∧ c ≠ '"' := by
  constructor
  · intro h c hc
    obtain ⟨h1, h2⟩ := attribute_chars h
    refine ⟨h1 c hc, ?_⟩
    rintro rfl
    exact h2 (quote_escape hc)
  · exact attribute_escape

/-- A text is read in at most one way, so that the two theorems above say when exactly the original text is found. -/
theorem C52_reading_unique (t v w : Str) : (ContentReads t v → ContentReads t w → v = w) ∧ (AttributeReads t v → AttributeReads t w → v = w) :=
  ⟨ContentReads.unique, AttributeReads.unique⟩

/-- **C52** is false in general: a double quote inside an attribute value is written as it is, and the document is not well formed. -/
theorem C52_quote_breaks_attribute : ∃ s : Str, ¬ ∃ v, AttributeReads (escapeXml s) v :=
  ⟨"a\"b".toList, fun ⟨_, h⟩ => (attribute_chars h).2 (quote_escape (by decide))⟩

/-- **C52** is false in general: a line end inside an attribute value is read as a space, a carriage return in the text of an element as a line feed. -/
theorem C52_line_ends_change : AttributeReads (escapeXml "a\nb".toList) "a b".toList ∧ ContentReads (escapeXml "a\rb".toList) "a\nb".toList :=
  ⟨.char (by decide) (by decide) (by decide) (by decide) (.newline (.char (by decide) (by decide) (by decide) (by decide) .nil)),
   .char (by decide) (by decide) (by decide) (by decide) (.cr (by decide) (.char (by decide) (by decide) (by decide) (by decide) .nil))⟩

example : AttributeReads "R&amp;B &lt;'".toList "R&B <'".toList :=
  (C52_attribute_partial "R&B <'".toList).mpr (by decide)

/-! ### C27 -/

/-- **C27** An identifier is never empty, and it is a legal name unless the given text starts with `-` or `.`. -/
theorem C27_legal_name_partial (s : Str) : xsID s ≠ [] ∧ (NCName (xsID s) ↔ s.head? ≠ some '-' ∧ s.head? ≠ some '.') := by
  have mem : ∀ c, ncNameAllowed c = true → Letter c ∨ c = '_' ∨ Digit c ∨ c = '-' ∨ c = '.' := by
    intro c h
    have : c ∈ chars "-.0123456789ABCDEFGHIJKLMNOPQRSTUVWXYZ_abcdefghijklmnopqrstuvwxyz" := by
      unfold ncNameAllowed at h; exact List.contains_iff_mem.mp h
    exact (by decide : ∀ c ∈ chars "-.0123456789ABCDEFGHIJKLMNOPQRSTUVWXYZ_abcdefghijklmnopqrstuvwxyz",
      Letter c ∨ c = '_' ∨ Digit c ∨ c = '-' ∨ c = '.') c this
  have all : ∀ x ∈ onlyAllow ['_'] ncNameAllowed s, Letter x ∨ x = '_' ∨ Digit x ∨ x = '-' ∨ x = '.' := by
    intro x hx
    obtain ⟨c, _, hc⟩ := List.mem_flatMap.mp hx
    split at hc
    · rename_i h; rw [List.mem_singleton] at hc; rw [hc]; exact mem c h
    · rw [List.mem_singleton] at hc; exact Or.inr (Or.inl hc)
  have head : ∀ d, (d = '-' ∨ d = '.') → ((onlyAllow ['_'] ncNameAllowed s).head? = some d ↔ s.head? = some d) := by
    intro d hd
    have hda : ncNameAllowed d = true := by rcases hd with rfl | rfl <;> decide
    cases s with
    | nil => rfl
    | cons c t =>
      unfold onlyAllow
      rw [List.flatMap_cons]
      by_cases h : ncNameAllowed c = true
      · rw [if_pos h]; rfl
      · rw [if_neg h]
        constructor
        · intro e; simp at e; rcases hd with rfl | rfl <;> exact absurd e (by decide)
        · intro e; simp at e; rw [e] at h; exact absurd hda h
  have hm := head '-' (Or.inl rfl)
  have hp := head '.' (Or.inr rfl)
  simp only [ne_eq]
  rw [← hm, ← hp]
  clear hm hp head
  unfold xsID
  generalize onlyAllow ['_'] ncNameAllowed s = f at all ⊢
  cases f with
  | nil => exact ⟨by decide, ⟨fun _ => ⟨by decide, by decide⟩, fun _ => ⟨'I', ['D'], rfl, by decide, by decide⟩⟩⟩
  | cons c t =>
    have allt : ∀ x ∈ t, Letter x ∨ x = '_' ∨ Digit x ∨ x = '-' ∨ x = '.' := fun x hx => all x (List.mem_cons_of_mem _ hx)
    by_cases hc : c.isDigit
    · simp only [hc, if_true]
      refine ⟨by simp, ⟨fun _ => ?_, fun _ => ?_⟩⟩
      · constructor <;> (intro e; simp at e; rw [e] at hc; revert hc; decide)
      · refine ⟨'I', 'D' :: c :: t, rfl, by decide, ?_⟩
        intro x hx
        rcases List.mem_cons.mp hx with rfl | hx
        · left; decide
        · exact all x hx
    · simp only [hc]
      refine ⟨by simp, ?_⟩
      simp only [List.head?_cons, Option.some.injEq]
      constructor
      · rintro ⟨d, u, e, hd, -⟩
        simp at e
        obtain ⟨rfl, rfl⟩ := e
        constructor <;> (rintro rfl; revert hd; decide)
      · rintro ⟨h1, h2⟩
        refine ⟨c, t, rfl, ?_, allt⟩
        rcases all c (by simp) with h | h | h | h | h
        · exact Or.inl h
        · exact Or.inr h
        · exact absurd (isDigit_iff.mpr h) hc
        · exact absurd h h1
        · exact absurd h h2

/-- **C27** Legal (ASCII) names are kept. -/
theorem C27_legal_names_kept (s : Str) (h : NCName s) : xsID s = s := by
  obtain ⟨c, t, rfl, hc, ht⟩ := h
  have allowed : ∀ c, (Letter c ∨ c = '_' ∨ Digit c ∨ c = '-' ∨ c = '.') → ncNameAllowed c = true := by
    intro c h
    have hlt : c.toNat < 128 := by
      have u : ∀ d : Char, c ≤ d → c.toNat ≤ d.toNat := fun d h => h
      rcases h with (h | h) | rfl | h | rfl | rfl
      · have := u 'z' h.2; have e : 'z'.toNat = 122 := rfl; omega
      · have := u 'Z' h.2; have e : 'Z'.toNat = 90 := rfl; omega
      · decide
      · have := u '9' h.2; have e : '9'.toNat = 57 := rfl; omega
      · decide
      · decide
    have key : ∀ n < 128, (let c := Char.ofNat n; (Letter c ∨ c = '_' ∨ Digit c ∨ c = '-' ∨ c = '.') → ncNameAllowed c = true) := by decide +kernel
    have := key c.toNat hlt
    simp only [Char.ofNat_toNat] at this
    exact this h
  have e : onlyAllow ['_'] ncNameAllowed (c :: t) = c :: t := by
    apply onlyAllow_keep
    intro x hx
    rcases List.mem_cons.mp hx with rfl | hx
    · rcases hc with h | h
      · exact allowed x (Or.inl h)
      · exact allowed x (Or.inr (Or.inl h))
    · exact allowed x (ht x hx)
  unfold xsID
  rw [e]
  have nd : ¬ c.isDigit := by
    intro hd
    have hd := isDigit_iff.mp hd
    have h9 : c.toNat ≤ 57 := hd.2
    rcases hc with (h | h) | rfl
    · have : 97 ≤ c.toNat := h.1; omega
    · have : 65 ≤ c.toNat := h.1; omega
    · revert hd; decide
  simp [nd]

/-- **C27** is false in general: text that starts with `-` becomes an identifier that is not a legal name. -/
theorem C27_illegal_name : xsID "-P1".toList = "-P1".toList ∧ ¬ NCName (xsID "-P1".toList) :=
  ⟨by decide, fun h => ((C27_legal_name_partial _).2.mp h).1 rfl⟩

example : xsID "P 1".toList = "P_1".toList ∧ xsID "1".toList = "ID1".toList ∧ xsID [] = "ID".toList := by decide

/-! ### C20 -/

/-- The arguments of an operation are C++ `int`s. -/
def intsOk : CommaInts.Op → Prop
  | .setValues vs => ∀ v ∈ vs, InInt v
  | _ => True

/-- **C20** After any history of assignments, parses and changes of the spacing, the list is strictly increasing and its elements are positive `int`s. -/
theorem C20_invariant (b : Bool) (ops : List CommaInts.Op) (h : ∀ o ∈ ops, intsOk o) :
    let c := ops.foldl CommaInts.step ⟨[], b⟩
    c.values.Pairwise (· < ·) ∧ ∀ v ∈ c.values, 0 < v ∧ v ≤ INT_MAX := by
  have inv : ∀ (ops : List CommaInts.Op) (c : CommaInts), (∀ o ∈ ops, intsOk o) → c.Good → (ops.foldl CommaInts.step c).Good := by
    intro ops
    induction ops with
    | nil => intro c _ hc; exact hc
    | cons o os ih =>
      intro c ho hc
      refine ih _ (fun x hx => ho x (List.mem_cons_of_mem _ hx)) ?_
      cases o with
      | setSpacing b => exact hc
      | parse s => exact addTokens_good _ [] List.Pairwise.nil (by simp)
      | setValues vs =>
        obtain ⟨h1, h2⟩ := foldl_setInsert_sorted vs [] List.Pairwise.nil
        refine ⟨h1.filter _, ?_⟩
        intro v hv
        obtain ⟨g1, g2⟩ := List.mem_filter.mp hv
        refine ⟨by simpa using g2, ?_⟩
        rcases (h2 v).mp g1 with g | g
        · exact (ho (.setValues vs) (by simp) v g).2
        · cases g
  exact inv ops ⟨[], b⟩ h ⟨List.Pairwise.nil, by simp⟩

/-- **C20** Assigning a set keeps exactly its positive elements. -/
theorem C20_set_values (c : CommaInts) (vs : List Int) (v : Int) :
    v ∈ (c.step (.setValues vs)).values ↔ v ∈ vs ∧ 0 < v := by
  obtain ⟨_, h2⟩ := foldl_setInsert_sorted vs [] List.Pairwise.nil
  simp only [CommaInts.step, CommaInts.setValues, List.mem_filter, h2]
  simp

/-- **C20** The text of a list is parsed back to the same list, with or without spaces, whatever the receiving object held. -/
theorem C20_round_trip (b : Bool) (ops : List CommaInts.Op) (h : ∀ o ∈ ops, intsOk o) (c' : CommaInts) :
    let c := ops.foldl CommaInts.step ⟨[], b⟩
    (c'.parse c.toStr).values = c.values := by
  obtain ⟨h1, h2⟩ := C20_invariant b ops h
  dsimp only at h1 h2 ⊢
  generalize ops.foldl CommaInts.step ⟨[], b⟩ = c at h1 h2 ⊢
  have hi : ∀ v ∈ c.values, InInt v := fun v hv => by
    have := h2 v hv
    exact ⟨by have : INT_MIN = -2147483648 := rfl; omega, this.2⟩
  rw [CommaInts.toStr_eq, parse_numbers c' _ (by cases c.spacing <;> decide) c.values hi]
  refine sorted_ext (addTokens_good _ [] List.Pairwise.nil (by simp)).1 h1 ?_
  intro y
  rw [addTokens_mem _ [] hi]
  constructor
  · rintro (h | h)
    · exact h.1
    · cases h
  · exact fun h => Or.inl ⟨h, (h2 y h).1⟩

/-- **C20** The numerals of any `int`s, separated by commas with or without a space, are parsed into the set of the positive ones. -/
theorem C20_parse_numbers (c : CommaInts) (space : Bool) (l : List Int) (hl : ∀ v ∈ l, InInt v) :
    let c' := c.parse (joined (if space then [',', ' '] else [',']) (l.map showInt))
    c'.values.Pairwise (· < ·) ∧ ∀ v, v ∈ c'.values ↔ v ∈ l ∧ 0 < v := by
  dsimp only
  rw [parse_numbers c _ (by cases space <;> decide) l hl]
  refine ⟨(addTokens_good _ [] List.Pairwise.nil (by simp)).1, ?_⟩
  intro v
  rw [addTokens_mem _ [] hl]
  simp

example : ((⟨[], true⟩ : CommaInts).parse "3, -1, 0,2,3".toList).toStr = "2, 3".toList := by decide +kernel

/-- White space is not a separator: "1 2" is read as 12 (a remark on what "parse" accepts). -/
theorem C20_spaces_are_dropped : ((⟨[], false⟩ : CommaInts).parse "1 2".toList).values = [12] := by decide +kernel

/-! ### C21 -/

/-- **C21** A list of comma free, normalised tokens that does not end with an empty token is read back from the text written: the text denotes (in XML) a
string that parses to the list. -/
theorem C21_round_trip_partial (l : CommaText) (h : ∀ x ∈ l, ',' ∉ x ∧ Normalised x) (hl : l.getLast? ≠ some []) :
    ∃ v, Denotes l.toStream v ∧ CommaText.parse v = l := by
  refine ⟨joined [','] l, by rw [toStream_eq]; exact escape_denotes _, ?_⟩
  unfold CommaText.parse
  rw [getlines_joined l (fun x hx => (h x hx).1) hl]
  have : ∀ x ∈ l, xsToken x = x := fun x hx => reduce_of_normalised (h x hx).2
  rw [List.map_congr_left this, List.map_id'']
  intro x; rfl

/-- **C21** Without XML in between, the same holds for tokens without `<`, `>` and `&`. -/
theorem C21_direct_round_trip_partial (l : CommaText) (h : ∀ x ∈ l, ',' ∉ x ∧ Normalised x) (hl : l.getLast? ≠ some [])
    (hm : ∀ x ∈ l, '<' ∉ x ∧ '>' ∉ x ∧ '&' ∉ x) : CommaText.parse l.toStream = l := by
  have e : escapeXml (joined [','] l) = joined [','] l := by
    have hc : ∀ c ∈ joined [','] l, c ≠ '<' ∧ c ≠ '>' ∧ c ≠ '&' := by
      intro c hc
      rcases char_joined hc with hc | ⟨x, hx, hc⟩
      · rw [List.mem_singleton] at hc; subst hc; decide
      · obtain ⟨h1, h2, h3⟩ := hm x hx
        exact ⟨fun e => h1 (e ▸ hc), fun e => h2 (e ▸ hc), fun e => h3 (e ▸ hc)⟩
    generalize joined [','] l = s at hc
    induction s with
    | nil => rfl
    | cons c t ih =>
      obtain ⟨a, b, d⟩ := hc c (by simp)
      rw [escapeXml_cons, if_neg a, if_neg b, if_neg d, ih (fun x hx => hc x (List.mem_cons_of_mem _ hx))]; rfl
  rw [toStream_eq, e]
  obtain ⟨v, h1, h2⟩ := C21_round_trip_partial l h hl
  rw [toStream_eq, e] at h1
  have := escape_denotes (joined [','] l)
  rw [e] at this
  rw [← Denotes.unique h1 this]
  exact h2

/-- **C21** is false in general: an empty token at the end is lost. -/
theorem C21_trailing_empty_token_lost : CommaText.parse (CommaText.toStream ["a".toList, []]) = ["a".toList] := by decide +kernel

/-- **C21** is false without XML in between: the text of the object has the escapes of XML, the parser does not resolve them. -/
theorem C21_escapes_not_resolved : CommaText.parse (CommaText.toStream ["a&b".toList]) = ["a&amp;b".toList] := by decide +kernel

example : CommaText.toStream ["Times New Roman".toList, [], "R&B".toList] = "Times New Roman,,R&amp;B".toList ∧
    CommaText.parse "Times New Roman,,R&B".toList = ["Times New Roman".toList, [], "R&B".toList] := by decide +kernel

/-! ### C36 -/

/-- **C36** Text is taken as a number exactly when it is the canonical numeral of a 32 bit `int`; otherwise the variable keeps its value. -/
theorem C36_canonical_partial (s : Str) (old : Int) :
    (∀ v, stringToInt s old = some (true, v) ↔ CanonicalInteger s v ∧ InInt v) ∧
    (∀ r, stringToInt s old = some r → (¬ ∃ v, CanonicalInteger s v ∧ InInt v) → r = (false, old)) := by
  have key : ∀ v, stringToInt s old = some (true, v) ↔ CanonicalInteger s v ∧ InInt v := by
    intro v
    rw [canonical_iff]
    constructor
    · intro h
      unfold stringToInt at h
      obtain ⟨t, ht, e⟩ := Option.map_eq_some_iff.mp h
      split at e
      · rename_i hs
        injection e with _ e
        subst e
        exact ⟨hs.symm, atoi_inInt ht⟩
      · injection e with e _; exact absurd e (by decide)
    · rintro ⟨rfl, hv⟩
      unfold stringToInt
      rw [atoi_showInt v hv, Option.map_some, if_pos rfl]
  refine ⟨key, ?_⟩
  intro r h hn
  obtain ⟨b, v⟩ := r
  cases b with
  | true => exact absurd ⟨v, (key v).mp h⟩ hn
  | false =>
    unfold stringToInt at h
    obtain ⟨t, ht, e⟩ := Option.map_eq_some_iff.mp h
    split at e
    · injection e with e _; exact absurd e (by decide)
    · exact e.symm

/-- **C36** The conversion is defined for every text whose leading numeral (if any) is an `int`; in particular for text that starts with anything else. -/
theorem C36_defined (c : Char) (t : Str) (old : Int) (h : ¬ White c ∧ c ≠ '+' ∧ c ≠ '-' ∧ ¬ Digit c) : stringToInt (c :: t) old = some (false, old) := by
  have h1 : isWs c = false := by
    cases hc : isWs c with
    | false => rfl
    | true => exact absurd (isWs_iff.mp hc) h.1
  have h2 : c.isDigit = false := by
    cases hc : c.isDigit with
    | false => rfl
    | true => exact absurd (isDigit_iff.mp hc) h.2.2.2
  have e : atoi (c :: t) = some 0 := by
    unfold atoi
    rw [skipWs_of_head h1, readSign_of_ne ⟨h.2.2.1, h.2.1⟩]
    dsimp only
    rw [List.takeWhile_cons_of_neg (by rw [h2]; decide)]
    decide
  unfold stringToInt
  rw [e, Option.map_some, if_neg]
  intro hs
  have : c = '0' := by
    have e0 : showInt 0 = ['0'] := rfl
    rw [e0] at hs
    exact (List.cons.inj hs).1.symm
  exact h.2.2.2 (by rw [this]; decide)

/-- **C36** is not settled for long numerals: the behaviour of the C library function is undefined there. -/
theorem C36_overflow_undefined : stringToInt "2147483648".toList 7 = none := by decide +kernel

example : stringToInt "-12".toList 7 = some (true, -12) ∧ stringToInt "012".toList 7 = some (false, 7) ∧ stringToInt " 12".toList 7 = some (false, 7) := by
  decide +kernel

/-! ### C37 -/

/-- **C37** Misc data whose strings are normalised and free of control characters and double quotes, with a last string that is not empty (unless it is the only
one), is recovered after the attribute has been written, read by an XML processor and parsed; commas become underscores. -/
theorem C37_misc_data_partial (l : List Str) (hne : l ≠ []) (hn : ∀ s ∈ l, Normalised s) (hc : ∀ s ∈ l, ∀ c ∈ s, ' ' ≤ c ∧ c ≠ '"')
    (hl : l.length = 1 ∨ l.getLast? ≠ some []) :
    ∃ f v, setMiscData l = some f ∧ AttributeReads f.toStream v ∧
      parseMiscData (some (CommaText.parse v)) = l.map (fun s => s.map (fun c => if c = ',' then '_' else c)) := by
  obtain ⟨s, rest, rfl⟩ := List.exists_cons_of_ne_nil hne
  have e1 : xsToken (miscMarker ++ uncomma s) = miscMarker ++ uncomma s :=
    reduce_of_normalised (normalised_marker (normalised_uncomma (hn s (by simp))))
  have e2 : rest.map (fun t => xsToken (uncomma t)) = rest.map uncomma :=
    List.map_congr_left (fun t ht => reduce_of_normalised (normalised_uncomma (hn t (List.mem_cons_of_mem _ ht))))
  have hf : setMiscData (s :: rest) = some ((miscMarker ++ uncomma s) :: rest.map uncomma) := by
    show some (xsToken (miscMarker ++ uncomma s) :: rest.map (fun t => xsToken (uncomma t))) = _
    rw [e1, e2]
  have hcu : ∀ t ∈ s :: rest, ∀ c ∈ uncomma t, ' ' ≤ c ∧ c ≠ '"' := by
    intro t ht c hcc
    obtain ⟨d, hd, rfl⟩ := List.mem_map.mp hcc
    split
    · decide
    · exact hc t ht d hd
  refine ⟨_, joined [','] ((miscMarker ++ uncomma s) :: rest.map uncomma), hf, ?_, ?_⟩
  · rw [toStream_eq]
    apply attribute_escape
    intro c hcc
    rcases char_joined hcc with hcc | ⟨x, hx, hcx⟩
    · rw [List.mem_singleton] at hcc; subst hcc; decide
    · rcases List.mem_cons.mp hx with rfl | hx
      · rcases List.mem_append.mp hcx with hcx | hcx
        · have key : ∀ c ∈ miscMarker, ' ' ≤ c ∧ c ≠ '"' := by decide
          exact key c hcx
        · exact hcu s (by simp) c hcx
      · obtain ⟨t, ht, rfl⟩ := List.mem_map.mp hx
        exact hcu t (List.mem_cons_of_mem _ ht) c hcx
  · unfold CommaText.parse
    rw [getlines_joined]
    · rw [List.map_cons, e1, List.map_map]
      have : rest.map (xsToken ∘ uncomma) = rest.map uncomma := e2
      rw [this]
      unfold parseMiscData
      dsimp only
      have t13 : (miscMarker ++ uncomma s).take 13 = miscMarker := List.take_left (l₁ := miscMarker)
      have d13 : (miscMarker ++ uncomma s).drop 13 = uncomma s := List.drop_left (l₁ := miscMarker)
      rw [t13, d13, if_neg (by simp), List.map_cons]
      rfl
    · intro x hx
      rcases List.mem_cons.mp hx with rfl | hx
      · rw [List.mem_append]
        rintro (h | h)
        · revert h; decide
        · exact comma_uncomma s h
      · obtain ⟨t, _, rfl⟩ := List.mem_map.mp hx
        exact comma_uncomma t
    · cases rest with
      | nil =>
        intro h
        rw [List.map_nil, List.getLast?_singleton, Option.some.injEq] at h
        exact absurd (List.append_eq_nil_iff.mp h).1 (by decide)
      | cons y ys =>
        have hl : (s :: y :: ys).getLast? ≠ some [] := hl.resolve_left (by simp)
        rw [List.getLast?_cons_cons] at hl
        rw [List.map_cons, List.getLast?_cons_cons, ← List.map_cons, List.getLast?_map]
        intro h
        obtain ⟨t, ht, e⟩ := Option.map_eq_some_iff.mp h
        exact hl (by rw [ht, List.map_eq_nil_iff.mp e])

/-- **C37** In particular such strings are recovered unchanged if they have no commas. -/
theorem C37_without_commas_partial (l : List Str) (hne : l ≠ []) (hn : ∀ s ∈ l, Normalised s) (hc : ∀ s ∈ l, ∀ c ∈ s, ' ' ≤ c ∧ c ≠ '"')
    (hl : l.length = 1 ∨ l.getLast? ≠ some []) (h : ∀ s ∈ l, ',' ∉ s) :
    ∃ f v, setMiscData l = some f ∧ AttributeReads f.toStream v ∧ parseMiscData (some (CommaText.parse v)) = l := by
  have key : ∀ s : Str, ',' ∉ s → s.map (fun c => if c = ',' then '_' else c) = s := by
    intro s hs
    rw [List.map_congr_left (g := id), List.map_id]
    intro c hc
    by_cases e : c = ','
    · rw [e] at hc; exact absurd hc hs
    · rw [if_neg e]; rfl
  obtain ⟨f, v, h1, h2, h3⟩ := C37_misc_data_partial l hne hn hc hl
  rw [List.map_congr_left (g := id) (fun s hs => key s (h s hs)), List.map_id] at h3
  exact ⟨f, v, h1, h2, h3⟩

/-- **C37** is false in general: outer and double spaces disappear, and so does an empty last string. -/
theorem C37_spaces_and_empty_strings_lost :
    (setMiscData [" a  b ".toList, "c".toList, []]).map (fun f => parseMiscData (some (CommaText.parse f.toStream))) = some [" a b".toList, "c".toList] := by
  decide +kernel

example : (setMiscData ["x,y".toList, [], "z".toList]).map (fun f => parseMiscData (some (CommaText.parse f.toStream))) =
    some ["x_y".toList, [], "z".toList] := by decide +kernel

/-! ### C22 -/

/-- Some decimal of the class `Decimal`, in any state its public interface can lead to. -/
def DecimalState (d : DecimalRange) : Prop := ∃ v0 d0 ops, DecimalRange.make .Decimal v0 = some d0 ∧ d0.run ops = some d

theorem decimalZero_state : DecimalState decimalZero :=
  ⟨0, decimalZero, [], by decide +kernel, rfl⟩

theorem decimal_parse_back {d1 d : DecimalRange} (v : ℚ) (h1 : DecimalState d1) (h : DecimalRange.make .Decimal v = some d)
    (hv : |v| ≤ 9999999999999999999) : ∃ d', d1.parse d.toStr = some (true, d') ∧ d'.getValue = d.getValue ∧ d'.toStr = d.toStr := by
  obtain ⟨v0, d0, ops, a, b⟩ := h1
  exact C19_parse_back .Decimal v v0 ops d d0 d1 h hv trivial a b

/-- The text of a decimal starts with a digit or a minus sign. -/
theorem decimal_text_head {d : DecimalRange} {v : ℚ} (h : DecimalRange.make .Decimal v = some d) :
    ∃ c t, d.toStr = c :: t ∧ (Digit c ∨ c = '-') := by
  obtain ⟨_, _, a3, a4, _⟩ := sound_make h
  obtain ⟨sign, ip, fp, e, h1, h2, -, -, -, h6⟩ := PreciseDecimal.toStr_canonical d.value (by rw [a3]; exact a4)
  obtain ⟨c, t, rfl⟩ := List.exists_cons_of_ne_nil h1
  have e' : d.toStr = sign ++ (c :: t) ++ (if fp = [] then [] else '.' :: fp) := e
  rcases h6 with ⟨rfl, -⟩ | ⟨rfl, -⟩
  · exact ⟨'-', _, e', Or.inr rfl⟩
  · exact ⟨c, _, e', Or.inl (h2 c (by simp))⟩

/-- **C22** `FontSize`: the text of any value is read back as the same alternative with the same value. -/
theorem C22_font_size_round_trip (f : FontSize) :
    (∀ c : Core.CssFontSize, f.parse (FontSize.css c).toStr = some (true, .css c)) ∧
    (∀ (v : ℚ) (d : DecimalRange), DecimalRange.make .Decimal v = some d → |v| ≤ 9999999999999999999 →
      ∃ d', f.parse (FontSize.decimal d).toStr = some (true, .decimal d') ∧ d'.getValue = d.getValue ∧ d'.toStr = d.toStr) := by
  constructor
  · intro c
    have h1 : decimalZero.parse (StringEnum.toStr c) = some (false, decimalZero) := by cases c <;> decide +kernel
    have h2 : tryParse (StringEnum.toStr c) = some c := (roundTrips_CssFontSize c _).mpr rfl
    unfold FontSize.parse FontSize.toStr
    dsimp only
    rw [h1]
    dsimp only
    rw [h2]
  · intro v d h hv
    obtain ⟨d', g1, g2, g3⟩ := decimal_parse_back v decimalZero_state h hv
    refine ⟨d', ?_, g2, g3⟩
    unfold FontSize.parse FontSize.toStr
    dsimp only
    rw [g1]

/-- **C22** `FontSize`: text that is neither a numeral nor the name of a size is rejected, and the value is kept. -/
theorem C22_font_size_rejects (f : FontSize) (s : Str) (h1 : ¬ ∃ v : ℚ, DecimalText s v ∧ |v| < 2 ^ 16384)
    (h2 : ∀ c : Core.CssFontSize, s ≠ StringEnum.toStr c) : f.parse s = some (false, f) := by
  unfold FontSize.parse
  rw [(C51_parse_accepts_numerals decimalZero s).2 h1]
  dsimp only
  cases hc : (tryParse s : Option Core.CssFontSize) with
  | none => rfl
  | some c => exact absurd ((roundTrips_CssFontSize c s).mp hc) (h2 c)

/-- **C22** `YesNoNumber`: the text of any value is read back as the same alternative with the same value. -/
theorem C22_yes_no_number_round_trip (f : YesNoNumber) :
    (∀ y : Core.YesNo, f.parse (YesNoNumber.yesNo y).toStr = some (true, .yesNo y)) ∧
    (∀ (v : ℚ) (d : DecimalRange), DecimalRange.make .Decimal v = some d → |v| ≤ 9999999999999999999 →
      ∃ d', f.parse (YesNoNumber.decimal d).toStr = some (true, .decimal d') ∧ d'.getValue = d.getValue ∧ d'.toStr = d.toStr) := by
  constructor
  · intro y
    have h2 : tryParse (StringEnum.toStr y) = some y := (roundTrips_YesNo y _).mpr rfl
    unfold YesNoNumber.parse YesNoNumber.toStr
    dsimp only
    rw [h2]
  · intro v d h hv
    obtain ⟨d', g1, g2, g3⟩ := decimal_parse_back v decimalZero_state h hv
    refine ⟨d', ?_, g2, g3⟩
    have hn : (tryParse d.toStr : Option Core.YesNo) = none := by
      cases hc : (tryParse d.toStr : Option Core.YesNo) with
      | none => rfl
      | some y =>
        have e := (roundTrips_YesNo y _).mp hc
        obtain ⟨c, t, e2, hd⟩ := decimal_text_head h
        rw [e] at e2
        have key : ∀ y : Core.YesNo, ∀ c, (StringEnum.toStr y).head? = some c → ¬ (Digit c ∨ c = '-') := by
          intro y c
          cases y
          · rintro hh; have : c = 'y' := by injection hh with hh; exact hh.symm
            subst this; decide
          · rintro hh; have : c = 'n' := by injection hh with hh; exact hh.symm
            subst this; decide
        exact absurd hd (key y c (by rw [e2]; rfl))
    unfold YesNoNumber.parse YesNoNumber.toStr
    dsimp only
    rw [hn]
    dsimp only
    rw [g1]

/-- **C22** `YesNoNumber`: text that is neither "yes" nor "no" nor a numeral is rejected, and the value is kept. -/
theorem C22_yes_no_number_rejects (f : YesNoNumber) (s : Str) (h1 : ¬ ∃ v : ℚ, DecimalText s v ∧ |v| < 2 ^ 16384)
    (h2 : ∀ y : Core.YesNo, s ≠ StringEnum.toStr y) : f.parse s = some (false, f) := by
  unfold YesNoNumber.parse
  rw [(C51_parse_accepts_numerals decimalZero s).2 h1]
  cases hc : (tryParse s : Option Core.YesNo) with
  | none => rfl
  | some y => exact absurd ((roundTrips_YesNo y s).mp hc) (h2 y)

/-- **C22** `NumberOrNormal`: the text of any value is read back as the same alternative with the same value. -/
theorem C22_number_or_normal_round_trip (n : NumberOrNormal) (hn : DecimalState n.decimal) :
    (∀ d, ∃ n', n.parse (NumberOrNormal.mk d true).toStr = some n' ∧ n'.isNormal = true ∧ n'.toStr = "normal".toList) ∧
    (∀ (v : ℚ) (d : DecimalRange), DecimalRange.make .Decimal v = some d → |v| ≤ 9999999999999999999 →
      ∃ n', n.parse (NumberOrNormal.mk d false).toStr = some n' ∧ n'.isNormal = false ∧ n'.decimal.getValue = d.getValue ∧ n'.toStr = d.toStr) := by
  constructor
  · intro d
    exact ⟨⟨decimalZero, true⟩, rfl, rfl, rfl⟩
  · intro v d h hv
    obtain ⟨d', g1, g2, g3⟩ := decimal_parse_back v hn h hv
    refine ⟨⟨d', false⟩, ?_, rfl, g2, g3⟩
    show (if d.toStr = chars "normal" then some (NumberOrNormal.mk decimalZero true) else
      (n.decimal.parse d.toStr).map (fun r => NumberOrNormal.mk r.2 false)) = _
    rw [if_neg, g1]
    · rfl
    · intro e
      obtain ⟨c, t, e2, hd⟩ := decimal_text_head h
      rw [e] at e2
      have : c = 'n' := (List.cons.inj e2).1.symm
      subst this
      revert hd; decide

/-- **C22** is false for `NumberOrNormal`: junk is not rejected; it turns "normal" into a number. -/
theorem C22_number_or_normal_accepts_junk : (NumberOrNormal.mk decimalZero true).parse "junk".toList = some ⟨decimalZero, false⟩ := by decide +kernel

/-- **C22** `PositiveIntegerOrEmpty`: the text of any value is read back as the same alternative with the same value. -/
theorem C22_positive_integer_or_empty_round_trip (w v : Int) (b : Bool) (hv : InInt v) :
    (∀ d, (PositiveIntegerOrEmpty.mk (IntRange.ofKind .PositiveInteger w) b).parse (PositiveIntegerOrEmpty.mk d true).toStr =
      ⟨IntRange.ofKind .PositiveInteger 1, true⟩) ∧
    (PositiveIntegerOrEmpty.mk (IntRange.ofKind .PositiveInteger w) b).parse (PositiveIntegerOrEmpty.mk (IntRange.ofKind .PositiveInteger v) false).toStr =
      ⟨IntRange.ofKind .PositiveInteger v, false⟩ := by
  refine ⟨fun d => rfl, ?_⟩
  show (if (IntRange.ofKind .PositiveInteger v).toStr = [] then _ else _) = _
  rw [if_neg]
  · show PositiveIntegerOrEmpty.mk ((IntRange.ofKind .PositiveInteger w).parse (IntRange.ofKind .PositiveInteger v).toStr).2 false = _
    rw [C17_int_round_trip .PositiveInteger v w hv]
  · exact showInt_ne_nil _

/-- **C22** is false for `PositiveIntegerOrEmpty`: junk is not rejected; it turns the empty value into 1. -/
theorem C22_positive_integer_or_empty_accepts_junk :
    (PositiveIntegerOrEmpty.mk (IntRange.ofKind .PositiveInteger 1) true).parse "junk".toList = ⟨IntRange.ofKind .PositiveInteger 1, false⟩ ∧
    (PositiveIntegerOrEmpty.mk (IntRange.ofKind .PositiveInteger 1) false).toStr = "1".toList := by decide +kernel

/-- the hypotheses are met -/
example : (FontSize.css .medium).parse "12.50".toList = (DecimalRange.make .Decimal (25 / 2)).map (fun d => (true, FontSize.decimal d)) ∧
    (FontSize.css .medium).parse "x-large".toList = some (true, .css .xLarge) ∧ (FontSize.css .medium).parse "huge".toList = some (false, .css .medium) := by
  decide +kernel

end Mx.Props
