import Verif.Proofs.XmlParse
import Verif.Spec.XmlSaved

/-
What the library and what pugixml write for texts, attributes and instructions, as pieces of a document.
-/
open Spec
namespace Mx.XmlDoc
open Mx.Pugi

/-! ### No zero bytes -/

theorem name_no_zero {n : Str} (h : XmlName n) : '\x00' ∉ n := by
  intro hm
  exact absurd (h.2 _ hm) (by decide)

theorem space_no_zero {w : Str} (h : ∀ c ∈ w, XmlSpace c) : '\x00' ∉ w := by
  intro hm
  exact absurd (h _ hm) (by decide)

theorem entity_spelling_no_zero {e : Str} {c : Char} (h : (e, c) ∈ entities) : '\x00' ∉ e := by
  simp only [entities, List.mem_cons, Prod.mk.injEq, List.not_mem_nil, or_false] at h
  rcases h with ⟨rfl, -⟩ | ⟨rfl, -⟩ | ⟨rfl, -⟩ | ⟨rfl, -⟩ | ⟨rfl, -⟩ <;> decide

theorem reference_spelling_no_zero {r : Str} {n : Nat} (h : Reference r n) : '\x00' ∉ r := by
  intro hm
  cases h with
  | decimal _ hds _ _ =>
    simp only [List.mem_cons, List.mem_append, List.mem_map, List.not_mem_nil, or_false] at hm
    rcases hm with hm | ⟨d, hd, hm⟩ | hm
    · exact absurd hm (by decide)
    · have h1 := dec_digit (hds d hd)
      rw [hm, show decDigit '\x00' = none from by decide] at h1
      exact absurd h1 (by simp)
    · exact absurd hm (by decide)
  | hexadecimal _ hds _ _ =>
    simp only [List.mem_cons, List.mem_append, List.mem_map, List.not_mem_nil, or_false] at hm
    rcases hm with hm | hm | ⟨d, hd, hm⟩ | hm
    · exact absurd hm (by decide)
    · exact absurd hm (by decide)
    · have h1 := hex_digit d.1 (hds d hd)
      rw [hm, show hexDigit '\x00' = none from by decide] at h1
      exact absurd h1 (by simp)
    · exact absurd hm (by decide)

theorem text_spelling_no_zero {e v : Str} (h : TextSpells e v) : '\x00' ∉ e := by
  induction h with
  | nil => simp
  | char _ _ _ h1 _ ih => simpa [ih] using Ne.symm h1
  | entity hx _ ih => simpa [ih] using entity_spelling_no_zero hx
  | reference hx _ ih => simpa [ih] using reference_spelling_no_zero hx
  | crlf _ ih => simpa using ih
  | cr _ _ ih => simpa using ih

theorem value_spelling_no_zero {q : Char} {e v : Str} (h : ValueSpells q e v) : '\x00' ∉ e := by
  induction h with
  | nil => simp
  | char _ _ _ h1 _ ih => simpa [ih] using Ne.symm h1
  | entity hx _ ih => simpa [ih] using entity_spelling_no_zero hx
  | reference hx _ ih => simpa [ih] using reference_spelling_no_zero hx
  | crlf _ ih => simpa using ih
  | space hx _ _ ih =>
    simp only [List.mem_cons, not_or]
    exact ⟨by rintro rfl; exact absurd hx (by decide), ih⟩

theorem attr_no_zero {a : AttrText} (h : a.Ok) : '\x00' ∉ a.text := by
  obtain ⟨-, h1, h2, h3, h4⟩ := h
  have h5 := space_no_zero h1
  have h6 := name_no_zero h2
  have h7 := value_spelling_no_zero h4
  have h8 : '\x00' ≠ a.quote := by rcases h3 with h | h <;> rw [h] <;> decide
  simp only [List.mem_append, not_or] at h5
  simp [AttrText.text, h5, h6, h7, h8]

theorem tag_no_zero {n : Str} {as : List AttrText} {g : Str} (h : TagOk n as g) : '\x00' ∉ tagText n as g := by
  have h1 := name_no_zero h.1
  have h2 := space_no_zero h.2.2
  have h3 : '\x00' ∉ as.flatMap AttrText.text := by
    intro hm
    obtain ⟨a, ha, hm⟩ := List.mem_flatMap.mp hm
    exact attr_no_zero (h.2.1 a ha) hm
  simp [tagText, h1, h2, h3]

mutual
theorem piece_no_zero (p : XmlPiece) (h : p.Ok) : '\x00' ∉ p.text' := by
  cases p with
  | space w => exact space_no_zero h
  | comment s => simpa [XmlPiece.text'] using h.2.2
  | instruction n g d =>
    obtain ⟨h1, -, -, h2, -, -, h3⟩ := h
    simpa [XmlPiece.text', h3] using ⟨name_no_zero h1, space_no_zero h2⟩
  | bare n => simpa [XmlPiece.text'] using name_no_zero h.1
  | cdata n a g s g' => simpa [XmlPiece.text', endTagText] using ⟨tag_no_zero h.1, h.2.2.2, name_no_zero h.1.1, space_no_zero h.2.1⟩
  | empty n a g => simpa [XmlPiece.text'] using tag_no_zero h
  | text n a g e v g' =>
    simpa [XmlPiece.text', endTagText] using ⟨tag_no_zero h.1, text_spelling_no_zero h.2.2.1, name_no_zero h.1.1, space_no_zero h.2.1⟩
  | node n a g ks g' =>
    simpa [XmlPiece.text', endTagText] using ⟨tag_no_zero h.1, pieces_no_zero ks h.2.2, name_no_zero h.1.1, space_no_zero h.2.1⟩
theorem pieces_no_zero (l : List XmlPiece) (h : PiecesOk l) : '\x00' ∉ piecesText l := by
  cases l with
  | nil => simp [piecesText]
  | cons p ps => simpa [piecesText] using ⟨piece_no_zero p h.1, pieces_no_zero ps h.2⟩
end

theorem pieces_append (a b : List XmlPiece) : piecesText (a ++ b) = piecesText a ++ piecesText b := by
  induction a with
  | nil => rfl
  | cons p a ih => simp [piecesText, ih]

theorem pieces_nodes_append (a b : List XmlPiece) : piecesNodes (a ++ b) = piecesNodes a ++ piecesNodes b := by
  induction a with
  | nil => rfl
  | cons p a ih => simp [piecesNodes, ih]

theorem pieces_ok_append {a b : List XmlPiece} (h1 : PiecesOk a) (h2 : PiecesOk b) : PiecesOk (a ++ b) := by
  induction a with
  | nil => exact h2
  | cons p a ih => exact ⟨h1.1, ih h1.2⟩

/-! ### Texts and values as the library writes them -/

theorem escapeXml_cons (c : Char) (s : Str) : escapeXml (c :: s) = escapeXml [c] ++ escapeXml s := by
  simp [escapeXml]

theorem escapeXml_other {c : Char} (h1 : c ≠ '<') (h2 : c ≠ '>') (h3 : c ≠ '&') : escapeXml [c] = [c] := by
  simp [escapeXml, h1, h2, h3]

theorem escapeXml_head {s : Str} (h : s.head? ≠ some '\n') : (escapeXml s).head? ≠ some '\n' := by
  cases s with
  | nil => simp [escapeXml]
  | cons c s =>
    rw [escapeXml_cons]
    by_cases h1 : c = '<'
    · subst h1; simp [show escapeXml ['<'] = ['&', 'l', 't', ';'] from rfl]
    · by_cases h2 : c = '>'
      · subst h2; simp [show escapeXml ['>'] = ['&', 'g', 't', ';'] from rfl]
      · by_cases h3 : c = '&'
        · subst h3; simp [show escapeXml ['&'] = ['&', 'a', 'm', 'p', ';'] from rfl]
        · rw [escapeXml_other h1 h2 h3]
          simpa using h

/-- The three characters that are escaped. -/
theorem escapeXml_cases (c : Char) : (escapeXml [c] = [c] ∧ c ≠ '<' ∧ c ≠ '&' ∧ c ≠ '>') ∨ ∃ e, (e, c) ∈ entities ∧ escapeXml [c] = '&' :: e ∧ ¬ XmlSpace c ∧ c ≠ '\x00' := by
  by_cases h1 : c = '<'
  · subst h1; exact .inr ⟨_, by simp [entities], rfl, by decide, by decide⟩
  · by_cases h2 : c = '>'
    · subst h2; exact .inr ⟨_, by simp [entities], rfl, by decide, by decide⟩
    · by_cases h3 : c = '&'
      · subst h3; exact .inr ⟨_, by simp [entities], rfl, by decide, by decide⟩
      · exact .inl ⟨escapeXml_other h1 h2 h3, h1, h3, h2⟩

theorem lineEnds_other {c : Char} (h : c ≠ '\r') (r : Str) : lineEnds (c :: r) = c :: lineEnds r := by
  rw [lineEnds]
  · rintro r' rfl; exact absurd rfl h
  · rintro rfl; exact absurd rfl h

theorem lineEnds_cr {r : Str} (h : r.head? ≠ some '\n') : lineEnds ('\r' :: r) = '\n' :: lineEnds r := by
  rw [lineEnds]
  rintro r' rfl
  exact h rfl

theorem blanks_other {c : Char} {r : Str} (h : c = '\r' → r.head? ≠ some '\n') : blanks (c :: r) = (if XmlSpace c then ' ' else c) :: blanks r := by
  rw [blanks]
  rintro r' rfl rfl
  exact h rfl rfl

theorem text_written (v : Str) (h : '\x00' ∉ v) : TextSpells (escapeXml v) (lineEnds v) := by
  match v with
  | [] => exact .nil
  | '\r' :: '\n' :: r =>
    have := text_written r (fun hm => h (by simp [hm]))
    rw [escapeXml_cons, escapeXml_cons '\n']
    exact .crlf this
  | c :: r =>
    have ih := text_written r (fun hm => h (by simp [hm]))
    have h0 : c ≠ '\x00' := by rintro rfl; exact h (by simp)
    by_cases hcr : c = '\r'
    · subst hcr
      by_cases hh : r.head? = some '\n'
      · cases r with
        | nil => simp at hh
        | cons d r =>
          simp at hh
          subst hh
          have := text_written r (fun hm => h (by simp [hm]))
          rw [escapeXml_cons, escapeXml_cons '\n']
          exact .crlf this
      · rw [lineEnds_cr hh, escapeXml_cons]
        exact .cr (escapeXml_head hh) ih
    · rw [lineEnds_other hcr, escapeXml_cons]
      rcases escapeXml_cases c with ⟨h1, h2, h3, -⟩ | ⟨e, h1, h2, -⟩
      · rw [h1]
        exact .char h2 h3 hcr h0 ih
      · rw [h2]
        exact .entity h1 ih

theorem value_written (v : Str) (h : '\x00' ∉ v) (hq : '"' ∉ v) : ValueSpells '"' (escapeXml v) (blanks v) := by
  match v with
  | [] => exact .nil
  | c :: r =>
    have ih := value_written r (fun hm => h (by simp [hm])) (fun hm => hq (by simp [hm]))
    have h0 : c ≠ '\x00' := by rintro rfl; exact h (by simp)
    have h0' : c ≠ '"' := by rintro rfl; exact hq (by simp)
    by_cases hh : c = '\r' ∧ r.head? = some '\n'
    · obtain ⟨rfl, hh⟩ := hh
      cases r with
      | nil => simp at hh
      | cons d r =>
        simp at hh
        subst hh
        have := value_written r (fun hm => h (by simp [hm])) (fun hm => hq (by simp [hm]))
        rw [escapeXml_cons, escapeXml_cons '\n']
        exact .crlf this
    · have hh' : c = '\r' → r.head? ≠ some '\n' := fun h1 h2 => hh ⟨h1, h2⟩
      rw [blanks_other hh', escapeXml_cons]
      rcases escapeXml_cases c with ⟨h1, h2, h3, -⟩ | ⟨e, h1, h2, h3, -⟩
      · rw [h1]
        by_cases hs : XmlSpace c
        · rw [if_pos hs]
          exact .space hs (fun hx => escapeXml_head (hh' hx)) ih
        · rw [if_neg hs]
          exact .char h0' h3 hs h0 ih
      · rw [h2, if_neg h3]
        exact .entity h1 ih

theorem escapeXml_space {v : Str} (h : ∀ c ∈ v, XmlSpace c) : escapeXml v = v := by
  induction v with
  | nil => rfl
  | cons c v ih =>
    have hc := h c List.mem_cons_self
    rw [escapeXml_cons, ih (fun x hx => h x (List.mem_cons_of_mem c hx)),
      escapeXml_other (by rintro rfl; exact absurd hc (by decide)) (by rintro rfl; exact absurd hc (by decide)) (by rintro rfl; exact absurd hc (by decide))]
    rfl

theorem escapeXml_mark {v : Str} (h : ∃ c ∈ v, ¬ XmlSpace c) : ∃ c ∈ escapeXml v, ¬ XmlSpace c := by
  obtain ⟨c, hc, hs⟩ := h
  have : ∀ x ∈ escapeXml [c], x ∈ escapeXml v := by
    intro x hx
    simp only [escapeXml, List.mem_flatMap] at hx ⊢
    obtain ⟨a, ha, hx⟩ := hx
    simp at ha
    exact ⟨c, hc, by rw [← ha]; exact hx⟩
  rcases escapeXml_cases c with ⟨h1, -⟩ | ⟨e, -, h1, -⟩
  · exact ⟨c, this c (by rw [h1]; simp), hs⟩
  · exact ⟨'&', this _ (by rw [h1]; simp), by decide⟩

/-! ### Texts and values as pugixml writes them -/

theorem escape_char (t : Nat) (ht : t = 0 ∨ t = 1) (c : Char) :
    (escapeChar t c = [c] ∧ c ≠ '<' ∧ c ≠ '&' ∧ (t = 1 → c ≠ '"' ∧ c ≠ '\t' ∧ c ≠ '\n' ∧ c ≠ '\r'))
      ∨ (∃ x ∈ entities, x.2 = c ∧ escapeChar t c = '&' :: x.1)
      ∨ (c.toNat < 32 ∧ escapeChar t c = '&' :: ('#' :: ([c.toNat / 10, c.toNat % 10].map decimalDigit ++ [';']))) := by
  revert c
  apply char_table
  · rcases ht with rfl | rfl
    · decide +kernel
    · decide +kernel
  · intro c hc
    left
    have h1 : charTypex t c = false := by
      have : charTablex[c.toNat]? = none := by
        rw [List.getElem?_eq_none_iff]
        exact hc
      rw [charTypex, this]
      rcases ht with rfl | rfl <;> rfl
    refine ⟨by rw [escapeChar, h1]; rfl, char_ne_of_high hc (by decide), char_ne_of_high hc (by decide), fun _ => ⟨char_ne_of_high hc (by decide), char_ne_of_high hc (by decide), char_ne_of_high hc (by decide),
      char_ne_of_high hc (by decide)⟩⟩

theorem control_reference {c : Char} (h : c.toNat < 32) (h0 : c ≠ '\x00') :
    Reference ('#' :: ([c.toNat / 10, c.toNat % 10].map decimalDigit ++ [';'])) c.toNat ∧ utf8 c.toNat = [c] := by
  have hn : numberOf 10 [c.toNat / 10, c.toNat % 10] = c.toNat := by
    simp only [numberOf, List.foldl]
    omega
  have hpos : 0 < c.toNat := by
    rcases Nat.eq_zero_or_pos c.toNat with h1 | h1
    · exact absurd (by rw [← Char.ofNat_toNat c, h1]) h0
    · exact h1
  constructor
  · have := Reference.decimal (ds := [c.toNat / 10, c.toNat % 10]) (by simp) (by intro d hd; simp only [List.mem_cons, List.not_mem_nil, or_false] at hd; omega) (by rw [hn]; exact hpos) (by rw [hn]; omega)
    rwa [hn] at this
  · rw [utf8, if_pos (by omega), Char.ofNat_toNat]

theorem text_printed (v : Str) (h : '\x00' ∉ v) (hr : '\r' ∉ v) : TextSpells (outEscaped 0 v) v := by
  induction v with
  | nil => exact .nil
  | cons c v ih =>
    have ih := ih (fun hm => h (by simp [hm])) (fun hm => hr (by simp [hm]))
    have h0 : c ≠ '\x00' := by rintro rfl; exact h (by simp)
    have hcr : c ≠ '\r' := by rintro rfl; exact hr (by simp)
    show TextSpells (escapeChar 0 c ++ outEscaped 0 v) _
    rcases escape_char 0 (.inl rfl) c with ⟨h1, h2, h3, -⟩ | ⟨x, h1, h2, h3⟩ | ⟨h1, h2⟩
    · rw [h1]
      exact .char h2 h3 hcr h0 ih
    · rw [h3]
      exact .entity (c := c) (by rw [← h2]; exact h1) ih
    · rw [h2]
      have h4 := control_reference h1 h0
      have := TextSpells.reference h4.1 ih
      rwa [h4.2] at this

theorem value_printed (v : Str) (h : '\x00' ∉ v) : ValueSpells '"' (outEscaped 1 v) v := by
  induction v with
  | nil => exact .nil
  | cons c v ih =>
    have ih := ih (fun hm => h (by simp [hm]))
    have h0 : c ≠ '\x00' := by rintro rfl; exact h (by simp)
    show ValueSpells '"' (escapeChar 1 c ++ outEscaped 1 v) _
    rcases escape_char 1 (.inr rfl) c with ⟨h1, h2, h3, h4⟩ | ⟨x, h1, h2, h3⟩ | ⟨h1, h2⟩
    · rw [h1]
      obtain ⟨h5, h6, h7, h8⟩ := h4 rfl
      by_cases hs : c = ' '
      · subst hs
        exact .space (.inl rfl) (fun hx => absurd hx (by decide)) ih
      · exact .char h5 h3 (by rintro (hx | hx | hx | hx) <;> contradiction) h0 ih
    · rw [h3]
      exact .entity (c := c) (by rw [← h2]; exact h1) ih
    · rw [h2]
      have h4 := control_reference h1 h0
      have := ValueSpells.reference (q := '"') h4.1 ih
      rwa [h4.2] at this

theorem outEscaped_mark {v : Str} (h : ∃ c ∈ v, ¬ XmlSpace c) : ∃ c ∈ outEscaped 0 v, ¬ XmlSpace c := by
  obtain ⟨c, hc, hs⟩ := h
  have : ∀ x ∈ escapeChar 0 c, x ∈ outEscaped 0 v := fun x hx => List.mem_flatMap.mpr ⟨c, hc, hx⟩
  rcases escape_char 0 (.inl rfl) c with ⟨h1, -⟩ | ⟨x, -, -, h1⟩ | ⟨-, h1⟩
  · exact ⟨c, this c (by rw [h1]; simp), hs⟩
  · exact ⟨'&', this _ (by rw [h1]; simp), by decide⟩
  · exact ⟨'&', this _ (by rw [h1]; simp), by decide⟩

/-! ### Attributes -/

def writtenAttrs (l : List (Str × Str)) : List AttrText := l.map fun x => { gap := [' '], name := x.1, spelt := escapeXml x.2, value := blanks x.2 }

def printedAttrs (l : List (Str × Str)) : List AttrText := l.map fun x => { gap := [' '], name := x.1, spelt := outEscaped 1 x.2, value := x.2 }

theorem written_text (l : List (Str × Str)) : (writtenAttrs l).flatMap AttrText.text = writeAttrs l := by
  simp [writtenAttrs, writeAttrs, List.flatMap_map, AttrText.text]

theorem printed_text (l : List (Str × Str)) : (printedAttrs l).flatMap AttrText.text = outAttrs l := by
  simp [printedAttrs, outAttrs, List.flatMap_map, AttrText.text]

theorem written_values (l : List (Str × Str)) : attrValues (writtenAttrs l) = l.map fun x => (x.1, blanks x.2) := by
  simp [writtenAttrs, attrValues]

theorem printed_values (l : List (Str × Str)) : attrValues (printedAttrs l) = l := by
  simp only [printedAttrs, attrValues, List.map_map]
  exact List.map_id l

theorem written_ok {l : List (Str × Str)} (h : ∀ x ∈ l, AttrOk x) : ∀ a ∈ writtenAttrs l, a.Ok := by
  intro a ha
  obtain ⟨x, hx, rfl⟩ := List.mem_map.mp ha
  obtain ⟨h1, h2, h3⟩ := h x hx
  exact ⟨by simp, by simp [XmlSpace], h1, .inl rfl, value_written x.2 h3 h2⟩

theorem printed_ok {l : List (Str × Str)} (h : ∀ x ∈ l, XmlName x.1 ∧ '\x00' ∉ x.2) : ∀ a ∈ printedAttrs l, a.Ok := by
  intro a ha
  obtain ⟨x, hx, rfl⟩ := List.mem_map.mp ha
  obtain ⟨h1, h3⟩ := h x hx
  exact ⟨by simp, by simp [XmlSpace], h1, .inl rfl, value_printed x.2 h3⟩

/-! ### Instructions -/

/-- The node of an instruction. -/
def piNode (i : Instr) : XNode := .pi i.name (some i.data)

theorem indent_space (level : Nat) : ∀ c ∈ indent level, XmlSpace c := by
  intro c hc
  simp only [indent, List.mem_flatten, List.mem_replicate] at hc
  obtain ⟨l, ⟨-, rfl⟩, hc⟩ := hc
  simp at hc
  exact .inl hc

theorem infix_drop {a d : Str} (p : Char → Bool) (h : ¬ (a <:+: d)) : ¬ (a <:+: d.dropWhile p) := by
  intro hx
  exact h (hx.trans (List.dropWhile_suffix p).isInfix)

theorem takeWhile_all (p : Char → Bool) (l : Str) : ∀ c ∈ l.takeWhile p, p c = true := by
  induction l with
  | nil => simp
  | cons a l ih =>
    intro c hc
    rw [List.takeWhile_cons] at hc
    split at hc
    · rename_i ha
      rcases List.mem_cons.mp hc with rfl | hc
      · exact ha
      · exact ih c hc
    · simp at hc

theorem instr_piece {i : Instr} (h : InstrOk i) (child : Bool) :
    ∃ p : XmlPiece, p.Ok ∧ p.text' = writeInstr i ∧ p.nodes = [piNode (keptInstr child i)] := by
  obtain ⟨h1, h2, h3, h4⟩ := h
  refine ⟨.instruction i.name (' ' :: i.data.takeWhile (fun c => decide (XmlSpace c))) (i.data.dropWhile (fun c => decide (XmlSpace c))), ⟨h1, h2, by simp, ?_, infix_drop _ h3, ?_, ?_⟩, ?_, rfl⟩
  · intro c hc
    rcases List.mem_cons.mp hc with rfl | hc
    · exact .inl rfl
    · have := takeWhile_all (fun c => decide (XmlSpace c)) i.data c hc
      simpa using this
  · intro c r hr
    have := List.head?_dropWhile_not (fun c => decide (XmlSpace c)) i.data
    rw [hr] at this
    simpa using this
  · intro hm
    exact h4 ((List.dropWhile_suffix _).subset hm)
  · simp [XmlPiece.text', writeInstr]

theorem instrs_pieces (level : Nat) (child : Bool) (l : List Instr) (h : ∀ i ∈ l, InstrOk i) :
    ∃ ps, PiecesOk ps ∧ piecesText ps = writeInstrs level l ∧ piecesNodes ps = (l.map (keptInstr child)).map piNode := by
  induction l with
  | nil => exact ⟨[], trivial, rfl, rfl⟩
  | cons i l ih =>
    obtain ⟨ps, h1, h2, h3⟩ := ih (fun x hx => h x (List.mem_cons_of_mem i hx))
    obtain ⟨p, h4, h5, h6⟩ := instr_piece (h i List.mem_cons_self) child
    cases l with
    | nil =>
      exact ⟨[.space (indent level), p], ⟨indent_space level, h4, trivial⟩, by simp [piecesText, XmlPiece.text', h5, writeInstrs], by simp [piecesNodes, XmlPiece.nodes, h6]⟩
    | cons j l =>
      refine ⟨.space (indent level) :: p :: .space ['\n'] :: ps, ⟨indent_space level, h4, by simp [XmlPiece.Ok, XmlSpace], h1⟩, ?_, ?_⟩
      · simp [piecesText, XmlPiece.text', h5, h2, writeInstrs]
      · simp [piecesNodes, XmlPiece.nodes, h6, h3]

end Mx.XmlDoc
