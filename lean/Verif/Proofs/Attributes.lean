import Verif.Spec.Attributes
import Verif.Props.StringProps
import Verif.Props.ColorProps
import Verif.Props.EnumProps
import Verif.Props.DecimalProps

/-
Attribute values: every value that XML can carry is written and read back.
-/
open Spec
namespace Mx
open Props

/-- Characters that stand for themselves in an attribute. -/
@[reducible] def selfChar (c : Char) : Prop := ' ' ≤ c ∧ c ≠ '<' ∧ c ≠ '&' ∧ c ≠ '"'

theorem attribute_self {s : Str} (h : ∀ c ∈ s, selfChar c) : AttributeReads s s := by
  induction s with
  | nil => exact .nil
  | cons c t ih =>
    obtain ⟨h1, h2, h3, h4⟩ := h c (by simp)
    exact .char h1 h2 h3 h4 (ih (fun x hx => h x (List.mem_cons_of_mem _ hx)))

theorem selfChar_of_le {c : Char} (h1 : '\'' ≤ c) (h2 : c ≤ '9') : selfChar c := by
  have h1 : 39 ≤ c.toNat := h1
  have h2 : c.toNat ≤ 57 := h2
  refine ⟨show (32 : Nat) ≤ c.toNat from by omega, ?_, ?_, ?_⟩ <;> rintro rfl <;> revert h1 h2 <;> decide

theorem digit_self {c : Char} (h : Digit c) : selfChar c :=
  selfChar_of_le (show (39 : Nat) ≤ c.toNat from by have : 48 ≤ c.toNat := h.1; omega) h.2

theorem white_not_self : ∀ c : Char, c = '-' ∨ c = '+' ∨ c = '.' ∨ c = ',' ∨ c = ' ' ∨ c = '#' → selfChar c := by
  rintro c (rfl | rfl | rfl | rfl | rfl | rfl) <;> decide

theorem showInt_self (v : Int) : ∀ c ∈ showInt v, selfChar c := by
  intro c hc
  unfold showInt at hc
  split at hc
  · rcases List.mem_cons.mp hc with rfl | hc
    · decide
    · exact digit_self (isDigit_iff.mp (toDigits_isDigit c hc))
  · exact digit_self (isDigit_iff.mp (toDigits_isDigit c hc))

theorem canonical_self {s : Str} {v : ℚ} (h : CanonicalDecimal s v) : ∀ c ∈ s, selfChar c := by
  obtain ⟨sign, ip, fp, rfl, _, h1, _, h2, _, h3⟩ := h
  intro c hc
  rcases List.mem_append.mp hc with hc | hc
  · rcases List.mem_append.mp hc with hc | hc
    · rcases h3 with ⟨rfl, _⟩ | ⟨rfl, _⟩
      · rw [List.mem_singleton] at hc; subst hc; decide
      · cases hc
    · exact digit_self (h1 c hc)
  · split at hc
    · cases hc
    · rcases List.mem_cons.mp hc with rfl | hc
      · decide
      · exact digit_self (h2 c hc)

theorem decimal_self {k : DecimalKind} {d : DecimalRange} (h : DecimalOk k d) : ∀ c ∈ d.toStr, selfChar c := by
  obtain ⟨v, h1, _, _⟩ := h
  obtain ⟨a1, a2, a3, a4, _⟩ := sound_make h1
  exact canonical_self (PreciseDecimal.toStr_canonical d.value (by rw [a3]; exact a4))

theorem hexByte_self {s : Str} {v : Nat} (h : HexByte s v) : ∀ c ∈ s, selfChar c := by
  obtain ⟨a, b, rfl, ha, hb, _⟩ := h
  have : ∀ a, a < 16 → selfChar hexDigits[a]! := by decide
  intro c hc
  simp only [List.mem_cons, List.not_mem_nil, or_false] at hc
  rcases hc with rfl | rfl
  · exact this a ha
  · exact this b hb

theorem color_self {c : Color} (h : ColorReachable c) : ∀ x ∈ c.toStr, selfChar x := by
  obtain ⟨A, R, G, B, e, a, r, g, b⟩ := C15_color_text c h
  rw [e]
  intro x hx
  simp only [List.mem_append] at hx
  rcases hx with (((hx | hx) | hx) | hx) | hx
  · rw [List.mem_singleton] at hx; subst hx; decide
  · split at hx
    · exact hexByte_self a x hx
    · cases hx
  · exact hexByte_self r x hx
  · exact hexByte_self g x hx
  · exact hexByte_self b x hx

theorem rows_self (n : EnumName) : ∀ p ∈ Spec.schemaRows n, ∀ c ∈ p.2, selfChar c := by
  cases n <;> decide +kernel

theorem enum_self (n : EnumName) (x : n.Carrier) : ∀ c ∈ StringEnum.toStr x, selfChar c :=
  rows_self n (x, StringEnum.toStr x) ((C23_written_text n x _).mp rfl)

theorem open_text {o : OpenName} (v : o.Value) (s : Str) (hs : s ≠ Spec.otherName o) : (v.setText s).valueString = s := by
  obtain ⟨_, h2⟩ := open_setText (o := o) v s hs
  revert h2
  generalize v.setText s = v
  intro h2
  by_cases he : v.enum = OpenEnum.other
  · have h4 : OpenName.abs v = .own v.custom := if_pos he
    rw [h4] at h2
    rw [OpenValue.valueString, if_neg (fun h => h he)]; exact h2.1
  · have h4 : OpenName.abs v = .named v.enum := if_neg he
    rw [h4] at h2
    rw [OpenValue.valueString, if_pos he]; exact open_row.mp h2.1

theorem decimal_back {k : DecimalKind} {d d1 : DecimalRange} (h : DecimalOk k d) (h1 : DecimalReachable k d1) :
    ∃ d', d1.parse d.toStr = some (true, d') ∧ d'.getValue = d.getValue ∧ d'.toStr = d.toStr := by
  obtain ⟨v, a, b, c⟩ := h
  obtain ⟨v0, d0, ops, e, f⟩ := h1
  exact C19_parse_back k v v0 ops d d0 d1 a b c e f

theorem ints_self (c : CommaInts) : ∀ x ∈ c.toStr, selfChar x := by
  unfold CommaInts.toStr
  split
  · intro x hx; cases hx
  · rename_i v vs _
    intro x hx
    rcases List.mem_append.mp hx with hx | hx
    · exact showInt_self v x hx
    · obtain ⟨y, _, hx⟩ := List.mem_flatMap.mp hx
      rcases List.mem_cons.mp hx with rfl | hx
      · decide
      · rcases List.mem_append.mp hx with hx | hx
        · split at hx
          · rw [List.mem_singleton] at hx; subst hx; decide
          · cases hx
        · exact showInt_self y x hx

theorem ints_back (c c' : CommaInts) (h1 : c.values.Pairwise (· < ·)) (h2 : ∀ v ∈ c.values, 0 < v ∧ v ≤ INT_MAX) :
    (c'.parse c.toStr).values = c.values := by
  have hi : ∀ v ∈ c.values, InInt v := fun v hv => by
    have := h2 v hv
    exact ⟨by have : INT_MIN = -2147483648 := rfl; omega, this.2⟩
  rw [CommaInts.toStr_eq, parse_numbers c' _ (by cases c.spacing <;> decide) c.values hi]
  refine sorted_ext (addTokens_good _ [] List.Pairwise.nil (by simp)).1 h1 ?_
  intro y
  rw [addTokens_mem _ [] hi]
  constructor
  · rintro (h | h)
    · exact h.1
    · cases h
  · exact fun h => Or.inl ⟨h, (h2 y h).1⟩

theorem commaText_back {l : CommaText} (h : ∀ x ∈ l, PlainText x ∧ Normalised x ∧ ',' ∉ x) (hl : l.getLast? ≠ some []) :
    AttributeReads l.toStream (joined [','] l) ∧ CommaText.parse (joined [','] l) = l := by
  constructor
  · rw [toStream_eq]
    refine attribute_escape ?_
    intro c hc
    rcases char_joined hc with hc | ⟨x, hx, hc⟩
    · rw [List.mem_singleton] at hc; subst hc; decide
    · exact (h x hx).1 c hc
  · unfold CommaText.parse
    rw [getlines_joined l (fun x hx => (h x hx).2.2) hl]
    have : ∀ x ∈ l, xsToken x = x := fun x hx => reduce_of_normalised (h x hx).2.1
    rw [List.map_congr_left this, List.map_id'']
    intro x; rfl

theorem id_plain (t : Str) : PlainText (xsID t) := by
  have mem : ∀ c, ncNameAllowed c = true → ' ' ≤ c ∧ c ≠ '"' := by
    intro c h
    have : c ∈ chars "-.0123456789ABCDEFGHIJKLMNOPQRSTUVWXYZ_abcdefghijklmnopqrstuvwxyz" := by
      unfold ncNameAllowed at h; exact List.contains_iff_mem.mp h
    exact (by decide : ∀ c ∈ chars "-.0123456789ABCDEFGHIJKLMNOPQRSTUVWXYZ_abcdefghijklmnopqrstuvwxyz", ' ' ≤ c ∧ c ≠ '"') c this
  have all : ∀ x ∈ onlyAllow ['_'] ncNameAllowed t, ' ' ≤ x ∧ x ≠ '"' := by
    intro x hx
    obtain ⟨c, _, hc⟩ := List.mem_flatMap.mp hx
    split at hc
    · rename_i ha; rw [List.mem_singleton] at hc; subst hc; exact mem _ ha
    · rw [List.mem_singleton] at hc; subst hc; decide
  unfold xsID PlainText
  split
  · decide
  · rename_i c u e
    rw [e] at all
    split
    · intro x hx
      rcases List.mem_append.mp hx with hx | hx
      · exact (by decide : ∀ x ∈ chars "ID", ' ' ≤ x ∧ x ≠ '"') x hx
      · exact all x hx
    · exact all

theorem allowed_onlyAllow (t : Str) : ∀ x ∈ onlyAllow ['_'] ncNameAllowed t, ncNameAllowed x = true := by
  intro x hx
  obtain ⟨c, _, hc⟩ := List.mem_flatMap.mp hx
  split at hc
  · rename_i ha; rw [List.mem_singleton] at hc; subst hc; exact ha
  · rw [List.mem_singleton] at hc; subst hc; decide

theorem id_idem (t : Str) : xsID (xsID t) = xsID t := by
  have all := allowed_onlyAllow t
  rw [xsID.eq_def t]
  cases h : onlyAllow ['_'] ncNameAllowed t with
  | nil => decide
  | cons c u =>
    rw [h] at all
    dsimp only
    by_cases hc : c.isDigit = true
    · rw [if_pos hc]
      have a2 : ∀ x ∈ chars "ID" ++ c :: u, ncNameAllowed x = true := by
        intro x hx
        rcases List.mem_append.mp hx with hx | hx
        · exact (by decide : ∀ x ∈ chars "ID", ncNameAllowed x = true) x hx
        · exact all x hx
      unfold xsID
      rw [onlyAllow_keep _ _ _ a2]
      rfl
    · rw [if_neg hc]
      unfold xsID
      rw [onlyAllow_keep _ _ _ all]
      show (if c.isDigit = true then _ else _) = _
      rw [if_neg hc]

/-- Every value that XML can carry is read back. -/
theorem value_back {t : AttrType} {v old : AttrValue} (h : Carried t v) (ho : Instance t old) :
    ∃ s, AttributeReads v.raw s ∧ ∃ v', old.parse s = some (true, v') ∧ SameValue v v' := by
  cases t <;> cases v <;> first | exact h.elim | skip
  all_goals cases old <;> first | exact ho.elim | skip
  case enum.enum.enum n m x k y =>
    have h : n = m := h
    have ho : n = k := ho
    subst h; subst ho
    refine ⟨_, attribute_self (enum_self n x), .enum n x, ?_, rfl⟩
    show some (decide (StringEnum.toStr (parseEnum (StringEnum.toStr x) : n.Carrier) = StringEnum.toStr x), _) = _
    rw [C23_round_trip, decide_eq_true rfl]
    show some (true, AttrValue.enum n (parseEnum (StringEnum.toStr x))) = _
    rw [C23_round_trip]
  case int.int.int k r r0 =>
    obtain ⟨v, hv, rfl⟩ := h
    obtain ⟨w, rfl⟩ := ho
    refine ⟨_, attribute_self (showInt_self _), .int (IntRange.ofKind k v), ?_, rfl⟩
    have := C17_int_round_trip k v w hv
    show some (decide (((IntRange.ofKind k w).parse (IntRange.ofKind k v).toStr).2.toStr = (IntRange.ofKind k v).toStr),
      AttrValue.int ((IntRange.ofKind k w).parse (IntRange.ofKind k v).toStr).2) = _
    rw [this]
    simp
  case decimal.decimal.decimal k d d1 =>
    obtain ⟨d', a, b, c⟩ := decimal_back h ho
    refine ⟨_, attribute_self (decimal_self h), .decimal d', ?_, b.symm, c.symm⟩
    show (d1.parse d.toStr).map _ = _
    rw [a]; rfl
  case color.color.color c c0 =>
    refine ⟨_, attribute_self (color_self h), .color c, ?_, rfl⟩
    show some (decide ((c0.parse c.toStr).toStr = c.toStr), AttrValue.color (c0.parse c.toStr)) = _
    rw [C15_color_round_trip c c0 h]
    simp
  case fontSize.fontSize.fontSize f f0 =>
    cases f with
    | css c =>
      refine ⟨_, attribute_self (enum_self .CssFontSize c), .fontSize (.css c), ?_, rfl⟩
      have := (C22_font_size_round_trip f0).1 c
      show (f0.parse (FontSize.css c).toStr).map _ = _
      rw [this]
      show some (decide (StringEnum.toStr c = StringEnum.toStr c), AttrValue.fontSize (.css c)) = _
      rw [decide_eq_true rfl]
    | decimal d =>
      have h : DecimalOk .Decimal d := h
      obtain ⟨v, a, b, _⟩ := id h
      obtain ⟨d', g1, g2, g3⟩ := (C22_font_size_round_trip f0).2 v d a b
      refine ⟨_, attribute_self (decimal_self h), .fontSize (.decimal d'), ?_, g2.symm, g3.symm⟩
      show (f0.parse (FontSize.decimal d).toStr).map _ = _
      rw [g1]
      show some (decide (d'.toStr = d.toStr), AttrValue.fontSize (.decimal d')) = _
      rw [decide_eq_true g3]
  case numberOrNormal.numberOrNormal.numberOrNormal n n0 =>
    obtain ⟨d, b⟩ := n
    cases b with
    | true =>
      refine ⟨_, attribute_self (s := chars "normal") (by decide), .numberOrNormal ⟨decimalZero, true⟩, ?_, rfl, by intro h; cases h⟩
      rfl
    | false =>
      have h : DecimalOk .Decimal d := by
        rcases h with h | h
        · cases h
        · exact h
      obtain ⟨v, a, b, _⟩ := id h
      obtain ⟨n', g1, g2, g3, g4⟩ := (C22_number_or_normal_round_trip n0 ho).2 v d a b
      have e : n'.decimal.toStr = d.toStr := by
        rw [NumberOrNormal.toStr, g2] at g4; exact g4
      refine ⟨_, attribute_self (decimal_self h), .numberOrNormal n', ?_, g2.symm, fun _ => ⟨g3.symm, e.symm⟩⟩
      show (n0.parse (NumberOrNormal.mk d false).toStr).map _ = _
      rw [g1]
      show some (decide (n'.toStr = d.toStr), AttrValue.numberOrNormal n') = _
      rw [g4]; simp
  case yesNoNumber.yesNoNumber.yesNoNumber y y0 =>
    cases y with
    | yesNo c =>
      refine ⟨_, attribute_self (enum_self .YesNo c), .yesNoNumber (.yesNo c), ?_, rfl⟩
      have := (C22_yes_no_number_round_trip y0).1 c
      show (y0.parse (YesNoNumber.yesNo c).toStr).map _ = _
      rw [this]
      show some (decide (StringEnum.toStr c = StringEnum.toStr c), AttrValue.yesNoNumber (.yesNo c)) = _
      rw [decide_eq_true rfl]
    | decimal d =>
      have h : DecimalOk .Decimal d := h
      obtain ⟨v, a, b, _⟩ := id h
      obtain ⟨d', g1, g2, g3⟩ := (C22_yes_no_number_round_trip y0).2 v d a b
      refine ⟨_, attribute_self (decimal_self h), .yesNoNumber (.decimal d'), ?_, g2.symm, g3.symm⟩
      show (y0.parse (YesNoNumber.decimal d).toStr).map _ = _
      rw [g1]
      show some (decide (d'.toStr = d.toStr), AttrValue.yesNoNumber (.decimal d')) = _
      rw [decide_eq_true g3]
  case commaText.commaText.commaText l l0 =>
    obtain ⟨a, b⟩ := commaText_back h.1 h.2
    refine ⟨_, a, .commaText l, ?_, rfl⟩
    show some (true, AttrValue.commaText (CommaText.parse (joined [','] l))) = _
    rw [b]
  case commaInts.commaInts.commaInts c c0 =>
    exact ⟨_, attribute_self (ints_self c), .commaInts (c0.parse c.toStr), rfl, (ints_back c c0 h.1 h.2).symm⟩
  case string.string.string s s0 =>
    exact ⟨s, attribute_escape h, .string s, rfl, rfl⟩
  case token.token.token s s0 =>
    exact ⟨s, attribute_escape h.1, .token (xsToken s), rfl, (reduce_of_normalised h.2).symm⟩
  case id.id.id s s0 =>
    obtain ⟨t, rfl⟩ := h
    exact ⟨xsID t, attribute_escape (id_plain t), .id (xsID (xsID t)), rfl, (id_idem t).symm⟩
  case distanceType.distanceType.distanceType v v0 =>
    obtain ⟨s, rfl, h1, h2, h3, h4⟩ := h
    have e : (OpenValue.ofText s : OpenName.DistanceType.Value).valueString = s := C53_text_kept_partial .DistanceType s h4
    refine ⟨s, ?_, .distanceType (v0.setText s), rfl, ?_⟩
    · show AttributeReads (OpenValue.ofText s : OpenName.DistanceType.Value).valueString s
      rw [e]
      exact attribute_self (fun c hc => ⟨(h1 c hc).1, fun e => h2 (e ▸ hc), fun e => h3 (e ▸ hc), (h1 c hc).2⟩)
    · show (OpenValue.ofText s : OpenName.DistanceType.Value).valueString = _
      rw [e]; exact (open_text (o := .DistanceType) v0 s h4).symm
  case lineWidthType.lineWidthType.lineWidthType v v0 =>
    obtain ⟨s, rfl, h1, h2, h3, h4⟩ := h
    have e : (OpenValue.ofText s : OpenName.LineWidthType.Value).valueString = s := C53_text_kept_partial .LineWidthType s h4
    refine ⟨s, ?_, .lineWidthType (v0.setText s), rfl, ?_⟩
    · show AttributeReads (OpenValue.ofText s : OpenName.LineWidthType.Value).valueString s
      rw [e]
      exact attribute_self (fun c hc => ⟨(h1 c hc).1, fun e => h2 (e ▸ hc), fun e => h3 (e ▸ hc), (h1 c hc).2⟩)
    · show (OpenValue.ofText s : OpenName.LineWidthType.Value).valueString = _
      rw [e]; exact (open_text (o := .LineWidthType) v0 s h4).symm

end Mx
