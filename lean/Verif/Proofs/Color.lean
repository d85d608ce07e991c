import Verif.Model.Color
import Verif.Spec.Text
import Verif.Proofs.Text

namespace Mx.Color
open Spec

/-- All channels are bytes, and an RGB colour is opaque. -/
def Inv (c : Color) : Prop :=
  (0 ≤ c.alpha ∧ c.alpha ≤ 255) ∧ (0 ≤ c.red ∧ c.red ≤ 255) ∧ (0 ≤ c.green ∧ c.green ≤ 255) ∧
  (0 ≤ c.blue ∧ c.blue ≤ 255) ∧ (c.type = .RGB → c.alpha = 255)

theorem byte_bounds (v : Int) : 0 ≤ byte v ∧ byte v ≤ 255 := by
  unfold byte IntRange.ofKind IntRange.make IntKind.bounds clampInt
  simp only; split
  · omega
  · split <;> omega

theorem byte_id {v : Int} (h0 : 0 ≤ v) (h1 : v ≤ 255) : byte v = v := by
  unfold byte IntRange.ofKind IntRange.make IntKind.bounds clampInt
  simp only; split
  · omega
  · split <;> omega

theorem inv_default : Inv default := by
  unfold Inv default; have := byte_id (v := 255) (by omega) (by omega); simp [this]

theorem inv_setAlpha {c : Color} (h : Inv c) (v : Int) : Inv (c.setAlpha v) := by
  obtain ⟨a, r, g, b, t⟩ := h
  exact ⟨byte_bounds v, r, g, b, by simp [setAlpha]⟩

theorem inv_setRed {c : Color} (h : Inv c) (v : Int) : Inv (c.setRed v) := by
  obtain ⟨a, r, g, b, t⟩ := h; exact ⟨a, byte_bounds v, g, b, t⟩
theorem inv_setGreen {c : Color} (h : Inv c) (v : Int) : Inv (c.setGreen v) := by
  obtain ⟨a, r, g, b, t⟩ := h; exact ⟨a, r, byte_bounds v, b, t⟩
theorem inv_setBlue {c : Color} (h : Inv c) (v : Int) : Inv (c.setBlue v) := by
  obtain ⟨a, r, g, b, t⟩ := h; exact ⟨a, r, g, byte_bounds v, t⟩
theorem inv_setColorType {c : Color} (h : Inv c) (t : ColorType) : Inv (c.setColorType t) := by
  obtain ⟨a, r, g, b, t'⟩ := h
  have := byte_id (v := 255) (by omega) (by omega)
  unfold setColorType
  cases t
  · simp [Inv, this, r, g, b]
  · simp [Inv, a, r, g, b]

theorem inv_parse {c : Color} (h : Inv c) (s : Str) : Inv (c.parse s) := by
  unfold parse
  split
  · exact h
  · split
    · exact h
    · split
      · exact h
      · exact inv_setColorType (inv_setBlue (inv_setGreen (inv_setRed (inv_setAlpha h _) _) _) _) _

theorem inv_step {c : Color} (h : Inv c) (o : Op) : Inv (c.step o) := by
  cases o with
  | setAlpha v => exact inv_setAlpha h v
  | setRed v => exact inv_setRed h v
  | setGreen v => exact inv_setGreen h v
  | setBlue v => exact inv_setBlue h v
  | setColorType t => exact inv_setColorType h t
  | parse s => exact inv_parse h s

theorem inv_construct (k : Ctor) : Inv (construct k) := by
  have h255 := byte_id (v := 255) (by omega) (by omega)
  cases k with
  | argb a r g b => exact ⟨byte_bounds _, byte_bounds _, byte_bounds _, byte_bounds _, by simp [construct, argb]⟩
  | rgb r g b => exact ⟨byte_bounds 255, byte_bounds _, byte_bounds _, byte_bounds _, by simp [construct, rgb, h255]⟩
  | default => exact inv_default
  | str s => exact inv_parse inv_default s

/-! hex digits: a finite table, checked completely -/

theorem hex_table : ∀ n : Fin 16, hexVal (hexDigit n) = n.val ∧ isHexChar (hexDigit n) = true ∧
    hexDigits[n.val]! = hexDigit n := by decide

theorem hexVal_hexDigit {n : Nat} (h : n < 16) : hexVal (hexDigit n) = n := (hex_table ⟨n, h⟩).1
theorem isHex_hexDigit {n : Nat} (h : n < 16) : isHexChar (hexDigit n) = true := (hex_table ⟨n, h⟩).2.1
theorem hexDigits_get {n : Nat} (h : n < 16) : hexDigits[n]! = hexDigit n := (hex_table ⟨n, h⟩).2.2

theorem hexDigit_hexVal {c : Char} (h : isHexChar c = true) : hexDigit (hexVal c) = c ∧ hexVal c < 16 := by
  have : ∀ c ∈ "ABCDEF0123456789".toList, hexDigit (hexVal c) = c ∧ hexVal c < 16 := by decide
  exact this c (by simpa [isHexChar] using h)

/-- The value of two hex characters. -/
theorem getInt_two {s : Str} {k : Nat} {a b : Char} {r : Str} (h : s.drop k = a :: b :: r) :
    getInt s k = 16 * (hexVal a : Int) + hexVal b := by
  simp [getInt, h]

theorem hex2_value {v : Int} (h0 : 0 ≤ v) (h1 : v ≤ 255) :
    16 * (hexVal (hexDigit (v.toNat / 16)) : Int) + hexVal (hexDigit (v.toNat % 16)) = v := by
  rw [hexVal_hexDigit (by omega), hexVal_hexDigit (by omega)]; omega

theorem parse_rgb {c : Color} {r1 r2 g1 g2 b1 b2 : Char} (h : [r1, r2, g1, g2, b1, b2].all isHexChar = true) :
    c.parse ['#', r1, r2, g1, g2, b1, b2] =
      ⟨255, 16 * hexVal r1 + hexVal r2, 16 * hexVal g1 + hexVal g2, 16 * hexVal b1 + hexVal b2, .RGB⟩ := by
  have hb : ∀ x y : Char, isHexChar x = true → isHexChar y = true →
      byte (16 * hexVal x + hexVal y) = 16 * hexVal x + hexVal y := by
    intro x y hx hy
    have := (hexDigit_hexVal hx).2; have := (hexDigit_hexVal hy).2
    exact byte_id (by omega) (by omega)
  have h255 : byte 255 = 255 := byte_id (by omega) (by omega)
  simp only [List.all_cons, List.all_nil, Bool.and_true, Bool.and_eq_true] at h
  obtain ⟨h1, h2, h3, h4, h5, h6⟩ := h
  unfold parse
  rw [if_neg (by simp), if_neg (by simp), if_neg (by simp [*])]
  simp [getInt, setAlpha, setRed, setGreen, setBlue, setColorType, hb, h255, *]

theorem parse_argb {c : Color} {a1 a2 r1 r2 g1 g2 b1 b2 : Char} (h : [a1, a2, r1, r2, g1, g2, b1, b2].all isHexChar = true) :
    c.parse ['#', a1, a2, r1, r2, g1, g2, b1, b2] =
      ⟨16 * hexVal a1 + hexVal a2, 16 * hexVal r1 + hexVal r2, 16 * hexVal g1 + hexVal g2, 16 * hexVal b1 + hexVal b2, .ARGB⟩ := by
  have hb : ∀ x y : Char, isHexChar x = true → isHexChar y = true →
      byte (16 * hexVal x + hexVal y) = 16 * hexVal x + hexVal y := by
    intro x y hx hy
    have := (hexDigit_hexVal hx).2; have := (hexDigit_hexVal hy).2
    exact byte_id (by omega) (by omega)
  simp only [List.all_cons, List.all_nil, Bool.and_true, Bool.and_eq_true] at h
  obtain ⟨h1, h2, h3, h4, h5, h6, h7, h8⟩ := h
  unfold parse
  rw [if_neg (by simp), if_neg (by simp), if_neg (by simp [*])]
  simp [getInt, setAlpha, setRed, setGreen, setBlue, setColorType, hb, *]

/-- The accepted strings. -/
def Accepted (s : Str) : Prop :=
  (∃ r1 r2 g1 g2 b1 b2, s = ['#', r1, r2, g1, g2, b1, b2] ∧ [r1, r2, g1, g2, b1, b2].all isHexChar = true) ∨
  (∃ a1 a2 r1 r2 g1 g2 b1 b2, s = ['#', a1, a2, r1, r2, g1, g2, b1, b2] ∧ [a1, a2, r1, r2, g1, g2, b1, b2].all isHexChar = true)

theorem parse_not_accepted {c : Color} {s : Str} (h : ¬ Accepted s) : c.parse s = c := by
  unfold parse
  split
  · rfl
  · rename_i hl
    split
    · rfl
    · rename_i hh
      split
      · rfl
      · rename_i ha
        exfalso; apply h
        simp only [Decidable.not_not] at ha hh
        by_cases h7 : s.length = 7
        · match s, h7 with
          | [x0, x1, x2, x3, x4, x5, x6], _ =>
            simp at hh; subst hh
            exact .inl ⟨x1, x2, x3, x4, x5, x6, rfl, by simpa using ha⟩
        · have h9 : s.length = 9 := by omega
          match s, h9 with
          | [x0, x1, x2, x3, x4, x5, x6, x7, x8], _ =>
            simp at hh; subst hh
            exact .inr ⟨x1, x2, x3, x4, x5, x6, x7, x8, rfl, by simpa using ha⟩

theorem parse_toStr {c old : Color} (h : Inv c) : old.parse c.toStr = c := by
  obtain ⟨a, r, g, b, t⟩ := h
  have hd : ∀ v : Int, 0 ≤ v ∧ v ≤ 255 → isHexChar (hexDigit (v.toNat / 16)) = true ∧ isHexChar (hexDigit (v.toNat % 16)) = true :=
    fun v hv => ⟨isHex_hexDigit (by omega), isHex_hexDigit (by omega)⟩
  obtain ⟨ca, cr, cg, cb, ct⟩ := c
  cases ct
  · simp only at t; have ha := t trivial; subst ha
    show old.parse ['#', _, _, _, _, _, _] = _
    rw [parse_rgb (by simp [hd _ r, hd _ g, hd _ b])]
    simp only [hex2_value r.1 r.2, hex2_value g.1 g.2, hex2_value b.1 b.2]
  · show old.parse ['#', _, _, _, _, _, _, _, _] = _
    rw [parse_argb (by simp [hd _ a, hd _ r, hd _ g, hd _ b])]
    simp only [hex2_value a.1 a.2, hex2_value r.1 r.2, hex2_value g.1 g.2, hex2_value b.1 b.2]

theorem hex2_isHexByte {v : Int} (h0 : 0 ≤ v) (h1 : v ≤ 255) : HexByte (hex2 v) v.toNat :=
  ⟨v.toNat / 16, v.toNat % 16, by rw [hexDigits_get (by omega), hexDigits_get (by omega)]; rfl, by omega, by omega, by omega⟩

theorem hexByte_chars {s : Str} {v : Nat} (h : HexByte s v) :
    ∃ x y, s = [x, y] ∧ isHexChar x = true ∧ isHexChar y = true ∧ v = 16 * hexVal x + hexVal y := by
  obtain ⟨a, b, rfl, ha, hb, rfl⟩ := h
  rw [hexDigits_get ha, hexDigits_get hb]
  exact ⟨_, _, rfl, isHex_hexDigit ha, isHex_hexDigit hb, by rw [hexVal_hexDigit ha, hexVal_hexDigit hb]⟩

theorem hexByte_of_chars {x y : Char} (hx : isHexChar x = true) (hy : isHexChar y = true) :
    HexByte [x, y] (16 * hexVal x + hexVal y) := by
  have h1 := hexDigit_hexVal hx
  have h2 := hexDigit_hexVal hy
  exact ⟨hexVal x, hexVal y, by rw [hexDigits_get h1.2, hexDigits_get h2.2, h1.1, h2.1], h1.2, h2.2, rfl⟩

end Mx.Color
