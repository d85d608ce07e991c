import Verif.Proofs.Color

/-!
# Property C15: colours
Specification of the notation: `Spec.HexByte` in `Verif/Spec/Text.lean`.
-/
namespace Mx.Props
open Spec Mx

/-- A colour a user can observe: built by any constructor, then changed by any history. -/
def ColorReachable (c : Color) : Prop :=
  ∃ (k : Color.Ctor) (ops : List Color.Op), c = ops.foldl Color.step (Color.construct k)

theorem colorReachable_inv {c : Color} (h : ColorReachable c) : c.Inv := by
  obtain ⟨k, ops, rfl⟩ := h
  have : ∀ (ops : List Color.Op) (x : Color), x.Inv → (ops.foldl Color.step x).Inv := by
    intro ops
    induction ops with
    | nil => intro x h; exact h
    | cons o os ih => intro x h; exact ih _ (Color.inv_step h o)
  exact this ops _ (Color.inv_construct k)

/-- **C15** All channels of every reachable colour are bytes; an RGB colour has alpha 255. -/
theorem C15_color_channels (c : Color) (h : ColorReachable c) :
    (0 ≤ c.alpha ∧ c.alpha ≤ 255) ∧ (0 ≤ c.red ∧ c.red ≤ 255) ∧ (0 ≤ c.green ∧ c.green ≤ 255) ∧
    (0 ≤ c.blue ∧ c.blue ≤ 255) ∧ (c.type = .RGB → c.alpha = 255) :=
  colorReachable_inv h

/-- **C15** Parsing the text of a reachable colour restores it completely, whatever colour was held before. -/
theorem C15_color_round_trip (c old : Color) (h : ColorReachable c) : old.parse c.toStr = c :=
  Color.parse_toStr (colorReachable_inv h)

example : ColorReachable ⟨255, 16, 0, 171, .ARGB⟩ ∧ (⟨255, 16, 0, 171, .ARGB⟩ : Color).toStr = "#FF1000AB".toList :=
  ⟨⟨.rgb 16 (-3) 171, [.setAlpha 300], by decide⟩, by decide⟩

/-- **C15** The text is `#` followed by the two digit upper case hexadecimal numerals of the channels,
alpha first and only for ARGB colours. -/
theorem C15_color_text (c : Color) (h : ColorReachable c) :
    ∃ A R G B : Str, c.toStr = ['#'] ++ (if c.type = .ARGB then A else []) ++ R ++ G ++ B ∧
      HexByte A c.alpha.toNat ∧ HexByte R c.red.toNat ∧ HexByte G c.green.toNat ∧ HexByte B c.blue.toNat := by
  obtain ⟨a, r, g, b, t⟩ := colorReachable_inv h
  exact ⟨_, _, _, _, rfl, Color.hex2_isHexByte a.1 a.2, Color.hex2_isHexByte r.1 r.2, Color.hex2_isHexByte g.1 g.2,
    Color.hex2_isHexByte b.1 b.2⟩

/-- **C15** Parsing accepts exactly `#RRGGBB` and `#AARRGGBB`; everything else leaves the colour unchanged. -/
theorem C15_color_parse (old : Color) (s : Str) :
    (∀ R G B (r g b : Nat), HexByte R r → HexByte G g → HexByte B b → s = ['#'] ++ R ++ G ++ B →
      old.parse s = ⟨255, r, g, b, .RGB⟩) ∧
    (∀ A R G B (a r g b : Nat), HexByte A a → HexByte R r → HexByte G g → HexByte B b → s = ['#'] ++ A ++ R ++ G ++ B →
      old.parse s = ⟨a, r, g, b, .ARGB⟩) ∧
    ((¬ ∃ R G B r g b, HexByte R r ∧ HexByte G g ∧ HexByte B b ∧ s = ['#'] ++ R ++ G ++ B) →
     (¬ ∃ A R G B a r g b, HexByte A a ∧ HexByte R r ∧ HexByte G g ∧ HexByte B b ∧ s = ['#'] ++ A ++ R ++ G ++ B) →
      old.parse s = old) := by
  refine ⟨?_, ?_, ?_⟩
  · intro R G B r g b hR hG hB hs
    obtain ⟨r1, r2, rfl, r3, r4, rfl⟩ := Color.hexByte_chars hR
    obtain ⟨g1, g2, rfl, g3, g4, rfl⟩ := Color.hexByte_chars hG
    obtain ⟨b1, b2, rfl, b3, b4, rfl⟩ := Color.hexByte_chars hB
    subst hs
    show old.parse ['#', _, _, _, _, _, _] = _
    rw [Color.parse_rgb (by simp [*])]; simp
  · intro A R G B a r g b hA hR hG hB hs
    obtain ⟨a1, a2, rfl, a3, a4, rfl⟩ := Color.hexByte_chars hA
    obtain ⟨r1, r2, rfl, r3, r4, rfl⟩ := Color.hexByte_chars hR
    obtain ⟨g1, g2, rfl, g3, g4, rfl⟩ := Color.hexByte_chars hG
    obtain ⟨b1, b2, rfl, b3, b4, rfl⟩ := Color.hexByte_chars hB
    subst hs
    show old.parse ['#', _, _, _, _, _, _, _, _] = _
    rw [Color.parse_argb (by simp [*])]; simp
  · intro h1 h2
    apply Color.parse_not_accepted
    rintro (⟨r1, r2, g1, g2, b1, b2, rfl, hall⟩ | ⟨a1, a2, r1, r2, g1, g2, b1, b2, rfl, hall⟩)
    · simp only [List.all_cons, List.all_nil, Bool.and_true, Bool.and_eq_true] at hall
      obtain ⟨x1, x2, x3, x4, x5, x6⟩ := hall
      exact h1 ⟨[r1, r2], [g1, g2], [b1, b2], _, _, _, Color.hexByte_of_chars x1 x2, Color.hexByte_of_chars x3 x4,
        Color.hexByte_of_chars x5 x6, rfl⟩
    · simp only [List.all_cons, List.all_nil, Bool.and_true, Bool.and_eq_true] at hall
      obtain ⟨x1, x2, x3, x4, x5, x6, x7, x8⟩ := hall
      exact h2 ⟨[a1, a2], [r1, r2], [g1, g2], [b1, b2], _, _, _, _, Color.hexByte_of_chars x1 x2, Color.hexByte_of_chars x3 x4,
        Color.hexByte_of_chars x5 x6, Color.hexByte_of_chars x7 x8, rfl⟩

/-- all three cases occur -/
example : HexByte "7F".toList 127 ∧ Color.default.parse "#7F00ff".toList = Color.default ∧
    Color.default.parse "#7F00FF".toList = ⟨255, 127, 0, 255, .RGB⟩ :=
  ⟨⟨7, 15, by decide, by decide, by decide, by decide⟩, by decide, by decide⟩

#print axioms C15_color_channels
#print axioms C15_color_round_trip
#print axioms C15_color_text
#print axioms C15_color_parse
end Mx.Props
