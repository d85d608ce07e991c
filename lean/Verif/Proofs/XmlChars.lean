import Verif.Spec.XmlFile

/-
Characters, references and values of attributes and texts for the parser.
-/
open Spec
namespace Mx.Pugi

theorem char_table {P : Char → Prop} (h1 : ∀ n : Fin 128, P (Char.ofNat n)) (h2 : ∀ c : Char, 128 ≤ c.toNat → P c) (c : Char) : P c := by
  rcases Nat.lt_or_ge c.toNat 128 with h | h
  · have := h1 ⟨c.toNat, h⟩
    simpa using this
  · exact h2 c h

theorem charType_high {c : Char} (h : 128 ≤ c.toNat) (b : Nat) : charType b c = (192).testBit b := by
  rw [charType, List.getElem?_eq_none (by simpa [charTable] using h)]
  rfl

theorem char_ne_of_high {c d : Char} (h : 128 ≤ c.toNat) (hd : d.toNat < 128) : c ≠ d := by
  rintro rfl; omega

theorem isSpace_iff (c : Char) : isSpace c = true ↔ XmlSpace c := by
  revert c
  apply char_table
  · decide +kernel
  · intro c h
    rw [isSpace, charType_high h]
    have h1 := char_ne_of_high h (d := ' ') (by decide)
    have h2 := char_ne_of_high h (d := '\t') (by decide)
    have h3 := char_ne_of_high h (d := '\n') (by decide)
    have h4 := char_ne_of_high h (d := '\r') (by decide)
    exact ⟨fun h => absurd h (by decide), fun h => by
      rcases h with h | h | h | h
      · exact absurd h h1
      · exact absurd h h2
      · exact absurd h h3
      · exact absurd h h4⟩

theorem isStart_iff (c : Char) : isStart c = true ↔ XmlNameStart c := by
  revert c
  apply char_table
  · decide +kernel
  · intro c h
    rw [isStart, charType_high h]
    exact ⟨fun _ => .inr (.inr (.inr (.inr h))), fun _ => by decide⟩

theorem isSymbol_iff (c : Char) : isSymbol c = true ↔ XmlNameChar c := by
  revert c
  apply char_table
  · decide +kernel
  · intro c h
    rw [isSymbol, charType_high h]
    exact ⟨fun _ => .inl (.inr (.inr (.inr (.inr h)))), fun _ => by decide⟩

theorem start_symbol {c : Char} (h : isStart c = true) : isSymbol c = true := (isSymbol_iff c).mpr (.inl ((isStart_iff c).mp h))

theorem space_not_symbol {c : Char} (h : isSpace c = true) : isSymbol c = false := by
  rcases (isSpace_iff c).mp h with rfl | rfl | rfl | rfl <;> decide

theorem space_not_start {c : Char} (h : isSpace c = true) : isStart c = false := by
  rcases (isSpace_iff c).mp h with rfl | rfl | rfl | rfl <;> decide

/-! ### Names and white space -/

theorem skipWs_append {w : Str} (h : ∀ c ∈ w, XmlSpace c) (s : Str) : skipWs (w ++ s) = skipWs s := by
  rw [skipWs, List.dropWhile_append_of_pos (fun c hc => (isSpace_iff c).mpr (h c hc))]
  rfl

theorem skipWs_cons {c : Char} (h : isSpace c = false) (s : Str) : skipWs (c :: s) = c :: s := by
  simp [skipWs, List.dropWhile_cons, h]

theorem skipWs_space {c : Char} (h : isSpace c = true) (s : Str) : skipWs (c :: s) = skipWs s := by
  simp [skipWs, List.dropWhile_cons, h]

/-- The text does not go on with a character of a name. -/
def Ends (s : Str) : Prop := ∀ c r, s = c :: r → isSymbol c = false

theorem name_take {n : Str} (h : XmlName n) {s : Str} (hs : Ends s) : (n ++ s).takeWhile isSymbol = n ∧ (n ++ s).dropWhile isSymbol = s := by
  have hn : ∀ c ∈ n, isSymbol c = true := fun c hc => (isSymbol_iff c).mpr (h.2 c hc)
  have hs1 : s.takeWhile isSymbol = [] ∧ s.dropWhile isSymbol = s := by
    cases s with
    | nil => exact ⟨rfl, rfl⟩
    | cons c r =>
      have := hs c r rfl
      simp [List.takeWhile_cons, List.dropWhile_cons, this]
  rw [List.takeWhile_append_of_pos hn, List.dropWhile_append_of_pos hn, hs1.1, hs1.2]
  exact ⟨List.append_nil n, rfl⟩

theorem name_starts {n : Str} (h : XmlName n) (s : Str) : startsName (n ++ s) = true := by
  obtain ⟨⟨c, r, rfl, hc⟩, -⟩ := h
  simpa [startsName] using (isStart_iff c).mpr hc

theorem ends_space {w : Str} (h : ∀ c ∈ w, XmlSpace c) {s : Str} (hs : Ends s) : Ends (w ++ s) := by
  cases w with
  | nil => exact hs
  | cons c w =>
    intro c' r hcr
    have : c = c' := by simp at hcr; exact hcr.1
    subst this
    exact space_not_symbol ((isSpace_iff c).mpr (h c List.mem_cons_self))

theorem ends_cons {c : Char} (h : isSymbol c = false) (s : Str) : Ends (c :: s) := by
  intro c' r hcr
  cases hcr
  exact h

/-! ### References -/

theorem code_bytes {n : Nat} (h : n < 0x110000) : utf8Bytes n = utf8 n := by
  have or_add : ∀ (a b k : Nat), b < 2 ^ k → (a * 2 ^ k) ||| b = a * 2 ^ k + b := by
    intro a b k hb
    have := Nat.two_pow_add_eq_or_of_lt hb a
    rw [Nat.mul_comm a (2 ^ k)]
    exact this.symm
  have m64 : ∀ x : Nat, x &&& 0x3F = x % 64 := fun x => Nat.and_two_pow_sub_one_eq_mod x 6
  have o80 : ∀ x : Nat, 0x80 ||| (x % 64) = 128 + x % 64 := fun x => or_add 2 (x % 64) 6 (Nat.mod_lt _ (by decide))
  have sh : ∀ x k : Nat, x >>> k = x / 2 ^ k := fun x k => Nat.shiftRight_eq_div_pow x k
  rw [utf8Bytes, utf8]
  simp only [m64, o80, sh]
  by_cases h1 : n < 128
  · rw [if_pos (by omega), if_pos (by omega), if_pos h1]
  by_cases h2 : n < 2048
  · rw [if_pos (by omega), if_neg (by omega), if_pos (by omega), if_neg h1, if_pos h2, or_add 6 (n / 2 ^ 6) 5 (by omega)]
  by_cases h3 : n < 65536
  · rw [if_pos (by omega), if_neg (by omega), if_neg (by omega), if_neg h1, if_neg h2, if_pos h3, or_add 14 (n / 2 ^ 12) 4 (by omega)]
  · rw [if_neg (by omega), if_neg h1, if_neg h2, if_neg h3, or_add 30 (n / 2 ^ 18) 3 (by omega)]
    have : (30 * 2 ^ 3 + n / 2 ^ 18) % 256 = 240 + n / 262144 := by omega
    rw [this]

theorem digits_spec (base : Nat) (hb : 2 ≤ base) (digit : Char → Option Nat) (hsemi : digit ';' = none) (cs : Str) (ds : List Nat)
    (hd : cs.map digit = ds.map some) (acc : Nat) (r : Str) (hlt : ds.foldl (fun acc d => base * acc + d) acc < 2 ^ 32) :
    digits base digit acc (cs ++ ';' :: r) = some (ds.foldl (fun acc d => base * acc + d) acc, r) := by
  induction cs generalizing ds acc with
  | nil =>
    cases ds with
    | nil => simp [digits, hsemi]
    | cons d ds => simp at hd
  | cons c cs ih =>
    cases ds with
    | nil => simp at hd
    | cons d ds =>
      simp only [List.map_cons, List.cons.injEq] at hd
      have grow : ∀ (l : List Nat) (a : Nat), a ≤ l.foldl (fun acc d => base * acc + d) a := by
        intro l
        induction l with
        | nil => intro a; exact Nat.le_refl a
        | cons x l ih =>
          intro a
          refine Nat.le_trans ?_ (ih (base * a + x))
          have : 1 * a ≤ base * a := Nat.mul_le_mul_right a (by omega)
          omega
      have hm : (base * acc + d) % 2 ^ 32 = base * acc + d :=
        Nat.mod_eq_of_lt (Nat.lt_of_le_of_lt (grow ds _) hlt)
      rw [List.cons_append, digits, hd.1]
      show digits base digit ((base * acc + d) % 2 ^ 32) _ = _
      rw [hm]
      exact ih ds hd.2 (base * acc + d) hlt

theorem dec_digit {d : Nat} (h : d < 10) : decDigit (decimalDigit d) = some d := by
  have : ∀ d : Fin 10, decDigit (decimalDigit d) = some d.val := by decide
  exact this ⟨d, h⟩

theorem hex_digit (u : Bool) {d : Nat} (h : d < 16) : hexDigit (hexadecimalDigit u d) = some d := by
  have : ∀ (u : Bool) (d : Fin 16), hexDigit (hexadecimalDigit u d) = some d.val := by decide
  exact this u ⟨d, h⟩

/-- A reference is recognised. -/
theorem entity_reference {e : Str} {n : Nat} (h : Reference e n) (r : Str) : entity (e ++ r) = some (utf8 n, r) := by
  cases h with
  | @decimal ds hne hds h0 hlt =>
    have h1 : ∀ r', code 10 decDigit (ds.map decimalDigit ++ ';' :: r') = some (utf8 (numberOf 10 ds), r') := by
      intro r'
      have hh : (ds.map decimalDigit ++ ';' :: r').head? ≠ some ';' := by
        cases ds with
        | nil => exact absurd rfl hne
        | cons d ds =>
          have hd := dec_digit (hds d List.mem_cons_self)
          intro hx
          simp at hx
          rw [hx, show decDigit ';' = none from by decide] at hd
          exact absurd hd (by simp)
      rw [code, if_neg hh, digits_spec 10 (by decide) decDigit (by decide) _ ds]
      · show some (utf8Bytes (numberOf 10 ds), r') = _
        rw [code_bytes hlt]
      · rw [List.map_map]
        exact List.map_congr_left fun d hd => dec_digit (hds d hd)
      · exact Nat.lt_trans (m := 0x110000) hlt (by decide)
    have hx : ∀ q, ds.map decimalDigit ++ [';'] ++ r ≠ 'x' :: q := by
      intro q hq
      cases ds with
      | nil => exact absurd rfl hne
      | cons d ds =>
        simp at hq
        have hd := dec_digit (hds d List.mem_cons_self)
        rw [hq.1, show decDigit 'x' = none from by decide] at hd
        exact absurd hd (by simp)
    rw [List.cons_append, entity]
    · have := h1 r
      simpa using this
    · intro q hq
      exact hx q hq
  | @hexadecimal ds hne hds h0 hlt =>
    have hh : ((ds.map (fun d => hexadecimalDigit d.1 d.2)) ++ ';' :: r).head? ≠ some ';' := by
      cases ds with
      | nil => exact absurd rfl hne
      | cons d ds =>
        have hd := hex_digit d.1 (hds d List.mem_cons_self)
        intro hx
        simp at hx
        rw [hx, show hexDigit ';' = none from by decide] at hd
        exact absurd hd (by simp)
    show entity ('#' :: 'x' :: (ds.map (fun d => hexadecimalDigit d.1 d.2) ++ [';'] ++ r)) = _
    rw [List.append_assoc, List.singleton_append, entity, code, if_neg hh, digits_spec 16 (by decide) hexDigit (by decide) _ (ds.map (·.2))]
    · show some (utf8Bytes (numberOf 16 (ds.map (·.2))), r) = _
      rw [code_bytes hlt]
    · rw [List.map_map, List.map_map]
      exact List.map_congr_left fun d hd => hex_digit d.1 (hds d hd)
    · exact Nat.lt_trans (m := 0x110000) hlt (by decide)

theorem entity_named {e : Str} {c : Char} (h : (e, c) ∈ entities) (r : Str) : entity (e ++ r) = some ([c], r) := by
  simp only [entities, List.mem_cons, Prod.mk.injEq, List.not_mem_nil, or_false] at h
  rcases h with ⟨rfl, rfl⟩ | ⟨rfl, rfl⟩ | ⟨rfl, rfl⟩ | ⟨rfl, rfl⟩ | ⟨rfl, rfl⟩ <;> rfl

/-! ### Texts and values -/

theorem spelt_text {e v : Str} (h : TextSpells e v) : ∀ (n : Nat) (r : Str), e.length < n → pcdata n (e ++ '<' :: r) = (v, '<' :: r) := by
  induction h with
  | nil =>
    intro n r hn
    obtain ⟨n, rfl⟩ : ∃ m, n = m + 1 := ⟨n - 1, by omega⟩
    simp [pcdata]
  | @char c e v h1 h2 h3 h4 _ ih =>
    intro n r hn
    obtain ⟨n, rfl⟩ : ∃ m, n = m + 1 := ⟨n - 1, by omega⟩
    have := ih n r (by simp at hn; omega)
    simp [pcdata, h1, h2, h3, this]
  | @entity x c e v hx _ ih =>
    intro n r hn
    obtain ⟨n, rfl⟩ : ∃ m, n = m + 1 := ⟨n - 1, by omega⟩
    have := ih n r (by simp at hn; omega)
    have he := entity_named hx (e ++ '<' :: r)
    simp [pcdata, he, this]
  | @reference x k e v hx _ ih =>
    intro n r hn
    obtain ⟨n, rfl⟩ : ∃ m, n = m + 1 := ⟨n - 1, by omega⟩
    have := ih n r (by simp at hn; omega)
    have he := entity_reference hx (e ++ '<' :: r)
    simp [pcdata, he, this]
  | @crlf e v _ ih =>
    intro n r hn
    obtain ⟨n, rfl⟩ : ∃ m, n = m + 1 := ⟨n - 1, by omega⟩
    have := ih n r (by simp at hn; omega)
    simp [pcdata, this]
  | @cr e v hh _ ih =>
    intro n r hn
    obtain ⟨n, rfl⟩ : ∃ m, n = m + 1 := ⟨n - 1, by omega⟩
    have := ih n r (by simp at hn; omega)
    have hh' : (e ++ '<' :: r).head? ≠ some '\n' := by
      cases e with
      | nil => simp
      | cons a e => simpa using hh
    rw [List.cons_append, pcdata, if_neg (by decide), if_pos rfl, if_neg hh', this]

theorem spelt_value {q : Char} (hq : q = '"' ∨ q = '\'') {e v : Str} (h : ValueSpells q e v) : ∀ (n : Nat) (r : Str), e.length < n → attrValue q n (e ++ q :: r) = some (v, r) := by
  have hq1 : q ≠ '&' := by rcases hq with rfl | rfl <;> decide
  have hq2 : isSpace q = false := by rcases hq with rfl | rfl <;> decide
  have hq3 : q ≠ '\n' := by rcases hq with rfl | rfl <;> decide
  have hamp : isSpace '&' = false := by decide
  induction h with
  | nil =>
    intro n r hn
    obtain ⟨n, rfl⟩ : ∃ m, n = m + 1 := ⟨n - 1, by omega⟩
    simp [attrValue]
  | @char c e v h1 h2 h3 h4 _ ih =>
    intro n r hn
    obtain ⟨n, rfl⟩ : ∃ m, n = m + 1 := ⟨n - 1, by omega⟩
    have := ih n r (by simp at hn; omega)
    have hs : isSpace c = false := by
      cases hc : isSpace c with
      | false => rfl
      | true => exact absurd ((isSpace_iff c).mp hc) h3
    simp [attrValue, h1, h2, hs, this]
  | @entity x c e v hx _ ih =>
    intro n r hn
    obtain ⟨n, rfl⟩ : ∃ m, n = m + 1 := ⟨n - 1, by omega⟩
    have := ih n r (by simp at hn; omega)
    have he := entity_named hx (e ++ q :: r)
    simp [attrValue, he, this, hamp, Ne.symm hq1]
  | @reference x k e v hx _ ih =>
    intro n r hn
    obtain ⟨n, rfl⟩ : ∃ m, n = m + 1 := ⟨n - 1, by omega⟩
    have := ih n r (by simp at hn; omega)
    have he := entity_reference hx (e ++ q :: r)
    simp [attrValue, he, this, hamp, Ne.symm hq1]
  | @crlf e v _ ih =>
    intro n r hn
    obtain ⟨n, rfl⟩ : ∃ m, n = m + 1 := ⟨n - 1, by omega⟩
    have := ih n r (by simp at hn; omega)
    have hr : '\r' ≠ q := by rcases hq with rfl | rfl <;> decide
    have hs : isSpace '\r' = true := by decide
    simp [attrValue, this, hr, hs]
  | @space c e v h1 h2 _ ih =>
    intro n r hn
    obtain ⟨n, rfl⟩ : ∃ m, n = m + 1 := ⟨n - 1, by omega⟩
    have := ih n r (by simp at hn; omega)
    have hs : isSpace c = true := (isSpace_iff c).mpr h1
    have hc : c ≠ q := by rintro rfl; rw [hs] at hq2; exact absurd hq2 (by decide)
    have hh : ¬ (c = '\r' ∧ (e ++ q :: r).head? = some '\n') := by
      rintro ⟨rfl, hx⟩
      cases e with
      | nil => simp at hx; exact hq3 hx
      | cons a e => exact h2 rfl (by simpa using hx)
    rw [List.cons_append, attrValue, if_neg hc, if_pos hs, if_neg hh, this]
    rfl

theorem utf8_no_zero {n : Nat} (h0 : 0 < n) (h : n < 0x110000) : '\x00' ∉ utf8 n := by
  have key : ∀ k, 0 < k → k < 256 → Char.ofNat k ≠ '\x00' := by
    intro k hk hk'
    have : ∀ k : Fin 256, 0 < k.val → Char.ofNat k ≠ '\x00' := by decide +kernel
    exact this ⟨k, hk'⟩ hk
  rw [utf8]
  repeat' split
  all_goals simp only [List.mem_cons, List.not_mem_nil, or_false, not_or]
  · exact Ne.symm (key n h0 (by omega))
  · exact ⟨Ne.symm (key _ (by omega) (by omega)), Ne.symm (key _ (by omega) (by omega))⟩
  · exact ⟨Ne.symm (key _ (by omega) (by omega)), Ne.symm (key _ (by omega) (by omega)), Ne.symm (key _ (by omega) (by omega))⟩
  · exact ⟨Ne.symm (key _ (by omega) (by omega)), Ne.symm (key _ (by omega) (by omega)), Ne.symm (key _ (by omega) (by omega)), Ne.symm (key _ (by omega) (by omega))⟩

theorem reference_no_zero {e : Str} {n : Nat} (h : Reference e n) : '\x00' ∉ utf8 n := by
  cases h with
  | decimal _ _ h0 hlt => exact utf8_no_zero h0 hlt
  | hexadecimal _ _ h0 hlt => exact utf8_no_zero h0 hlt

theorem entity_no_zero {e : Str} {c : Char} (h : (e, c) ∈ entities) : c ≠ '\x00' := by
  simp only [entities, List.mem_cons, Prod.mk.injEq, List.not_mem_nil, or_false] at h
  rcases h with ⟨rfl, rfl⟩ | ⟨rfl, rfl⟩ | ⟨rfl, rfl⟩ | ⟨rfl, rfl⟩ | ⟨rfl, rfl⟩ <;> decide

theorem cString_self {s : Str} (h : '\x00' ∉ s) : cString s = s := by
  rw [cString]
  have := List.takeWhile_append_of_pos (p := fun c => decide (c ≠ '\x00')) (l₁ := s) (l₂ := []) (fun c hc => by
    simpa using fun e : c = '\x00' => h (e ▸ hc))
  simpa using this

theorem spelt_text_zero {e v : Str} (h : TextSpells e v) : '\x00' ∉ v := by
  induction h with
  | nil => simp
  | char _ _ _ h4 _ ih => simpa [ih] using Ne.symm h4
  | entity hx _ ih => simpa [ih] using Ne.symm (entity_no_zero hx)
  | reference hx _ ih => simpa [ih] using reference_no_zero hx
  | crlf _ ih => simpa using ih
  | cr _ _ ih => simpa using ih

theorem spelt_value_zero {q : Char} {e v : Str} (h : ValueSpells q e v) : '\x00' ∉ v := by
  induction h with
  | nil => simp
  | char _ _ _ h4 _ ih => simpa [ih] using Ne.symm h4
  | entity hx _ ih => simpa [ih] using Ne.symm (entity_no_zero hx)
  | reference hx _ ih => simpa [ih] using reference_no_zero hx
  | crlf _ ih => simpa using ih
  | space _ _ _ ih => simpa using ih

end Mx.Pugi
