import Verif.Proofs.Strings
import Verif.Proofs.CoreEnums
import Verif.Proofs.Decimals

/-
Lemmas on comma separated lists, `atoi` and misc data.
-/
namespace Mx
open Spec

/-! ### getline -/

theorem getlinesFrom_some (x : Str) (hx : ',' ∉ x) : ∀ (p rest : Str),
    getlinesFrom (some p) (x ++ ',' :: rest) = (p ++ x) :: getlinesFrom none rest ∧ getlinesFrom (some p) x = [p ++ x] := by
  induction x with
  | nil => intro p rest; simp [getlinesFrom]
  | cons c t ih =>
    intro p rest
    have hc : c ≠ ',' := fun h => hx (by rw [h]; simp)
    have := ih (fun h => hx (List.mem_cons_of_mem _ h)) (p ++ [c]) rest
    simp only [List.cons_append, getlinesFrom, hc, if_false, Option.getD_some]
    rw [this.1, this.2]
    simp

theorem getlines_cons (x rest : Str) (hx : ',' ∉ x) : getlines (x ++ ',' :: rest) = x :: getlines rest := by
  unfold getlines
  cases x with
  | nil => simp [getlinesFrom]
  | cons c t =>
    have hc : c ≠ ',' := fun h => hx (by rw [h]; simp)
    simp only [List.cons_append, getlinesFrom, hc, if_false, Option.getD_none, List.nil_append]
    rw [(getlinesFrom_some t (fun h => hx (List.mem_cons_of_mem _ h)) [c] rest).1]; rfl

theorem getlines_single (x : Str) (hx : ',' ∉ x) : getlines x = if x = [] then [] else [x] := by
  unfold getlines
  cases x with
  | nil => simp [getlinesFrom]
  | cons c t =>
    have hc : c ≠ ',' := fun h => hx (by rw [h]; simp)
    simp only [getlinesFrom, hc, if_false, Option.getD_none, List.nil_append]
    rw [(getlinesFrom_some t (fun h => hx (List.mem_cons_of_mem _ h)) [c] []).2]; simp

theorem getlines_joined : ∀ (l : List Str), (∀ x ∈ l, ',' ∉ x) → l.getLast? ≠ some [] → getlines (joined [','] l) = l := by
  intro l
  induction l with
  | nil => intro _ _; rfl
  | cons x xs ih =>
    intro h hl
    cases xs with
    | nil =>
      have : x ≠ [] := by rintro rfl; exact hl rfl
      rw [joined, getlines_single x (h x (by simp)), if_neg this]
    | cons y ys =>
      have e : joined [','] (x :: y :: ys) = x ++ ',' :: joined [','] (y :: ys) := by simp [joined]
      rw [e, getlines_cons x _ (h x (by simp)), ih (fun z hz => h z (List.mem_cons_of_mem _ hz))]
      rwa [List.getLast?_cons_cons] at hl

theorem toStream_eq (l : CommaText) : l.toStream = escapeXml (joined [','] l) := by
  cases l with
  | nil => rfl
  | cons x xs =>
    rw [joined_cons, escapeXml_append]
    show escapeXml x ++ xs.flatMap (fun y => ',' :: escapeXml y) = _
    congr 1
    induction xs with
    | nil => rfl
    | cons y ys ih =>
      rw [List.flatMap_cons, List.flatMap_cons, escapeXml_append, ← ih]
      congr 1

/-! ### sets of positive integers -/

theorem mem_setInsert (x y : Int) (l : List Int) : y ∈ setInsert x l ↔ y = x ∨ y ∈ l := by
  induction l with
  | nil => simp [setInsert]
  | cons a l ih =>
    unfold setInsert
    split
    · simp
    · split
      · rename_i h; subst h; simp
      · simp only [List.mem_cons, ih]; tauto

theorem setInsert_sorted (x : Int) (l : List Int) (h : l.Pairwise (· < ·)) : (setInsert x l).Pairwise (· < ·) := by
  induction l with
  | nil => simp [setInsert]
  | cons a l ih =>
    unfold setInsert
    rw [List.pairwise_cons] at h
    split
    · rename_i hlt
      refine List.pairwise_cons.mpr ⟨?_, List.pairwise_cons.mpr h⟩
      intro y hy
      rcases List.mem_cons.mp hy with rfl | hy
      · exact hlt
      · have := h.1 y hy; omega
    · split
      · exact List.pairwise_cons.mpr h
      · refine List.pairwise_cons.mpr ⟨?_, ih h.2⟩
        intro y hy
        rcases (mem_setInsert x y l).mp hy with rfl | hy
        · omega
        · exact h.1 y hy

theorem foldl_setInsert_sorted (l acc : List Int) (h : acc.Pairwise (· < ·)) :
    (l.foldl (fun m v => setInsert v m) acc).Pairwise (· < ·) ∧
    ∀ y, y ∈ l.foldl (fun m v => setInsert v m) acc ↔ y ∈ l ∨ y ∈ acc := by
  induction l generalizing acc with
  | nil => exact ⟨h, by simp⟩
  | cons x l ih =>
    obtain ⟨h1, h2⟩ := ih (setInsert x acc) (setInsert_sorted x acc h)
    refine ⟨h1, ?_⟩
    intro y
    rw [List.foldl_cons, h2, mem_setInsert, List.mem_cons]
    tauto

/-- Two ascending lists with the same elements are equal. -/
theorem sorted_ext {l m : List Int} (hl : l.Pairwise (· < ·)) (hm : m.Pairwise (· < ·)) (h : ∀ y, y ∈ l ↔ y ∈ m) : l = m := by
  induction l generalizing m with
  | nil =>
    cases m with
    | nil => rfl
    | cons a m => exact absurd ((h a).mpr (by simp)) (by simp)
  | cons a l ih =>
    cases m with
    | nil => exact absurd ((h a).mp (by simp)) (by simp)
    | cons b m =>
      rw [List.pairwise_cons] at hl hm
      have hab : a = b := by
        rcases List.mem_cons.mp ((h a).mp (by simp)) with e | ha
        · exact e
        · rcases List.mem_cons.mp ((h b).mpr (by simp)) with e | hb
          · exact e.symm
          · have := hm.1 a ha; have := hl.1 b hb; omega
      subst hab
      congr 1
      apply ih hl.2 hm.2
      intro y
      constructor
      · intro hy
        rcases List.mem_cons.mp ((h y).mp (List.mem_cons_of_mem _ hy)) with e | hy'
        · subst e; exact absurd (hl.1 y hy) (by omega)
        · exact hy'
      · intro hy
        rcases List.mem_cons.mp ((h y).mpr (List.mem_cons_of_mem _ hy)) with e | hy'
        · subst e; exact absurd (hm.1 y hy) (by omega)
        · exact hy'

/-- What the class guarantees. -/
def CommaInts.Good (c : CommaInts) : Prop := c.values.Pairwise (· < ·) ∧ ∀ v ∈ c.values, 0 < v ∧ v ≤ INT_MAX

theorem readInt_le (old : Int) (s : Str) (h : old ≤ INT_MAX) : (readInt old s).value ≤ INT_MAX := by
  unfold readInt
  split
  · exact h
  · split
    have z : (0 : Int) ≤ INT_MAX := by decide
    have z' : INT_MIN ≤ INT_MAX := by decide
    rename_i neg u _
    dsimp only
    split
    · exact z
    · generalize (if neg = true then -((Nat.ofDigitChars 10 (u.takeWhile Char.isDigit) 0 : Nat) : Int) else
        ((Nat.ofDigitChars 10 (u.takeWhile Char.isDigit) 0 : Nat) : Int)) = w
      by_cases h1 : w < INT_MIN
      · rw [if_pos h1]; exact z'
      · rw [if_neg h1]
        by_cases h2 : INT_MAX < w
        · rw [if_pos h2]
        · rw [if_neg h2]; exact not_lt.mp h2

theorem addToken_good (vs : List Int) (t : Str) (h1 : vs.Pairwise (· < ·)) (h2 : ∀ v ∈ vs, 0 < v ∧ v ≤ INT_MAX) :
    (CommaInts.addToken vs t).Pairwise (· < ·) ∧ ∀ v ∈ CommaInts.addToken vs t, 0 < v ∧ v ≤ INT_MAX := by
  unfold CommaInts.addToken
  dsimp only
  split
  · split
    · rename_i hp
      refine ⟨setInsert_sorted _ _ h1, ?_⟩
      intro v hv
      rcases (mem_setInsert _ v vs).mp hv with rfl | hv
      · exact ⟨hp, readInt_le 1 t (by decide)⟩
      · exact h2 v hv
    · exact ⟨h1, h2⟩
  · exact ⟨h1, h2⟩

theorem addTokens_good (ts : List Str) (vs : List Int) (h1 : vs.Pairwise (· < ·)) (h2 : ∀ v ∈ vs, 0 < v ∧ v ≤ INT_MAX) :
    (ts.foldl CommaInts.addToken vs).Pairwise (· < ·) ∧ ∀ v ∈ ts.foldl CommaInts.addToken vs, 0 < v ∧ v ≤ INT_MAX := by
  induction ts generalizing vs with
  | nil => exact ⟨h1, h2⟩
  | cons t ts ih =>
    obtain ⟨g1, g2⟩ := addToken_good vs t h1 h2
    exact ih _ g1 g2

theorem showInt_ne_nil (v : Int) : showInt v ≠ [] := by
  unfold showInt
  split
  · simp
  · exact Nat.toDigits_ne_nil

theorem readInt_showInt_value (old v : Int) (hv : InInt v) : (readInt old (showInt v)).value = v := by
  have := readInt_showInt (old := old) (x := v) (r := []) hv (by simp)
  rw [List.append_nil] at this
  rw [this]

theorem addToken_showInt (vs : List Int) (v : Int) (hv : InInt v) :
    CommaInts.addToken vs (showInt v) = if 0 < v then setInsert v vs else vs := by
  unfold CommaInts.addToken
  rw [if_pos (List.length_pos_iff.mpr (showInt_ne_nil v)), readInt_showInt_value 1 v hv]

theorem addTokens_mem (l acc : List Int) (hl : ∀ v ∈ l, InInt v) :
    ∀ y, y ∈ (l.map showInt).foldl CommaInts.addToken acc ↔ (y ∈ l ∧ 0 < y) ∨ y ∈ acc := by
  induction l generalizing acc with
  | nil => intro y; simp
  | cons x l ih =>
    intro y
    rw [List.map_cons, List.foldl_cons, ih _ (fun v hv => hl v (List.mem_cons_of_mem _ hv)), addToken_showInt acc x (hl x (by simp))]
    split
    · rename_i h
      rw [mem_setInsert, List.mem_cons]
      constructor
      · rintro (⟨h1, h2⟩ | rfl | h1)
        · exact Or.inl ⟨Or.inr h1, h2⟩
        · exact Or.inl ⟨Or.inl rfl, h⟩
        · exact Or.inr h1
      · rintro (⟨rfl | h1, h2⟩ | h1)
        · exact Or.inr (Or.inl rfl)
        · exact Or.inl ⟨h1, h2⟩
        · exact Or.inr (Or.inr h1)
    · rename_i h
      rw [List.mem_cons]
      constructor
      · rintro (⟨h1, h2⟩ | h1)
        · exact Or.inl ⟨Or.inr h1, h2⟩
        · exact Or.inr h1
      · rintro (⟨rfl | h1, h2⟩ | h1)
        · exact absurd h2 h
        · exact Or.inl ⟨h1, h2⟩
        · exact Or.inr h1

theorem digit_keep {c : Char} (h : c.isDigit) : CommaInts.keep c = true ∧ c ≠ ',' := by
  have h' : c ∈ chars "0123456789" := by
    have := digitChar_of_isDigit h
    obtain ⟨e, hlt⟩ := this
    generalize c.toNat - 48 = n at e hlt
    subst e
    have key : ∀ n < 10, Nat.digitChar n ∈ chars "0123456789" := by decide
    exact key n hlt
  have all : ∀ c ∈ chars "0123456789", CommaInts.keep c = true ∧ c ≠ ',' := by decide
  exact all c h'

theorem showInt_keep (v : Int) : ∀ c ∈ showInt v, CommaInts.keep c = true ∧ c ≠ ',' := by
  intro c hc
  unfold showInt at hc
  split at hc
  · rcases List.mem_cons.mp hc with rfl | hc
    · decide
    · exact digit_keep (toDigits_isDigit c hc)
  · exact digit_keep (toDigits_isDigit c hc)

theorem onlyAllow_keep (allowed : Char → Bool) (fill s : Str) (h : ∀ c ∈ s, allowed c = true) : onlyAllow fill allowed s = s := by
  induction s with
  | nil => rfl
  | cons c t ih =>
    unfold onlyAllow at *
    rw [List.flatMap_cons, if_pos (h c (by simp)), ih (fun x hx => h x (List.mem_cons_of_mem _ hx))]
    rfl

theorem onlyAllow_append (allowed : Char → Bool) (fill a b : Str) :
    onlyAllow fill allowed (a ++ b) = onlyAllow fill allowed a ++ onlyAllow fill allowed b := List.flatMap_append

/-- Anything not kept between the numbers is dropped. -/
theorem clean_text (sep : Str) (hs : onlyAllow [] CommaInts.keep sep = [',']) (l : List Int) :
    onlyAllow [] CommaInts.keep (joined sep (l.map showInt)) = joined [','] (l.map showInt) := by
  cases l with
  | nil => rfl
  | cons x l =>
    rw [List.map_cons, joined_cons, joined_cons, onlyAllow_append, onlyAllow_keep _ _ _ (fun c hc => (showInt_keep x c hc).1)]
    congr 1
    induction l with
    | nil => rfl
    | cons y l ih =>
      rw [List.map_cons, List.flatMap_cons, List.flatMap_cons, onlyAllow_append, onlyAllow_append, hs,
        onlyAllow_keep _ _ _ (fun c hc => (showInt_keep y c hc).1), ih]

theorem parse_numbers (c : CommaInts) (sep : Str) (hs : onlyAllow [] CommaInts.keep sep = [',']) (l : List Int) (hl : ∀ v ∈ l, InInt v) :
    (c.parse (joined sep (l.map showInt))).values = (l.map showInt).foldl CommaInts.addToken [] := by
  unfold CommaInts.parse
  rw [clean_text sep hs, getlines_joined]
  · intro x hx hc
    obtain ⟨v, _, rfl⟩ := List.mem_map.mp hx
    exact (showInt_keep v _ hc).2 rfl
  · intro h
    have := List.mem_of_getLast? h
    obtain ⟨v, _, hv⟩ := List.mem_map.mp this
    exact showInt_ne_nil v hv

theorem CommaInts.toStr_eq (c : CommaInts) : c.toStr = joined (',' :: if c.spacing then [' '] else []) (c.values.map showInt) := by
  unfold CommaInts.toStr
  split
  · rename_i h; rw [h]; rfl
  · rename_i x xs h
    rw [h, List.map_cons, joined_cons]
    congr 1
    clear h
    induction xs with
    | nil => rfl
    | cons y ys ih => simp only [List.map_cons, List.flatMap_cons]; rw [← ih]; simp

/-! ### atoi -/

theorem atoi_showInt (v : Int) (hv : InInt v) : atoi (showInt v) = some v := by
  have hd : ∀ n, (Nat.toDigits 10 n).takeWhile Char.isDigit = Nat.toDigits 10 n := by
    intro n
    have := takeWhile_append_of_all (p := Char.isDigit) (a := Nat.toDigits 10 n) (r := []) toDigits_isDigit (by simp)
    rwa [List.append_nil] at this
  by_cases hneg : v < 0
  · have e : showInt v = '-' :: Nat.toDigits 10 v.natAbs := by unfold showInt; rw [if_pos hneg]
    have e2 : readSign (skipWs (showInt v)) = (true, Nat.toDigits 10 v.natAbs) := by rw [e, skipWs_of_head (by decide)]; rfl
    unfold atoi
    rw [e2]
    dsimp only
    rw [hd, Nat.ofDigitChars_toDigits (by decide : 1 < 10) (by decide : 10 ≤ 10), if_pos rfl]
    have : -((v.natAbs : Nat) : Int) = v := by omega
    rw [this]
    unfold chk
    rw [if_pos hv]
  · have e : showInt v = Nat.toDigits 10 v.natAbs := by unfold showInt; rw [if_neg hneg]
    obtain ⟨c, t, hc⟩ : ∃ c t, Nat.toDigits 10 v.natAbs = c :: t := List.exists_cons_of_ne_nil Nat.toDigits_ne_nil
    have hdig : c.isDigit := toDigits_isDigit (n := v.natAbs) c (by rw [hc]; simp)
    have e2 : readSign (skipWs (showInt v)) = (false, Nat.toDigits 10 v.natAbs) := by
      rw [e, hc, skipWs_of_head (isWs_of_isDigit hdig), readSign_of_ne (ne_sign_of_isDigit hdig)]
    unfold atoi
    rw [e2]
    dsimp only
    rw [hd, Nat.ofDigitChars_toDigits (by decide : 1 < 10) (by decide : 10 ≤ 10), if_neg (by decide)]
    have : ((v.natAbs : Nat) : Int) = v := by omega
    rw [this]
    unfold chk
    rw [if_pos hv]

theorem chk_inInt {w v : Int} (h : chk w = some v) : InInt v := by
  unfold chk at h
  split at h
  · rename_i hi; injection h with h; rw [h] at hi; exact hi
  · cases h

theorem atoi_inInt {s : Str} {v : Int} (h : atoi s = some v) : InInt v := chk_inInt h

/-! ### canonical numerals -/
open PreciseDecimal

theorem digitsVal_lt {ds : Str} (h : ∀ c ∈ ds, Digit c) : digitsVal ds < 10 ^ ds.length := by
  induction ds with
  | nil => simp [digitsVal]
  | cons c t ih =>
    have := ih (fun x hx => h x (List.mem_cons_of_mem _ hx))
    have hc : c.toNat - '0'.toNat ≤ 9 := by
      have := (h c (by simp)).2
      have h9 : c.toNat ≤ '9'.toNat := this
      have e0 : '0'.toNat = 48 := rfl
      have e9 : '9'.toNat = 57 := rfl
      omega
    simp only [digitsVal, List.length_cons, pow_succ]
    have := Nat.mul_le_mul_right (10 ^ t.length) hc
    omega

theorem digitsVal_inj : ∀ {a b : Str}, a.length = b.length → (∀ c ∈ a, Digit c) → (∀ c ∈ b, Digit c) → digitsVal a = digitsVal b → a = b := by
  intro a
  induction a with
  | nil => intro b h _ _ _; exact (List.length_eq_zero_iff.mp h.symm).symm
  | cons c t ih =>
    intro b h ha hb e
    cases b with
    | nil => simp at h
    | cons d u =>
      have hl : t.length = u.length := by simpa using h
      have h1 := digitsVal_lt (fun x hx => ha x (List.mem_cons_of_mem c hx))
      have h2 := digitsVal_lt (fun x hx => hb x (List.mem_cons_of_mem d hx))
      simp only [digitsVal, hl] at e
      rw [hl] at h1
      have hc := ha c (by simp)
      have hd := hb d (by simp)
      have e1 : c.toNat - '0'.toNat = d.toNat - '0'.toNat := by
        have p : 0 < 10 ^ u.length := by positivity
        have q1 := Nat.div_eq_of_lt h1
        have q2 := Nat.div_eq_of_lt h2
        have := congrArg (· / 10 ^ u.length) e
        simp only [Nat.mul_comm _ (10 ^ u.length), Nat.mul_add_div p, q1, q2] at this
        omega
      rw [e1] at e
      have e2 : c = d := by
        have g1 : '0'.toNat ≤ c.toNat := hc.1
        have g2 : '0'.toNat ≤ d.toNat := hd.1
        have : c.toNat = d.toNat := by omega
        exact Char.toNat_inj.mp this
      rw [e2, ih hl (fun x hx => ha x (List.mem_cons_of_mem c hx)) (fun x hx => hb x (List.mem_cons_of_mem d hx)) (by omega)]

theorem digitsVal_ge {c : Char} {t : Str} (h : Digit c) (h0 : c ≠ '0') : 10 ^ t.length ≤ digitsVal (c :: t) := by
  have g : 1 ≤ c.toNat - '0'.toNat := by
    have g1 : '0'.toNat ≤ c.toNat := h.1
    have : c.toNat ≠ '0'.toNat := fun e => h0 (Char.toNat_inj.mp e)
    omega
  simp only [digitsVal]
  have := Nat.mul_le_mul_right (10 ^ t.length) g
  omega

/-- Digits without needless leading zeros are determined by their value. -/
theorem numeral_unique {a b : Str} (ha : a ≠ []) (hb : b ≠ []) (da : ∀ c ∈ a, Digit c) (db : ∀ c ∈ b, Digit c)
    (za : a.head? = some '0' → a = ['0']) (zb : b.head? = some '0' → b = ['0']) (e : digitsVal a = digitsVal b) : a = b := by
  have z : digitsVal ['0'] = 0 := by decide
  obtain ⟨c, t, rfl⟩ := List.exists_cons_of_ne_nil ha
  obtain ⟨d, u, rfl⟩ := List.exists_cons_of_ne_nil hb
  have pos : ∀ (x : Char) (w : Str), Digit x → x ≠ '0' → 0 < digitsVal (x :: w) := fun x w h h0 =>
    lt_of_lt_of_le (by positivity) (digitsVal_ge h h0)
  by_cases hc : c = '0'
  · have ea := za (by rw [hc]; rfl)
    rw [ea, z] at e
    by_cases hd : d = '0'
    · rw [ea, zb (by rw [hd]; rfl)]
    · have := pos d u (db d (by simp)) hd; omega
  · by_cases hd : d = '0'
    · have eb := zb (by rw [hd]; rfl)
      rw [eb, z] at e
      have := pos c t (da c (by simp)) hc; omega
    · have g1 := digitsVal_ge (t := t) (da c (by simp)) hc
      have g2 := digitsVal_ge (t := u) (db d (by simp)) hd
      have l1 := digitsVal_lt da
      have l2 := digitsVal_lt db
      have hlen : t.length = u.length := by
        rw [List.length_cons] at l1 l2
        have k1 : t.length < u.length + 1 := (Nat.pow_lt_pow_iff_right (by norm_num : 1 < 10)).mp (lt_of_le_of_lt g1 (e ▸ l2))
        have k2 : u.length < t.length + 1 := (Nat.pow_lt_pow_iff_right (by norm_num : 1 < 10)).mp (lt_of_le_of_lt g2 (e ▸ l1))
        omega
      exact digitsVal_inj (by simp [hlen]) da db e

theorem toDigits_canonical (n : Nat) : Nat.toDigits 10 n ≠ [] ∧ (∀ c ∈ Nat.toDigits 10 n, Digit c) ∧
    ((Nat.toDigits 10 n).head? = some '0' → Nat.toDigits 10 n = ['0']) := by
  refine ⟨Nat.toDigits_ne_nil, fun c hc => isDigit_iff.mp (toDigits_isDigit c hc), ?_⟩
  intro h
  rw [toDigits_head h]; rfl

theorem canonical_iff (s : Str) (v : Int) : CanonicalInteger s v ↔ s = showInt v := by
  have hc := toDigits_canonical v.natAbs
  constructor
  · rintro ⟨ds, h1, h2, h3, h⟩
    have key : digitsVal ds = v.natAbs → ds = Nat.toDigits 10 v.natAbs := fun e =>
      numeral_unique h1 hc.1 h2 hc.2.1 h3 hc.2.2 (by rw [digitsVal_toDigits, e])
    unfold showInt
    rcases h with ⟨hv, rfl, e⟩ | ⟨hv, rfl, e⟩
    · rw [if_neg (by omega)]; exact key (by omega)
    · rw [if_pos hv, key (by omega)]
  · rintro rfl
    refine ⟨Nat.toDigits 10 v.natAbs, hc.1, hc.2.1, hc.2.2, ?_⟩
    unfold showInt
    rw [digitsVal_toDigits]
    by_cases h : v < 0
    · right; exact ⟨h, if_pos h, by omega⟩
    · left; exact ⟨by omega, if_neg h, by omega⟩

/-! ### what can be read in content and attributes -/

theorem content_chars {t v : Str} (h : ContentReads t v) : ∀ c ∈ v, XmlChar c ∧ c ≠ '\r' := by
  induction h with
  | nil => simp
  | char h0 _ _ h3 _ ih =>
    intro x hx
    rcases List.mem_cons.mp hx with rfl | hx
    · exact ⟨h0, h3⟩
    · exact ih x hx
  | entity he _ ih =>
    intro x hx
    rcases List.mem_cons.mp hx with rfl | hx
    · simp only [entities, List.mem_cons, List.not_mem_nil, or_false, Prod.mk.injEq] at he
      rcases he with ⟨_, rfl⟩ | ⟨_, rfl⟩ | ⟨_, rfl⟩ | ⟨_, rfl⟩ | ⟨_, rfl⟩ <;> exact ⟨by decide, by decide⟩
    · exact ih x hx
  | crlf _ ih =>
    intro x hx
    rcases List.mem_cons.mp hx with rfl | hx
    · exact ⟨by decide, by decide⟩
    · exact ih x hx
  | cr _ _ ih =>
    intro x hx
    rcases List.mem_cons.mp hx with rfl | hx
    · exact ⟨by decide, by decide⟩
    · exact ih x hx

theorem attribute_chars {t v : Str} (h : AttributeReads t v) : (∀ c ∈ v, ' ' ≤ c) ∧ '"' ∉ t := by
  have z : ∀ (c : Char) (v : Str), ' ' ≤ c → (∀ x ∈ v, ' ' ≤ x) → ∀ x ∈ c :: v, ' ' ≤ x := by
    intro c v h1 h2 x hx
    rcases List.mem_cons.mp hx with rfl | hx
    · exact h1
    · exact h2 x hx
  have q : ∀ (c : Char) (t : Str), c ≠ '"' → '"' ∉ t → '"' ∉ c :: t := by
    intro c t h1 h2 hx
    rcases List.mem_cons.mp hx with e | hx
    · exact h1 e.symm
    · exact h2 hx
  induction h with
  | nil => simp
  | char h0 _ _ h3 _ ih => exact ⟨z _ _ h0 ih.1, q _ _ h3 ih.2⟩
  | entity he _ ih =>
    simp only [entities, List.mem_cons, List.not_mem_nil, or_false, Prod.mk.injEq] at he
    rcases he with ⟨rfl, rfl⟩ | ⟨rfl, rfl⟩ | ⟨rfl, rfl⟩ | ⟨rfl, rfl⟩ | ⟨rfl, rfl⟩ <;>
      exact ⟨z _ _ (by decide) ih.1, q _ _ (by decide) (by intro hx; rcases List.mem_append.mp hx with hx | hx; revert hx; decide; exact ih.2 hx)⟩
  | tab _ ih => exact ⟨z _ _ (by decide) ih.1, q _ _ (by decide) ih.2⟩
  | newline _ ih => exact ⟨z _ _ (by decide) ih.1, q _ _ (by decide) ih.2⟩
  | crlf _ ih => exact ⟨z _ _ (by decide) ih.1, q _ _ (by decide) (q _ _ (by decide) ih.2)⟩
  | cr _ _ ih => exact ⟨z _ _ (by decide) ih.1, q _ _ (by decide) ih.2⟩

theorem quote_escape {s : Str} (h : '"' ∈ s) : '"' ∈ escapeXml s := by
  unfold escapeXml
  exact List.mem_flatMap.mpr ⟨'"', h, by decide⟩

/-! ### misc data -/

theorem noDouble_of_append {m x : Str} (hm : ∀ c ∈ m, c ≠ ' ') (hx : NoDouble x) : NoDouble (m ++ x) := by
  induction m with
  | nil => exact hx
  | cons c t ih =>
    exact NoDouble.cons (ih (fun y hy => hm y (List.mem_cons_of_mem _ hy))) (fun h => hm c (by simp) h.1)

theorem noDouble_map (f : Char → Char) (hf : ∀ c, f c = ' ' → c = ' ') {x : Str} (hx : NoDouble x) : NoDouble (x.map f) := by
  induction x with
  | nil => exact hx
  | cons c t ih =>
    refine NoDouble.cons (ih hx.tail) ?_
    rintro ⟨h1, h2⟩
    cases t with
    | nil => simp at h2
    | cons d u =>
      simp at h2
      exact hx [] u (by rw [hf c h1, hf d h2]; rfl)

theorem uncomma_char (c : Char) : (if c = ',' then '_' else c) = ' ' → c = ' ' := by
  split
  · intro h; exact absurd h (by decide)
  · exact id

theorem normalised_uncomma {x : Str} (h : Normalised x) : Normalised (uncomma x) := by
  obtain ⟨h1, h2, h3, h4⟩ := h
  refine ⟨?_, noDouble_map _ uncomma_char h2, ?_, ?_⟩
  · intro c hc hw
    obtain ⟨d, hd, rfl⟩ := List.mem_map.mp hc
    by_cases e : d = ','
    · rw [if_pos e] at hw; exact absurd hw (by decide)
    · rw [if_neg e] at hw ⊢; exact h1 d hd hw
  · intro h
    unfold uncomma at h
    rw [List.head?_map] at h
    obtain ⟨c, hc, e⟩ := Option.map_eq_some_iff.mp h
    exact h3 (by rw [hc, uncomma_char c e])
  · intro h
    unfold uncomma at h
    rw [List.getLast?_map] at h
    obtain ⟨c, hc, e⟩ := Option.map_eq_some_iff.mp h
    exact h4 (by rw [hc, uncomma_char c e])

theorem normalised_marker {x : Str} (h : Normalised x) : Normalised (miscMarker ++ x) := by
  obtain ⟨h1, h2, h3, h4⟩ := h
  refine ⟨?_, noDouble_of_append (by decide) h2, by show some '#' ≠ some ' '; decide, ?_⟩
  · intro c hc hw
    rcases List.mem_append.mp hc with hc | hc
    · have key : ∀ c ∈ miscMarker, ¬ White c := by decide
      exact absurd hw (key c hc)
    · exact h1 c hc hw
  · cases x with
    | nil => decide
    | cons a b => rwa [List.getLast?_append_of_ne_nil _ (by simp)]

theorem comma_uncomma (x : Str) : ',' ∉ uncomma x := by
  intro h
  obtain ⟨c, _, e⟩ := List.mem_map.mp h
  split at e
  · exact absurd e (by decide)
  · rename_i hc; exact hc e

theorem char_joined {c : Char} {sep : Str} {l : List Str} (h : c ∈ joined sep l) : c ∈ sep ∨ ∃ x ∈ l, c ∈ x := by
  cases l with
  | nil => cases h
  | cons x xs =>
    rw [joined_cons] at h
    rcases List.mem_append.mp h with h | h
    · exact Or.inr ⟨x, by simp, h⟩
    · obtain ⟨y, hy, hc⟩ := List.mem_flatMap.mp h
      rcases List.mem_append.mp hc with hc | hc
      · exact Or.inl hc
      · exact Or.inr ⟨y, List.mem_cons_of_mem _ hy, hc⟩

end Mx
