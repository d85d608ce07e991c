import Verif.Spec.XmlBroken
import Verif.Proofs.XmlCutDoc

/-
Files that are not well formed are refused.
-/
open Spec

namespace Mx.Pugi

/-! ### Start tags -/

theorem name_not_space {m : Str} (h : XmlName m) (X : Str) : skipWs (m ++ X) = m ++ X := by
  obtain ⟨⟨c, r, rfl, hc⟩, -⟩ := h
  refine skipWs_cons ?_ _
  cases hsc : isSpace c with
  | false => rfl
  | true =>
    have h1 := space_not_start hsc
    rw [(isStart_iff c).mpr hc] at h1
    exact absurd h1 (by decide)

theorem not_space {c : Char} (h : ¬ XmlSpace c) : isSpace c = false := by
  cases hs : isSpace c with
  | false => rfl
  | true => exact absurd ((isSpace_iff c).mp hs) h

theorem not_symbol {c : Char} (h : ¬ XmlNameChar c) : isSymbol c = false := by
  cases hs : isSymbol c with
  | false => rfl
  | true => exact absurd ((isSymbol_iff c).mp hs) h

theorem not_start {c : Char} (h : ¬ XmlNameStart c) : isStart c = false := by
  cases hs : isStart c with
  | false => rfl
  | true => exact absurd ((isStart_iff c).mp hs) h

theorem attrValue_open {q : Char} : ∀ {n : Nat} {s : Str} {x : Str × Str}, attrValue q n s = some x → q ∈ s := fun h => attrValue_mem h

theorem brokenAttr_none {t : Str} (h : BrokenAttr t) : ∀ k, attributes k t = none := by
  intro k
  cases k with
  | zero => rfl
  | succ k =>
    cases h with
    | noEquals hg hw hm hc he hn =>
      rename_i g m w c s
      have h1 : skipWs (g ++ (m ++ (w ++ c :: s))) = m ++ (w ++ c :: s) := by
        rw [skipWs_append (fun x hx => hw x (by simp [hx])), name_not_space hm]
      have hws : ∀ x ∈ w, XmlSpace x := fun x hx => hw x (by simp [hx])
      have hE : Ends (w ++ c :: s) := by
        cases w with
        | nil => exact ends_cons (not_symbol (hn rfl)) s
        | cons a w => exact ends_cons (space_not_symbol ((isSpace_iff a).mpr (hws a List.mem_cons_self))) _
      have h2 := name_take hm hE
      have h3 : skipWs (w ++ c :: s) = c :: s := by rw [skipWs_append hws, skipWs_cons (not_space hc)]
      simp only [attributes, h1, name_starts hm, if_true, h2.2, h3]
      split
      · rename_i e
        simp only [List.cons.injEq] at e
        exact absurd e.1 he
      · rfl
    | noQuote hg hw hm hc h1q h2q =>
      rename_i g m w w' c s
      have h1 : skipWs (g ++ (m ++ (w ++ '=' :: (w' ++ c :: s)))) = m ++ (w ++ '=' :: (w' ++ c :: s)) := by
        rw [skipWs_append (fun x hx => hw x (by simp [hx])), name_not_space hm]
      have hws : ∀ x ∈ w, XmlSpace x := fun x hx => hw x (by simp [hx])
      have hws' : ∀ x ∈ w', XmlSpace x := fun x hx => hw x (by simp [hx])
      have h2 := name_take hm (ends_space hws (ends_cons (c := '=') (by decide) (w' ++ c :: s)))
      have h3 : skipWs (w ++ '=' :: (w' ++ c :: s)) = '=' :: (w' ++ c :: s) := by rw [skipWs_append hws, skipWs_cons (by decide)]
      have h4 : skipWs (w' ++ c :: s) = c :: s := by rw [skipWs_append hws', skipWs_cons (not_space hc)]
      have hq : ¬ (c = '"' ∨ c = '\'') := by rintro (h | h); exact h1q h; exact h2q h
      simp only [attributes, h1, name_starts hm, if_true, h2.2, h3, h4, hq, if_false]
    | openValue hg hw hm hq hns =>
      rename_i g m w w' q s
      have h1 : skipWs (g ++ (m ++ (w ++ '=' :: (w' ++ q :: s)))) = m ++ (w ++ '=' :: (w' ++ q :: s)) := by
        rw [skipWs_append (fun x hx => hw x (by simp [hx])), name_not_space hm]
      have hws : ∀ x ∈ w, XmlSpace x := fun x hx => hw x (by simp [hx])
      have hws' : ∀ x ∈ w', XmlSpace x := fun x hx => hw x (by simp [hx])
      have h2 := name_take hm (ends_space hws (ends_cons (c := '=') (by decide) (w' ++ q :: s)))
      have h3 : skipWs (w ++ '=' :: (w' ++ q :: s)) = '=' :: (w' ++ q :: s) := by rw [skipWs_append hws, skipWs_cons (by decide)]
      have h4 : skipWs (w' ++ q :: s) = q :: s := by rw [skipWs_append hws', skipWs_cons (by rcases hq with h | h <;> rw [h] <;> decide)]
      have h5 : attrValue q (s.length + 1) s = none := by
        cases hv : attrValue q (s.length + 1) s with
        | none => rfl
        | some x => exact absurd (attrValue_open hv) hns
      simp only [attributes, h1, name_starts hm, if_true, h2.2, h3, h4, hq, h5]
    | strange hg hc hn hgt hsl =>
      rename_i g c s
      have h1 : skipWs (g ++ c :: s) = c :: s := by rw [skipWs_append hg, skipWs_cons (not_space hc)]
      have h2 : startsName (c :: s) = false := by
        have := not_start (c := c) (fun h => hn (.inl h))
        simpa [startsName] using this
      simp only [attributes, h1, h2]
      split
      · rename_i e; cases e
      · split
        · rename_i e; simp only [List.cons.injEq] at e; exact absurd e.1 hsl
        · rename_i e; simp only [List.cons.injEq] at e; exact absurd e.1 hgt
        · rfl
    | slash hg hs =>
      rename_i g s
      have h1 : skipWs (g ++ '/' :: s) = '/' :: s := by rw [skipWs_append hg, skipWs_cons (by decide)]
      have h2 : startsName ('/' :: s) = false := rfl
      simp only [attributes, h1, h2]
      split
      · rename_i e; cases e
      · split
        · rename_i e; simp only [List.cons.injEq, true_and] at e; subst e; exact absurd rfl hs
        · rename_i e; simp at e
        · rfl
    | unfinished hg =>
      have h1 : skipWs t = [] := by
        have := skipWs_append hg []
        rw [List.append_nil] at this
        rw [this]
        rfl
      simp [attributes, h1, startsName]

theorem brokenAttr_head {t : Str} (h : BrokenAttr t) : t = [] ∨ (∃ c r, t = c :: r ∧ isSpace c = true) ∨ (∃ c r, t = c :: r ∧ isSymbol c = false ∧ isStart c = false ∧ c ≠ '>' ∧ (c = '/' → r.head? ≠ some '>')) := by
  have hgap : ∀ {g X : Str}, g ≠ [] → (∀ c ∈ g, XmlSpace c) → ∃ c r, g ++ X = c :: r ∧ isSpace c = true := by
    intro g X hg hs
    cases g with
    | nil => exact absurd rfl hg
    | cons a g => exact ⟨a, g ++ X, rfl, (isSpace_iff a).mpr (hs a List.mem_cons_self)⟩
  cases h with
  | noEquals hg hw => exact .inr (.inl (hgap hg (fun x hx => hw x (by simp [hx]))))
  | noQuote hg hw => exact .inr (.inl (hgap hg (fun x hx => hw x (by simp [hx]))))
  | openValue hg hw => exact .inr (.inl (hgap hg (fun x hx => hw x (by simp [hx]))))
  | strange hg hc hn hgt hsl =>
    rename_i g c s
    cases g with
    | nil => exact .inr (.inr ⟨c, s, rfl, not_symbol hn, not_start (fun h => hn (.inl h)), hgt, fun h => absurd h hsl⟩)
    | cons a g => exact .inr (.inl (hgap (by simp) hg))
  | slash hg hs =>
    rename_i g s
    cases g with
    | nil => exact .inr (.inr ⟨'/', s, rfl, by decide, by decide, by decide, fun _ => hs⟩)
    | cons a g => exact .inr (.inl (hgap (by simp) hg))
  | unfinished hg =>
    cases t with
    | nil => exact .inl rfl
    | cons a g => exact .inr (.inl ⟨a, g, rfl, (isSpace_iff a).mpr (hg a List.mem_cons_self)⟩)

theorem attributes_broken (as : List AttrText) : ∀ (Z : Str), (∀ a ∈ as, a.Ok) → ((∀ k, attributes k Z = none) ∨ as ≠ [] ∧ startsName Z = true) → ∀ n, attributes n (as.flatMap AttrText.text ++ Z) = none := by
  induction as with
  | nil =>
    intro Z _ hZ n
    rcases hZ with hZ | ⟨h, -⟩
    · exact hZ n
    · exact absurd rfl h
  | cons a as ih =>
    intro Z ha hZ n
    cases n with
    | zero => rfl
    | succ n =>
      obtain ⟨hgap, hws, hname, hquote, hval⟩ := ha a List.mem_cons_self
      have hrest : startsName (as.flatMap AttrText.text ++ Z) = true ∨ attributes n (as.flatMap AttrText.text ++ Z) = none := by
        by_cases has : as = []
        · subst has
          rcases hZ with hZ | ⟨-, h⟩
          · exact .inr (hZ n)
          · exact .inl h
        · refine .inr (ih Z (fun x hx => ha x (List.mem_cons_of_mem a hx)) ?_ n)
          rcases hZ with hZ | ⟨-, h⟩
          · exact .inl hZ
          · exact .inr ⟨has, h⟩
      generalize hZe : as.flatMap AttrText.text ++ Z = W at hrest
      have hs : (a :: as).flatMap AttrText.text ++ Z = a.gap ++ (a.name ++ (a.before ++ ('=' :: (a.behind ++ (a.quote :: (a.spelt ++ a.quote :: W)))))) := by
        rw [← hZe, List.flatMap_cons, attr_text]
        simp [List.append_assoc]
      have hsp1 : ∀ c ∈ a.gap, XmlSpace c := fun c hc => hws c (by simp [hc])
      have hsp2 : ∀ c ∈ a.before, XmlSpace c := fun c hc => hws c (by simp [hc])
      have hsp3 : ∀ c ∈ a.behind, XmlSpace c := fun c hc => hws c (by simp [hc])
      have h1 : ∀ X, skipWs (a.gap ++ (a.name ++ X)) = a.name ++ X := fun X => by rw [skipWs_append hsp1, name_not_space hname]
      have h2 := name_take hname (ends_space hsp2 (ends_cons (c := '=') (by decide) (a.behind ++ (a.quote :: (a.spelt ++ a.quote :: W)))))
      have h3 : ∀ X, skipWs (a.before ++ '=' :: X) = '=' :: X := fun X => by
        rw [skipWs_append hsp2, skipWs_cons (by decide)]
      have h4 : ∀ X, skipWs (a.behind ++ a.quote :: X) = a.quote :: X := fun X => by
        rw [skipWs_append hsp3, skipWs_cons (by rcases hquote with h | h <;> rw [h] <;> decide)]
      have h5 := spelt_value hquote hval ((a.spelt ++ a.quote :: W).length + 1) W (by simp; omega)
      rw [hs]
      simp only [attributes, h1, name_starts hname, if_true, h2.1, h2.2, h3, h4, hquote, h5]
      rcases hrest with h | h
      · rw [if_pos h]
      · rw [h]
        simp

theorem tag_broken {n : Str} {as : List AttrText} {t : Str} (h : TagOk n as []) (ht : BrokenAttr t ∨ as ≠ [] ∧ ∃ c s, t = c :: s ∧ XmlNameStart c) (st : St) :
    tag (n ++ (as.flatMap AttrText.text ++ t)) st = none := by
  obtain ⟨hn, ha, -⟩ := h
  have hst : tag (n ++ (as.flatMap AttrText.text ++ t)) st = startTag (n ++ (as.flatMap AttrText.text ++ t)) st := by
    obtain ⟨⟨c, r, rfl, hc⟩, -⟩ := hn
    rw [List.cons_append, tag, if_pos ((isStart_iff c).mpr hc)]
  rw [hst]
  have hnone : ∀ k, attributes k (as.flatMap AttrText.text ++ t) = none := by
    refine attributes_broken as t ha ?_
    rcases ht with h | ⟨h, c, s, rfl, hc⟩
    · exact .inl (brokenAttr_none h)
    · exact .inr ⟨h, by simpa [startsName] using (isStart_iff c).mpr hc⟩
  have key : (∃ c s, as.flatMap AttrText.text ++ t = c :: s ∧ isSpace c = true) ∨ (as.flatMap AttrText.text ++ t = t ∧ BrokenAttr t) := by
    cases as with
    | nil =>
      rcases ht with h | ⟨h, -⟩
      · exact .inr ⟨rfl, h⟩
      · exact absurd rfl h
    | cons a as =>
      left
      obtain ⟨hgap, hws, -⟩ := ha a List.mem_cons_self
      cases hga : a.gap with
      | nil => exact absurd hga hgap
      | cons c w =>
        rw [List.flatMap_cons, attr_text, hga]
        exact ⟨c, _, rfl, (isSpace_iff c).mpr (hws c (by simp [hga]))⟩
  generalize as.flatMap AttrText.text ++ t = W at key hnone
  have hspace : ∀ c s, W = c :: s → isSpace c = true → startTag (n ++ W) st = none := by
    rintro c s rfl hc
    have h2 := name_take hn (ends_cons (space_not_symbol hc) s)
    have h5 : attributes (s.length + 1) s = none := by
      rw [← hnone (s.length + 1)]
      exact attributes_congr _ (skipWs_space hc s).symm
    have hgt : c ≠ '>' := by rintro rfl; exact absurd hc (by decide)
    rw [startTag, h2.2]
    simp only
    rw [if_neg hgt, if_pos hc, h5]
    rfl
  rcases key with ⟨c, s, hcs, hc⟩ | ⟨rfl, hb⟩
  · exact hspace c s hcs hc
  · rcases brokenAttr_head hb with rfl | ⟨c, s, hcs, hc⟩ | ⟨c, s, rfl, hsym, hsta, hgt, hsl⟩
    · have h2 := name_take hn (s := []) (by intro c r h; cases h)
      rw [startTag, h2.2]
    · exact hspace c s hcs hc
    · by_cases hsp : isSpace c = true
      · exact hspace c s rfl hsp
      · have h2 := name_take hn (ends_cons hsym s)
        rw [startTag, h2.2]
        simp only
        rw [if_neg hgt, if_neg hsp, if_neg (fun h => hsl h.1 h.2)]

/-! ### Other tags -/

theorem behindComment_infix : ∀ {s r : Str}, behindComment s = some r → ['-', '-', '>'] <:+: s := by
  intro s r h
  fun_induction behindComment s with
  | case1 => cases h
  | case2 r' => exact ⟨[], r', rfl⟩
  | case3 c s _ ih => exact (ih h).trans (List.suffix_cons c s).isInfix

theorem uptoQuestion_infix : ∀ {s : Str} {x : Str × Str}, uptoQuestion s = some x → ['?', '>'] <:+: s := by
  intro s x h
  obtain ⟨-, ⟨r, h2⟩, h3, -⟩ := uptoQuestion_ext h
  exact ⟨x.1, r, by rw [h3, h2]; simp⟩

theorem cdataText_infix : ∀ {s : Str} {x : Str × Str}, cdataText s = some x → [']', ']', '>'] <:+: s := by
  intro s x h
  fun_induction cdataText s generalizing x with
  | case1 => cases h
  | case2 r' => exact ⟨[], r', rfl⟩
  | case3 s ih =>
    obtain ⟨y, hy, -⟩ := Option.map_eq_some_iff.mp h
    exact (ih hy).trans ((List.suffix_cons _ _).trans (List.suffix_cons _ _)).isInfix
  | case4 s _ ih =>
    obtain ⟨y, hy, -⟩ := Option.map_eq_some_iff.mp h
    exact (ih hy).trans (List.suffix_cons _ _).isInfix
  | case5 c s _ _ _ ih =>
    obtain ⟨y, hy, -⟩ := Option.map_eq_some_iff.mp h
    exact (ih hy).trans (List.suffix_cons _ _).isInfix

theorem exclamation_tag (s : Str) (st : St) : tag ('!' :: s) st = exclamation s st := by
  rw [tag, if_neg (by decide), if_neg (by decide), if_neg (by decide), if_pos rfl]

theorem question_tag (s : Str) (st : St) : tag ('?' :: s) st = question s st := by
  rw [tag, if_neg (by decide), if_neg (by decide), if_pos rfl]

theorem end_tag (s : Str) (st : St) : tag ('/' :: s) st = endTag s st := by
  rw [tag, if_neg (by decide), if_pos rfl]

theorem ends_of {s : Str} (h : ∀ c r, s = c :: r → ¬ XmlNameChar c) : Ends s := fun c r e => not_symbol (h c r e)

theorem symbols_take {m : Str} (h : ∀ c ∈ m, XmlNameChar c) {s : Str} (hs : Ends s) : (m ++ s).takeWhile isSymbol = m := by
  have hn : ∀ c ∈ m, isSymbol c = true := fun c hc => (isSymbol_iff c).mpr (h c hc)
  rw [List.takeWhile_append_of_pos hn]
  cases s with
  | nil => exact List.append_nil m
  | cons c r => simp [hs c r rfl]

/-! ### Document types -/

theorem behindQuote_mem {q : Char} : ∀ {s r : Str}, behindQuote q s = some r → q ∈ s
  | c :: s, r, h => by
    rw [behindQuote] at h
    split at h
    · rename_i e; simp [e]
    · exact List.mem_cons_of_mem c (behindQuote_mem h)

theorem literal_open {q : Char} {s : Str} (hq : q = '"' ∨ q = '\'') (hs : q ∉ s) : ∀ k, doctypeGroup k 0 (q :: s) = none := by
  intro k
  cases k with
  | zero => rfl
  | succ k =>
    have hne : q ≠ '<' := by rcases hq with rfl | rfl <;> decide
    have hd : doctypePrimitive (q :: s) = none := by
      have : behindQuote q s = none := by
        cases hb : behindQuote q s with
        | none => rfl
        | some r => exact absurd (behindQuote_mem hb) hs
      rcases hq with rfl | rfl <;> simpa [doctypePrimitive] using this
    rw [doctypeGroup]
    · rw [if_neg (by simp [hne]), if_pos (by rcases hq with h | h <;> simp [h]), hd]
      rfl
    · intro c' r' hc _
      exact absurd hc hne

theorem doctypeGroup_open {t : Str} (h : DoctypeText t) {Z : Str} (hZ : ∀ k, doctypeGroup k 0 Z = none) : ∀ k, doctypeGroup k 0 (t ++ Z) = none := by
  induction h with
  | nil => exact hZ
  | @char c s h1 h2 h3 h4 _ _ ih =>
    intro k
    cases k with
    | zero => rfl
    | succ k =>
      rw [List.cons_append, doctypeGroup]
      · rw [if_neg (by simp [h1]), if_neg (by simp [h1, h3, h4]), if_neg h2]
        exact ih k
      · intro c' r' hc _
        exact absurd hc h1
  | @literal q l s hq hl _ _ ih =>
    intro k
    cases k with
    | zero => rfl
    | succ k =>
      have e : q :: (l ++ q :: s) ++ Z = q :: (l ++ q :: (s ++ Z)) := by simp
      have hne : q ≠ '<' := by rcases hq with rfl | rfl <;> decide
      have hd : doctypePrimitive (q :: (l ++ q :: (s ++ Z))) = some (s ++ Z) := by
        have := behindQuote_spelt hl (s ++ Z)
        rcases hq with rfl | rfl <;> simpa [doctypePrimitive] using this
      rw [e, doctypeGroup]
      · rw [if_neg (by simp [hne]), if_pos (by rcases hq with h | h <;> simp [h]), hd]
        exact ih k
      · intro c' r' hc _
        exact absurd hc hne

theorem doctype_open {t : Str} (h : DoctypeText t) (Z : Str) (hZ : ∀ k, doctypeGroup k 0 Z = none) (s : Str) (hs : s = t ++ Z) (st : St) :
    tag ('!' :: 'D' :: 'O' :: 'C' :: 'T' :: 'Y' :: 'P' :: 'E' :: s) st = none := by
  subst hs
  have hD : DoctypeText ('D' :: 'O' :: 'C' :: 'T' :: 'Y' :: 'P' :: 'E' :: t) := by
    refine .char ?_ ?_ ?_ ?_ ?_ (.char ?_ ?_ ?_ ?_ ?_ (.char ?_ ?_ ?_ ?_ ?_ (.char ?_ ?_ ?_ ?_ ?_ (.char ?_ ?_ ?_ ?_ ?_ (.char ?_ ?_ ?_ ?_ ?_ (.char ?_ ?_ ?_ ?_ ?_ h)))))) <;> decide
  have h1 := doctypeGroup_open hD hZ
  simp only [List.cons_append] at h1
  rw [exclamation_tag]
  show doctypeTag _ _ = _
  rw [doctypeTag, h1]
  split <;> rfl

theorem broken_none {o : Option Str} {s : Str} (h : Broken o s) {st : St} (ho : o = st.stack.head?.map (·.name)) (n : Nat) : parseTree n s st = none := by
  cases n with
  | zero => rfl
  | succ n =>
    have htag : ∀ t, tag t st = none → parseTree (n + 1) ('<' :: t) st = none := by
      intro t ht
      rw [parseTree, if_pos rfl, ht]
      rfl
    obtain ⟨stack, top⟩ := st
    have hsome : ∀ m, some m = (St.stack ⟨stack, top⟩).head?.map (·.name) → ∃ f fs, stack = f :: fs ∧ f.name = m := by
      intro m hm
      cases stack with
      | nil => cases hm
      | cons f fs => exact ⟨f, fs, rfl, by simpa using hm.symm⟩
    cases h with
    | unfinished =>
      obtain ⟨f, fs, rfl, -⟩ := hsome _ ho
      simp [parseTree]
    | lonelyEnd =>
      apply htag
      cases stack with
      | nil => rw [end_tag]; rfl
      | cons f fs => cases ho
    | wrongEnd hm hne hs =>
      apply htag
      obtain ⟨f, fs, rfl, rfl⟩ := hsome _ ho
      have h1 := symbols_take hm (ends_of hs)
      rw [end_tag, endTag]
      simp only
      rw [h1, if_neg hne]
    | crookedEnd hn hg hc hnc hgt =>
      rename_i nm g c s
      apply htag
      obtain ⟨f, fs, rfl, rfl⟩ := hsome _ ho
      have h1 := name_take hn (ends_space hg (ends_cons (not_symbol hnc) s))
      have h2 : skipWs (g ++ c :: s) = c :: s := by rw [skipWs_append hg, skipWs_cons (not_space hc)]
      rw [end_tag, endTag]
      simp only
      rw [h1.1, if_pos rfl, h1.2, h2]
      split
      · rename_i e; simp only [List.cons.injEq] at e; exact absurd e.1 hgt
      · rfl
    | unfinishedEnd hn hg =>
      rename_i nm g
      apply htag
      obtain ⟨f, fs, rfl, rfl⟩ := hsome _ ho
      have hE : Ends g := by
        intro c r e
        exact space_not_symbol ((isSpace_iff c).mpr (hg c (by simp [e])))
      have h1 := name_take hn hE
      have h2 : skipWs g = [] := by
        have := skipWs_append hg []
        rw [List.append_nil] at this
        rw [this]
        rfl
      rw [end_tag, endTag]
      simp only
      rw [h1.1, if_pos rfl, h1.2, h2]
    | noTag h1 h2 h3 h4 =>
      apply htag
      rw [tag, if_neg (by rw [not_start h1]; decide), if_neg h2, if_neg h3, if_neg h4]
    | lastTag => exact htag _ rfl
    | noMarkup h1 h2 h3 =>
      apply htag
      rw [exclamation_tag]
      unfold exclamation
      split
      · rename_i r; exact absurd ⟨r, rfl⟩ h1
      · rename_i r; exact absurd ⟨r, rfl⟩ h2
      · rename_i r; exact absurd ⟨r, rfl⟩ h3
      · rfl
    | openComment h =>
      rename_i s
      apply htag
      rw [exclamation_tag]
      simp only [exclamation]
      cases hb : behindComment s with
      | none => rfl
      | some r => exact absurd (behindComment_infix hb) h
    | openSection h =>
      rename_i s
      apply htag
      rw [exclamation_tag]
      simp only [exclamation]
      cases hb : cdataText s with
      | none => rfl
      | some r => exact absurd (cdataText_infix hb) h
    | openInstruction hn hs hinf =>
      rename_i nm s
      apply htag
      rw [question_tag, question, name_starts hn, if_pos rfl]
      have hE : Ends s := fun c r e => space_not_symbol ((isSpace_iff c).mpr (hs c r e))
      have h1 := name_take hn hE
      rw [h1.1, h1.2]
      cases s with
      | nil => rfl
      | cons c r =>
        simp only
        have hc : isSpace c = true := (isSpace_iff c).mpr (hs c r rfl)
        have hq : c ≠ '?' := by rintro rfl; exact absurd hc (by decide)
        have hu : uptoQuestion (skipWs r) = none := by
          cases hb : uptoQuestion (skipWs r) with
          | none => rfl
          | some y =>
            refine absurd ((uptoQuestion_infix hb).trans ?_) hinf
            exact ((List.dropWhile_suffix _).trans (List.suffix_cons c r)).isInfix
        rw [if_neg hq, if_pos hc, hu]
        split <;> rfl
    | noInstruction hs =>
      rename_i s
      apply htag
      rw [question_tag, question, if_neg]
      cases s with
      | nil => simp [startsName]
      | cons c r => simpa [startsName] using not_start (hs c r rfl)
    | crookedInstruction hn hc hsp hq =>
      apply htag
      rw [question_tag, question, name_starts hn, if_pos rfl]
      rename_i s
      have h1 := name_take hn (ends_cons (not_symbol hc) s)
      rw [h1.1, h1.2]
      simp only
      rw [not_space hsp]
      split
      · rfl
      · split
        · rename_i e; rw [if_neg (hq e)]
        · rfl
    | openDoctype ht =>
      rename_i t
      exact htag _ (doctype_open ht [] (fun k => by cases k <;> rfl) _ (List.append_nil t).symm _)
    | openLiteral ht hq hns =>
      exact htag _ (doctype_open ht _ (literal_open hq hns) _ rfl _)
    | lateDeclaration hn hx hs =>
      apply htag
      obtain ⟨f, fs, rfl, rfl⟩ := hsome _ ho
      rw [question_tag, question, name_starts hn, if_pos rfl]
      have h1 := name_take hn (ends_of hs)
      rw [h1.1, h1.2]
      split
      · rfl
      · rw [if_pos ⟨by rw [isXml, hx]; decide, by simp⟩]
    | lateDoctype =>
      apply htag
      obtain ⟨f, fs, rfl, rfl⟩ := hsome _ ho
      rw [exclamation_tag]
      simp [exclamation, doctypeTag]
    | tag h1 h2 => exact htag _ (tag_broken h1 (.inl h2) _)
    | crowded h1 h2 h3 => exact htag _ (tag_broken h1 (.inr ⟨h2, _, _, rfl, h3⟩) _)

theorem broken_tagged {o : Option Str} {s : Str} (h : Broken o s) : Tagged s := by
  cases h <;> first | exact tagged_nil | exact tagged_lt _

/-! ### Files -/

theorem begun_text (b : Begun) (rest : Str) : b.text ++ rest = '<' :: (b.name ++ (b.attrs.flatMap AttrText.text ++ (b.gap ++ '>' :: (piecesText b.kids ++ rest)))) := by
  simp [Begun.text, tagText]

theorem begun_passes : ∀ (l : List Begun), (∀ b ∈ l, b.Ok) → ∀ (st : St) (rest : Str), Tagged rest → Tagged (l.flatMap Begun.text ++ rest) ∧
    ∃ st', st'.stack.head?.map (·.name) = (match l.getLast? with | some b => some b.name | none => st.stack.head?.map (·.name)) ∧ Passes (l.flatMap Begun.text ++ rest) rest st st' := by
  intro l
  induction l with
  | nil => exact fun _ st rest hr => ⟨hr, st, rfl, passes_refl _ _⟩
  | cons b l ih =>
    intro hl st rest hr
    obtain ⟨h1, h2⟩ := hl b List.mem_cons_self
    have hT := (ih (fun x hx => hl x (List.mem_cons_of_mem b hx)) st rest hr).1
    rw [List.flatMap_cons, List.append_assoc, begun_text]
    refine ⟨tagged_lt _, ?_⟩
    have ht := startTag_spelt (t := '>' :: (piecesText b.kids ++ (l.flatMap Begun.text ++ rest))) (closed := false) h1 (.inl ⟨rfl, rfl⟩) st
    have p1 := passes_tag ht (by simp; omega)
    have p2 := pieces_pass b.kids h2 (l.flatMap Begun.text ++ rest) hT ⟨⟨false, b.name, attrValues b.attrs, []⟩ :: st.stack, st.top⟩
    rw [addAll_frame] at p2
    obtain ⟨-, st', h3, p3⟩ := ih (fun x hx => hl x (List.mem_cons_of_mem b hx)) ⟨⟨false, b.name, attrValues b.attrs, (piecesNodes b.kids).reverse ++ []⟩ :: st.stack, st.top⟩ rest hr
    refine ⟨st', ?_, p1.trans (p2.trans p3)⟩
    rw [h3]
    cases l with
    | nil => rfl
    | cons c l =>
      rw [List.getLast?_cons_cons, List.getLast?_eq_some_getLast (List.cons_ne_nil c l)]

theorem parse_broken {d : Beginning} (h : d.Ok) {s : Str} (hs : Broken d.current s) (hz : '\x00' ∉ d.text ++ s) : parse (d.text ++ s) = none := by
  obtain ⟨hd, hb, hdt, hbt, hbg⟩ := h
  have T4 := broken_tagged hs
  obtain ⟨T3, -⟩ := begun_passes d.begun hbg {} s T4
  have T3' := pieces_tagged hbt T3
  have T2 := tagged_doctype d.doctype T3'
  have T1 := pieces_tagged hb T2
  have e : d.text ++ s = (if d.mark then ['\xef', '\xbb', '\xbf'] else []) ++ (declarationText d.declaration ++ (piecesText d.before ++ (doctypeText d.doctype ++ (piecesText d.between ++ (d.begun.flatMap Begun.text ++ s))))) := by
    simp [Beginning.text]
  rw [e] at hz ⊢
  generalize hx : declarationText d.declaration ++ (piecesText d.before ++ (doctypeText d.doctype ++ (piecesText d.between ++ (d.begun.flatMap Begun.text ++ s)))) = x at *
  have hT : Tagged x := by
    rw [← hx]
    cases hdd : d.declaration with
    | none => exact T1
    | some y =>
      have e : ∀ r, declarationText (some y) ++ r = '<' :: ('?' :: 'x' :: 'm' :: 'l' :: (y.1.flatMap AttrText.text ++ y.2 ++ '?' :: '>' :: r)) := by
        intro r
        simp [declarationText]
      rw [e]
      exact tagged_lt _
  have hbom : skipBom ((if d.mark then ['\xef', '\xbb', '\xbf'] else []) ++ x) = x := by
    cases d.mark with
    | false => exact skipBom_tagged hT
    | true => rfl
  have p1 := passes_declaration hd (piecesText d.before ++ (doctypeText d.doctype ++ (piecesText d.between ++ (d.begun.flatMap Begun.text ++ s)))) []
  rw [addAll_top] at p1
  have p2 := pieces_pass d.before hb (doctypeText d.doctype ++ (piecesText d.between ++ (d.begun.flatMap Begun.text ++ s))) T2 ⟨[], (declarationNodes d.declaration).reverse ++ []⟩
  rw [addAll_top] at p2
  have p3 := passes_doctype hdt (piecesText d.between ++ (d.begun.flatMap Begun.text ++ s)) ((piecesNodes d.before).reverse ++ ((declarationNodes d.declaration).reverse ++ []))
  rw [addAll_top] at p3
  have p4 := pieces_pass d.between hbt (d.begun.flatMap Begun.text ++ s) T3 ⟨[], (doctypeNodes d.doctype).reverse ++ ((piecesNodes d.before).reverse ++ ((declarationNodes d.declaration).reverse ++ []))⟩
  rw [addAll_top] at p4
  obtain ⟨-, st', h5, p5⟩ := begun_passes d.begun hbg ⟨[], (piecesNodes d.between).reverse ++ ((doctypeNodes d.doctype).reverse ++ ((piecesNodes d.before).reverse ++ ((declarationNodes d.declaration).reverse ++ [])))⟩ s T4
  have p := p1.trans (p2.trans (p3.trans (p4.trans p5)))
  rw [hx] at p
  have hlen : x.length < ((if d.mark then ['\xef', '\xbb', '\xbf'] else []) ++ x).length + 1 := by
    simp only [List.length_append]
    omega
  obtain ⟨m, hm, hp⟩ := p _ hlen
  have hnone : parseTree m s st' = none := by
    refine broken_none hs ?_ m
    rw [h5, Beginning.current]
    cases d.begun.getLast? <;> rfl
  rw [parse, cString_self hz, hbom, show ({} : St) = ⟨[], []⟩ from rfl, hp, hnone]

end Mx.Pugi
