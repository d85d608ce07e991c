import Verif.Model.Strings
import Verif.Spec.Tokens
import Verif.Spec.XmlText
import Verif.Proofs.Integers

/-
Lemmas on the text classes.
-/
namespace Mx
open Spec

/-! ### reduce -/

theorem joined_cons (sep : Str) (x : Str) (xs : List Str) : joined sep (x :: xs) = x ++ xs.flatMap (sep ++ ·) := by
  induction xs generalizing x with
  | nil => simp [joined]
  | cons y ys ih => simp only [joined, ih, List.flatMap_cons, List.append_assoc]

/-- White space test of the specification, as used in `words`. -/
abbrev isWhite (c : Char) : Bool := decide (White c)

theorem isWhite_eq (c : Char) : isWhite c = isWs c := by
  by_cases h : White c
  · simp only [isWhite, h, decide_true]; exact (isWs_iff.mpr h).symm
  · have : isWs c = false := by
      cases hc : isWs c with
      | false => rfl
      | true => exact absurd (isWs_iff.mp hc) h
    simp only [isWhite, h, decide_false, this]

abbrev nonEmpty (w : Str) : Bool := decide (w ≠ [])

theorem words_eq (s : Str) : words s = (s.splitOnP isWhite).filter nonEmpty := rfl

theorem words_ws {c : Char} (t : Str) (h : isWs c = true) : words (c :: t) = words t := by
  rw [words_eq, words_eq, List.splitOnP_cons_eq_if_modifyHead, if_pos (by rw [isWhite_eq]; exact h)]
  simp [nonEmpty]

theorem words_dropWhile (s : Str) : words (s.dropWhile isWs) = words s := by
  induction s with
  | nil => rfl
  | cons c t ih =>
    by_cases h : isWs c = true
    · rw [List.dropWhile_cons_of_pos h, ih, words_ws t h]
    · rw [List.dropWhile_cons_of_neg h]

theorem words_append_ws {c : Char} (s : Str) (h : isWs c = true) : words (s ++ [c]) = words s := by
  rw [words_eq, words_eq, List.splitOnP_append_cons s [] (by rw [isWhite_eq]; exact h)]
  simp [nonEmpty, List.filter_append]

theorem words_trimEnd (s : Str) : words (s.reverse.dropWhile isWs).reverse = words s := by
  obtain ⟨r, rfl⟩ : ∃ r, s = r.reverse := ⟨s.reverse, by simp⟩
  rw [List.reverse_reverse]
  induction r with
  | nil => rfl
  | cons c t ih =>
    by_cases h : isWs c = true
    · rw [List.dropWhile_cons_of_pos h, ih, List.reverse_cons, words_append_ws _ h]
    · rw [List.dropWhile_cons_of_neg h]

theorem words_trim (s : Str) : words (trim s) = words s := by
  unfold trim; rw [words_trimEnd, words_dropWhile]

theorem dropWhile_head (s : Str) : ∀ c, (s.dropWhile isWs).head? = some c → isWs c = false := by
  intro c h
  have := List.head?_dropWhile_not isWs s
  rw [h] at this
  simpa using this

theorem trim_last (s : Str) : ∀ c, (trim s).getLast? = some c → isWs c = false := by
  intro c h
  unfold trim at h
  rw [List.getLast?_reverse] at h
  exact dropWhile_head _ c h

theorem dropEnd_head (l : Str) (hl : ∀ c, l.head? = some c → isWs c = false) (c : Char)
    (h : (l.reverse.dropWhile isWs).reverse.head? = some c) : isWs c = false := by
  have hs : l.reverse.dropWhile isWs <:+ l.reverse := List.dropWhile_suffix _
  have hp : (l.reverse.dropWhile isWs).reverse <+: l := by
    have := List.reverse_prefix.mpr hs
    rwa [List.reverse_reverse] at this
  obtain ⟨t, ht⟩ := hp
  apply hl
  cases hq : (l.reverse.dropWhile isWs).reverse with
  | nil => rw [hq] at h; cases h
  | cons a b =>
    rw [hq] at h ht
    rw [← ht]; exact h

theorem trim_head (s : Str) : ∀ c, (trim s).head? = some c → isWs c = false :=
  dropEnd_head _ (dropWhile_head s)

theorem last_cons_ws {c : Char} {t : Str} (h : ∀ x, (c :: t).getLast? = some x → isWs x = false) :
    ∀ x, t.getLast? = some x → isWs x = false := by
  intro x hx
  apply h
  cases t with
  | nil => cases hx
  | cons a b => rwa [List.getLast?_cons_cons]

theorem splitOnP_cases (t : Str) : ∃ h r, t.splitOnP isWhite = h :: r := by
  cases hs : t.splitOnP isWhite with
  | nil => exact absurd hs (List.splitOnP_ne_nil _ _)
  | cons h r => exact ⟨h, r, rfl⟩

/-- Runs of white space become single spaces between words. -/
theorem reduceRuns_words : ∀ (t : Str), (∀ c, t.getLast? = some c → isWs c = false) →
    (∀ h r, t.splitOnP isWhite = h :: r → reduceRuns false t = h ++ (r.filter nonEmpty).flatMap ([' '] ++ ·)) ∧
    reduceRuns true t = joined [' '] (words t) := by
  intro t
  induction t with
  | nil =>
    intro _
    refine ⟨?_, rfl⟩
    intro h r hs
    rw [List.splitOnP_nil] at hs
    injection hs with h1 h2
    subst h1 h2
    rfl
  | cons c t ih =>
    intro hl
    obtain ⟨ih1, ih2⟩ := ih (last_cons_ws hl)
    obtain ⟨h', r', hs'⟩ := splitOnP_cases t
    by_cases hc : isWs c = true
    · have hsp : (c :: t).splitOnP isWhite = [] :: h' :: r' := by
        rw [List.splitOnP_cons_eq_if_modifyHead, if_pos (by rw [isWhite_eq]; exact hc), hs']
      have ht : t ≠ [] := by
        rintro rfl
        have := hl c rfl
        rw [hc] at this; cases this
      constructor
      · intro h r hs
        rw [hsp] at hs
        injection hs with h1 h2
        subst h1 h2
        have h3 : reduceRuns false (c :: t) = ' ' :: reduceRuns true t := by simp [reduceRuns, hc]
        rw [h3, ih2, words_eq, hs']
        cases hf : (h' :: r').filter nonEmpty with
        | nil =>
          exfalso
          obtain ⟨x, hx⟩ : ∃ x, t.getLast? = some x := by
            cases hg : t.getLast? with
            | none => exact absurd (List.getLast?_eq_none_iff.mp hg) ht
            | some x => exact ⟨x, rfl⟩
          have hxw := last_cons_ws hl x hx
          obtain ⟨a, rfl⟩ : ∃ a, t = a ++ [x] := by
            obtain ⟨h1, h2⟩ := List.getLast?_eq_some_iff.mp hx
            exact ⟨_, h2⟩
          have hmem : ∀ (a : Str), ∃ w ∈ (a ++ [x]).splitOnP isWhite, x ∈ w := by
            intro a
            induction a with
            | nil =>
              refine ⟨[x], ?_, by simp⟩
              rw [List.nil_append, List.splitOnP_cons_eq_if_modifyHead, if_neg (by rw [isWhite_eq, hxw]; decide)]
              simp
            | cons b a ih =>
              obtain ⟨w, hw, hxw⟩ := ih
              rw [List.cons_append, List.splitOnP_cons_eq_if_modifyHead]
              split
              · exact ⟨w, List.mem_cons_of_mem _ hw, hxw⟩
              · obtain ⟨p, q, hpq⟩ := splitOnP_cases (a ++ [x])
                rw [hpq] at hw ⊢
                rcases List.mem_cons.mp hw with rfl | hw
                · exact ⟨b :: w, by simp, List.mem_cons_of_mem _ hxw⟩
                · exact ⟨w, List.mem_cons_of_mem _ hw, hxw⟩
          obtain ⟨w, hw, hxw⟩ := hmem a
          rw [hs'] at hw
          have : w ∈ (h' :: r').filter nonEmpty := by
            rw [List.mem_filter]
            refine ⟨hw, ?_⟩
            simp only [nonEmpty, decide_eq_true_eq]
            rintro rfl; cases hxw
          rw [hf] at this; cases this
        | cons p q => rw [joined_cons]; simp
      · have h3 : reduceRuns true (c :: t) = reduceRuns true t := by simp [reduceRuns, hc]
        rw [h3, ih2, words_ws t hc]
    · have hsp : (c :: t).splitOnP isWhite = (c :: h') :: r' := by
        rw [List.splitOnP_cons_eq_if_modifyHead, if_neg (by rw [isWhite_eq]; exact hc), hs']; rfl
      have h3 : ∀ b, reduceRuns b (c :: t) = c :: (h' ++ (r'.filter nonEmpty).flatMap ([' '] ++ ·)) := by
        intro b
        have : reduceRuns b (c :: t) = c :: reduceRuns false t := by simp [reduceRuns, hc]
        rw [this, ih1 h' r' hs']
      constructor
      · intro h r hs
        rw [hsp] at hs
        injection hs with h1 h2
        subst h1 h2
        rw [h3]; rfl
      · rw [h3, words_eq, hsp, List.filter_cons_of_pos (by simp [nonEmpty]), joined_cons]; rfl

/-- `reduce` joins the words with single spaces. -/
theorem reduce_words (s : Str) : reduce s = joined [' '] (words s) := by
  unfold reduce
  rw [← words_trim s]
  have hh := trim_head s
  obtain ⟨h1, h2⟩ := reduceRuns_words (trim s) (trim_last s)
  cases ht : trim s with
  | nil => rfl
  | cons c t =>
    rw [ht] at h2 hh
    have hc := hh c rfl
    rw [← h2]
    simp [reduceRuns, hc]

theorem words_noWhite (s : Str) : ∀ w ∈ words s, w ≠ [] ∧ ∀ c ∈ w, ¬ White c := by
  have key : ∀ s : Str, ∀ w ∈ s.splitOnP isWhite, ∀ c ∈ w, ¬ White c := by
    intro s
    induction s with
    | nil => intro w hw c hc; rw [List.splitOnP_nil] at hw; simp at hw; subst hw; cases hc
    | cons a t ih =>
      intro w hw c hc
      rw [List.splitOnP_cons_eq_if_modifyHead] at hw
      by_cases ha : isWhite a = true
      · rw [if_pos ha] at hw
        rcases List.mem_cons.mp hw with rfl | hw
        · cases hc
        · exact ih w hw c hc
      · rw [if_neg ha] at hw
        obtain ⟨h', r', hs'⟩ := splitOnP_cases t
        rw [hs', List.modifyHead_cons] at hw
        rcases List.mem_cons.mp hw with rfl | hw
        · rcases List.mem_cons.mp hc with rfl | hc
          · simpa [isWhite] using ha
          · exact ih h' (by rw [hs']; simp) c hc
        · exact ih w (by rw [hs']; exact List.mem_cons_of_mem _ hw) c hc
  intro w hw
  rw [words_eq, List.mem_filter] at hw
  exact ⟨by simpa [nonEmpty] using hw.2, key s w hw.1⟩

/-! ### normal form -/

theorem reduceRuns_head (t : Str) : (reduceRuns true t).head? ≠ some ' ' := by
  induction t with
  | nil => simp [reduceRuns]
  | cons c t ih =>
    by_cases hc : isWs c = true
    · simp only [reduceRuns, hc, if_true]; exact ih
    · simp only [reduceRuns, hc]
      intro h
      simp at h
      subst h
      exact hc (by decide)

/-- No two adjacent spaces. -/
def NoDouble (s : Str) : Prop := ∀ a b, s ≠ a ++ [' ', ' '] ++ b

theorem NoDouble.cons {c : Char} {t : Str} (h : NoDouble t) (h' : ¬ (c = ' ' ∧ t.head? = some ' ')) : NoDouble (c :: t) := by
  intro a b e
  cases a with
  | nil =>
    simp at e
    obtain ⟨rfl, rfl⟩ := e
    exact h' ⟨rfl, rfl⟩
  | cons x a =>
    simp only [List.cons_append, List.cons.injEq] at e
    exact h a b e.2

theorem NoDouble.tail {c : Char} {t : Str} (h : NoDouble (c :: t)) : NoDouble t := by
  intro a b e
  exact h (c :: a) b (by rw [e]; rfl)

theorem reduceRuns_noDouble (t : Str) : ∀ b, NoDouble (reduceRuns b t) := by
  induction t with
  | nil =>
    intro b a c e
    have := congrArg List.length e
    simp [reduceRuns] at this
  | cons c t ih =>
    intro b
    by_cases hc : isWs c = true
    · cases b with
      | true => simp only [reduceRuns, hc, if_true]; exact ih true
      | false =>
        simp only [reduceRuns, hc, if_true, Bool.false_eq_true, if_false]
        exact (ih true).cons (fun h => reduceRuns_head t h.2)
    · have : reduceRuns b (c :: t) = c :: reduceRuns false t := by simp [reduceRuns, hc]
      rw [this]
      refine (ih false).cons ?_
      rintro ⟨rfl, -⟩
      exact hc (by decide)

theorem reduceRuns_white (t : Str) : ∀ b, ∀ c ∈ reduceRuns b t, White c → c = ' ' := by
  induction t with
  | nil => intro b c h; cases h
  | cons a t ih =>
    intro b c h hw
    by_cases ha : isWs a = true
    · cases b with
      | true => simp only [reduceRuns, ha, if_true] at h; exact ih true c h hw
      | false =>
        simp only [reduceRuns, ha, if_true, Bool.false_eq_true, if_false] at h
        rcases List.mem_cons.mp h with rfl | h
        · rfl
        · exact ih true c h hw
    · have : reduceRuns b (a :: t) = a :: reduceRuns false t := by simp [reduceRuns, ha]
      rw [this] at h
      rcases List.mem_cons.mp h with rfl | h
      · exact absurd (isWs_iff.mpr hw) ha
      · exact ih false c h hw

theorem reduceRuns_last (t : Str) : ∀ b, (∀ c, t.getLast? = some c → isWs c = false) →
    ∀ c, (reduceRuns b t).getLast? = some c → isWs c = false := by
  induction t with
  | nil => intro b _ c h; cases h
  | cons a t ih =>
    intro b hl c h
    have hl' := last_cons_ws hl
    by_cases ht : t = []
    · subst ht
      have ha := hl a rfl
      simp [reduceRuns, ha] at h
      subst h; exact ha
    · have hne : ∀ b, reduceRuns b t ≠ [] := by
        intro b hb
        have key : ∀ (u : Str) b, u ≠ [] → (∀ c, u.getLast? = some c → isWs c = false) → reduceRuns b u ≠ [] := by
          intro u
          induction u with
          | nil => intro b h; exact absurd rfl h
          | cons x u ih =>
            intro b _ hl
            by_cases hx : isWs x = true
            · by_cases hu : u = []
              · subst hu
                have := hl x rfl
                rw [hx] at this; cases this
              · cases b with
                | true => simp only [reduceRuns, hx, if_true]; exact ih true hu (last_cons_ws hl)
                | false => simp [reduceRuns, hx]
            · simp [reduceRuns, hx]
        exact key t b ht hl' hb
      have drop : ∀ (x : Char) b, (x :: reduceRuns b t).getLast? = some c → (reduceRuns b t).getLast? = some c := by
        intro x b h
        cases hr : reduceRuns b t with
        | nil => exact absurd hr (hne b)
        | cons y ys => rw [hr, List.getLast?_cons_cons] at h; exact h
      by_cases ha : isWs a = true
      · cases b with
        | true => simp only [reduceRuns, ha, if_true] at h; exact ih true hl' c h
        | false =>
          simp only [reduceRuns, ha, if_true, Bool.false_eq_true, if_false] at h
          exact ih true hl' c (drop _ _ h)
      · have : reduceRuns b (a :: t) = a :: reduceRuns false t := by simp [reduceRuns, ha]
        rw [this] at h
        exact ih false hl' c (drop _ _ h)

theorem isWs_space : isWs ' ' = true := by decide

theorem reduce_normalised (s : Str) : Normalised (reduce s) := by
  refine ⟨reduceRuns_white _ _, reduceRuns_noDouble _ _, ?_, ?_⟩
  · unfold reduce
    have hh := trim_head s
    cases ht : trim s with
    | nil => simp [reduceRuns]
    | cons c t =>
      rw [ht] at hh
      have hc := hh c rfl
      simp only [reduceRuns, hc, Bool.false_eq_true, if_false, List.head?_cons, ne_eq, Option.some.injEq]
      rintro rfl
      rw [isWs_space] at hc; cases hc
  · intro h
    have := reduceRuns_last (trim s) false (trim_last s) ' ' h
    rw [isWs_space] at this; cases this

theorem dropWhile_of_head {s : Str} (h : ∀ c, s.head? = some c → isWs c = false) : s.dropWhile isWs = s := by
  cases s with
  | nil => rfl
  | cons c t => rw [List.dropWhile_cons_of_neg]; rw [h c rfl]; decide

theorem reduce_of_normalised {s : Str} (h : Normalised s) : reduce s = s := by
  obtain ⟨h1, h2, h3, h4⟩ := h
  have e1 : s.dropWhile isWs = s := dropWhile_of_head (fun c hc => by
    cases hw : isWs c with
    | false => rfl
    | true =>
      have := h1 c (List.mem_of_head? hc) (isWs_iff.mp hw)
      subst this; exact absurd hc h3)
  have e2 : s.reverse.dropWhile isWs = s.reverse := dropWhile_of_head (fun c hc => by
    rw [List.head?_reverse] at hc
    cases hw : isWs c with
    | false => rfl
    | true =>
      have := h1 c (List.mem_of_getLast? hc) (isWs_iff.mp hw)
      subst this; exact absurd hc h4)
  have ht : trim s = s := by
    unfold trim
    rw [e1, e2, List.reverse_reverse]
  unfold reduce
  rw [ht]
  have key : ∀ (t : Str), (∀ c ∈ t, White c → c = ' ') → NoDouble t →
      reduceRuns false t = t ∧ (t.head? ≠ some ' ' → reduceRuns true t = t) := by
    intro t
    induction t with
    | nil => intro _ _; exact ⟨rfl, fun _ => rfl⟩
    | cons c t ih =>
      intro hw hd
      obtain ⟨i1, i2⟩ := ih (fun x hx => hw x (List.mem_cons_of_mem _ hx)) hd.tail
      by_cases hc : isWs c = true
      · have := hw c (by simp) (isWs_iff.mp hc)
        subst this
        have hh : t.head? ≠ some ' ' := by
          intro hh
          cases t with
          | nil => cases hh
          | cons a b =>
            simp at hh; subst hh
            exact hd [] b rfl
        refine ⟨?_, fun h => absurd rfl h⟩
        simp only [reduceRuns, hc, if_true, Bool.false_eq_true, if_false]
        rw [i2 hh]
      · exact ⟨by simp [reduceRuns, hc, i1], fun _ => by simp [reduceRuns, hc, i1]⟩
  exact (key s h1 h2).1

/-! ### escaping -/

theorem escapeXml_cons (c : Char) (s : Str) :
    escapeXml (c :: s) = (if c = '<' then chars "&lt;" else if c = '>' then chars "&gt;" else if c = '&' then chars "&amp;" else [c]) ++ escapeXml s := by
  unfold escapeXml
  rw [List.flatMap_cons]
  congr 1
  split
  · rfl
  · rfl
  · rfl
  · rename_i h1 h2 h3
    rw [if_neg h1, if_neg h2, if_neg h3]

theorem escapeXml_append (a b : Str) : escapeXml (a ++ b) = escapeXml a ++ escapeXml b := by
  unfold escapeXml; exact List.flatMap_append

theorem escape_denotes (s : Str) : Denotes (escapeXml s) s := by
  induction s with
  | nil => exact .nil
  | cons c t ih =>
    rw [escapeXml_cons]
    split
    · rename_i h; subst h
      exact Denotes.entity (e := "lt;".toList) (by decide) ih
    · split
      · rename_i h; subst h
        exact Denotes.entity (e := "gt;".toList) (by decide) ih
      · split
        · rename_i h; subst h
          exact Denotes.entity (e := "amp;".toList) (by decide) ih
        · rename_i h1 h2 h3
          exact .char h1 h3 ih

/-- Two entities that start the same text are the same. -/
theorem entity_unique {e e' : Str} {c c' : Char} {t t' : Str} (h : (e, c) ∈ entities) (h' : (e', c') ∈ entities)
    (ht : e ++ t = e' ++ t') : e = e' ∧ c = c' ∧ t = t' := by
  simp only [entities, List.mem_cons, List.not_mem_nil, or_false, Prod.mk.injEq] at h h'
  rcases h with ⟨rfl, rfl⟩ | ⟨rfl, rfl⟩ | ⟨rfl, rfl⟩ | ⟨rfl, rfl⟩ | ⟨rfl, rfl⟩ <;>
    rcases h' with ⟨rfl, rfl⟩ | ⟨rfl, rfl⟩ | ⟨rfl, rfl⟩ | ⟨rfl, rfl⟩ | ⟨rfl, rfl⟩ <;>
    simp_all

theorem Denotes.unique {t v w : Str} (hv : Denotes t v) (hw : Denotes t w) : v = w := by
  induction hv generalizing w with
  | nil => cases hw; rfl
  | char h1 h2 _ ih =>
    cases hw with
    | char _ _ h => rw [ih h]
    | entity _ _ => exact absurd rfl h2
  | entity he _ ih =>
    generalize hx : '&' :: (_ ++ _) = x at hw
    cases hw with
    | nil => cases hx
    | char _ h2 h => injection hx with hx; exact absurd hx.symm h2
    | entity he' h =>
      injection hx with _ hx
      obtain ⟨-, rfl, rfl⟩ := entity_unique he he' hx
      rw [ih h]

theorem ContentReads.unique {t v w : Str} (hv : ContentReads t v) (hw : ContentReads t w) : v = w := by
  induction hv generalizing w with
  | nil => cases hw; rfl
  | char h0 h1 h2 h3 _ ih =>
    cases hw with
    | char _ _ _ _ h => rw [ih h]
    | entity _ _ => exact absurd rfl h2
    | crlf _ => exact absurd rfl h3
    | cr _ _ => exact absurd rfl h3
  | entity he _ ih =>
    generalize hx : '&' :: (_ ++ _) = x at hw
    cases hw with
    | nil => cases hx
    | char _ _ h2 _ h => injection hx with hx; exact absurd hx.symm h2
    | entity he' h =>
      injection hx with _ hx
      obtain ⟨-, rfl, rfl⟩ := entity_unique he he' hx
      rw [ih h]
    | crlf _ => injection hx with hx; exact absurd hx (by decide)
    | cr _ _ => injection hx with hx; exact absurd hx (by decide)
  | crlf _ ih =>
    cases hw with
    | char _ _ _ h3 h => exact absurd rfl h3
    | crlf h => rw [ih h]
    | cr h0 h => exact absurd rfl h0
  | cr h0 _ ih =>
    cases hw with
    | char _ _ _ h3 h => exact absurd rfl h3
    | crlf h => exact absurd rfl h0
    | cr _ h => rw [ih h]

theorem AttributeReads.unique {t v w : Str} (hv : AttributeReads t v) (hw : AttributeReads t w) : v = w := by
  induction hv generalizing w with
  | nil => cases hw; rfl
  | char h0 h1 h2 h3 _ ih =>
    cases hw with
    | char _ _ _ _ h => rw [ih h]
    | entity _ _ => exact absurd rfl h2
    | tab _ => exact absurd h0 (by decide)
    | newline _ => exact absurd h0 (by decide)
    | crlf _ => exact absurd h0 (by decide)
    | cr _ _ => exact absurd h0 (by decide)
  | entity he _ ih =>
    generalize hx : '&' :: (_ ++ _) = x at hw
    cases hw with
    | nil => cases hx
    | char _ _ h2 _ h => injection hx with hx; exact absurd hx.symm h2
    | entity he' h =>
      injection hx with _ hx
      obtain ⟨-, rfl, rfl⟩ := entity_unique he he' hx
      rw [ih h]
    | tab _ => injection hx with hx; exact absurd hx (by decide)
    | newline _ => injection hx with hx; exact absurd hx (by decide)
    | crlf _ => injection hx with hx; exact absurd hx (by decide)
    | cr _ _ => injection hx with hx; exact absurd hx (by decide)
  | tab _ ih =>
    cases hw with
    | char h0 _ _ _ _ => exact absurd h0 (by decide)
    | tab h => rw [ih h]
  | newline _ ih =>
    cases hw with
    | char h0 _ _ _ _ => exact absurd h0 (by decide)
    | newline h => rw [ih h]
  | crlf _ ih =>
    cases hw with
    | char h0 _ _ _ _ => exact absurd h0 (by decide)
    | crlf h => rw [ih h]
    | cr h0 h => exact absurd rfl h0
  | cr h0 _ ih =>
    cases hw with
    | char h0 _ _ _ _ => exact absurd h0 (by decide)
    | crlf h => exact absurd rfl h0
    | cr _ h => rw [ih h]

theorem content_escape {s : Str} (h : ∀ c ∈ s, XmlChar c ∧ c ≠ '\r') : ContentReads (escapeXml s) s := by
  induction s with
  | nil => exact .nil
  | cons c t ih =>
    have ih := ih (fun x hx => h x (List.mem_cons_of_mem _ hx))
    obtain ⟨h1, h2⟩ := h c (by simp)
    rw [escapeXml_cons]
    split
    · rename_i h; subst h
      exact ContentReads.entity (e := "lt;".toList) (by decide) ih
    · split
      · rename_i h; subst h
        exact ContentReads.entity (e := "gt;".toList) (by decide) ih
      · split
        · rename_i h; subst h
          exact ContentReads.entity (e := "amp;".toList) (by decide) ih
        · rename_i g1 g2 g3
          exact .char h1 g1 g3 h2 ih

theorem attribute_escape {s : Str} (h : ∀ c ∈ s, ' ' ≤ c ∧ c ≠ '"') : AttributeReads (escapeXml s) s := by
  induction s with
  | nil => exact .nil
  | cons c t ih =>
    have ih := ih (fun x hx => h x (List.mem_cons_of_mem _ hx))
    obtain ⟨h1, h2⟩ := h c (by simp)
    rw [escapeXml_cons]
    split
    · rename_i h; subst h
      exact AttributeReads.entity (e := "lt;".toList) (by decide) ih
    · split
      · rename_i h; subst h
        exact AttributeReads.entity (e := "gt;".toList) (by decide) ih
      · split
        · rename_i h; subst h
          exact AttributeReads.entity (e := "amp;".toList) (by decide) ih
        · rename_i g1 g2 g3
          exact .char h1 g1 g3 h2 ih

end Mx
