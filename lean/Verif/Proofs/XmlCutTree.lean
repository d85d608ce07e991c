import Verif.Proofs.XmlCut
import Verif.Proofs.XmlProlog

/-
A text that the parser has accepted, and more text behind it.
-/
open Spec

namespace Mx.Pugi

theorem dropWhile_nil {p : Char → Bool} {s : Str} : s.dropWhile p = [] ↔ ∀ c ∈ s, p c = true := by
  induction s with
  | nil => simp
  | cons c s ih =>
    rw [List.dropWhile_cons]
    split
    · rename_i h
      simp [ih, h]
    · rename_i h
      simp [h]

/-- Text outside of elements is skipped. -/
def behindText (s : Str) : Str := s.dropWhile (fun c => c ≠ '<')

theorem text_outside {s : Str} {st : St} (h : st.stack = []) : text s st = (behindText s, st) := by
  rw [text]
  cases hs : skipWs s with
  | nil =>
    have : behindText s = [] := by
      rw [behindText, dropWhile_nil]
      intro c hc
      rw [skipWs, dropWhile_nil] at hs
      have := hs c hc
      have : c ≠ '<' := by rintro rfl; exact absurd this (by decide)
      simpa using this
    rw [this]
  | cons c r =>
    simp only
    by_cases hc : c = '<'
    · rw [if_pos hc]
      subst hc
      congr 1
      clear h
      induction s with
      | nil => cases hs
      | cons a s ih =>
        cases ha : isSpace a with
        | true =>
          rw [skipWs_space ha] at hs
          rw [ih hs, behindText, behindText]
          have hne : a ≠ '<' := by rintro rfl; exact absurd ha (by decide)
          simp [hne]
        | false =>
          rw [skipWs_cons ha] at hs
          rw [← hs]
          simp only [List.cons.injEq] at hs
          simp [behindText, hs.1]
    · rw [if_neg hc, if_neg (by simp [h])]
      rfl

theorem behindText_length (s : Str) : (behindText s).length ≤ s.length := dropWhile_length _ s

theorem passes_refl (s : Str) (st : St) : Passes s s st st := fun n hn => ⟨n, hn, rfl⟩

theorem passes_outside (s : Str) {st : St} (h : st.stack = []) : Passes s (behindText s) st st := by
  cases s with
  | nil => exact passes_refl _ _
  | cons c r =>
    by_cases hc : c = '<'
    · have : behindText (c :: r) = c :: r := by simp [behindText, hc]
      rw [this]
      exact passes_refl _ _
    · intro n hn
      obtain ⟨n, rfl⟩ : ∃ m, n = m + 1 := ⟨n - 1, by omega⟩
      refine ⟨n, ?_, ?_⟩
      · have e : behindText (c :: r) = behindText r := by simp [behindText, hc]
        rw [e]
        have := behindText_length r
        simp only [List.length_cons] at hn
        omega
      · simp only [parseTree, if_neg hc, text_outside h]

theorem behindText_ext (s q : Str) : behindText (s ++ q) = if behindText s = [] then behindText q else behindText s ++ q := by
  split
  · rename_i h
    rw [behindText, List.dropWhile_append]
    rw [behindText] at h
    rw [h]
    rfl
  · rename_i h
    exact (takeWhile_ext h q).2

theorem parseTree_end {n : Nat} {st x : St} (h : parseTree n [] st = some x) : st.stack = [] ∧ x = st := by
  cases n with
  | zero => simp [parseTree] at h
  | succ n =>
    simp only [parseTree] at h
    split at h
    · rename_i he
      simp only [Option.some.injEq] at h
      exact ⟨by simpa using he, h.symm⟩
    · cases h

theorem parseTree_nil {n : Nat} {st : St} (hn : 0 < n) (h : st.stack = []) : parseTree n [] st = some st := by
  obtain ⟨n, rfl⟩ : ∃ m, n = m + 1 := ⟨n - 1, by omega⟩
  simp [parseTree, h]

theorem add_stack {st : St} (x : XNode) (h : st.stack ≠ []) : (st.add x).stack ≠ [] := by
  obtain ⟨stack, top⟩ := st
  cases stack with
  | nil => exact absurd rfl h
  | cons f fs => simp [St.add]

/-- Behind a text that has been accepted the parser goes on with what it has got, in front of the next tag. -/
theorem parseTree_ext : ∀ {n : Nat} {p : Str} {st st' : St}, parseTree n p st = some st' → st'.stack = [] ∧ ∀ q, Passes (p ++ q) (behindText q) st st' := by
  intro n
  induction n with
  | zero => intro p st st' h; simp [parseTree] at h
  | succ n ih =>
    intro p st st' h
    cases p with
    | nil =>
      obtain ⟨h1, rfl⟩ := parseTree_end h
      exact ⟨h1, fun q => passes_outside q h1⟩
    | cons c r =>
      simp only [parseTree] at h
      by_cases hc : c = '<'
      · rw [if_pos hc] at h
        subst hc
        obtain ⟨x, hx, h⟩ := Option.bind_eq_some_iff.mp h
        obtain ⟨i1, i2⟩ := ih h
        obtain ⟨t1, t2⟩ := tag_ext hx
        refine ⟨i1, fun q => ?_⟩
        exact (passes_tag (t2 q) (by simp only [List.length_append]; omega)).trans (i2 q)
      · rw [if_neg hc] at h
        obtain ⟨i1, i2⟩ := ih h
        refine ⟨i1, fun q => ?_⟩
        by_cases hs : st.stack = []
        · rw [text_outside hs] at h i2
          have h0 := passes_outside (c :: r ++ q) hs
          rw [behindText_ext] at h0
          split at h0
          · rename_i he
            simp only [he] at h
            obtain ⟨-, rfl⟩ := parseTree_end h
            exact h0
          · exact h0.trans (i2 q)
        · have hstep : text (c :: r ++ q) st = ((text (c :: r) st).1 ++ q, (text (c :: r) st).2) ∧ (text (c :: r) st).1.length ≤ r.length := by
            rw [text, text] at *
            cases hw : skipWs (c :: r) with
            | nil =>
              rw [hw] at h
              exact absurd (parseTree_end h).1 hs
            | cons a r' =>
              rw [skipWs_ext (by rw [hw]; simp) q, hw]
              rw [hw] at h
              simp only [List.cons_append] at h ⊢
              by_cases ha : a = '<'
              · rw [if_pos ha, if_pos ha]
                refine ⟨rfl, ?_⟩
                have hsp : isSpace c = true := by
                  cases hb : isSpace c with
                  | true => rfl
                  | false =>
                    rw [skipWs_cons hb] at hw
                    simp only [List.cons.injEq] at hw
                    exact absurd (hw.1.trans ha) hc
                rw [skipWs_space hsp] at hw
                rw [← hw]
                exact skipWs_length r
              · rw [if_neg ha, if_pos hs] at h
                rw [if_neg ha, if_pos hs, if_neg ha, if_pos hs]
                have hlt : (c :: r).length < (c :: r).length + 1 := by omega
                have hne : (pcdata ((c :: r).length + 1) (c :: r)).2 ≠ [] := by
                  intro e
                  simp only at h
                  rw [e] at h
                  exact absurd (parseTree_end h).1 (add_stack _ hs)
                have := pcdata_ext hlt hne ((c :: r ++ q).length + 1) q (by simp)
                simp only [List.cons_append] at this
                rw [this]
                refine ⟨rfl, ?_⟩
                obtain ⟨hr, hsuf⟩ := pcdata_rest hlt
                rcases hr with hr | ⟨r2, hr⟩
                · exact absurd hr hne
                · simp only [hr] at hsuf ⊢
                  rcases List.suffix_cons_iff.mp hsuf with e | e
                  · simp only [List.cons.injEq] at e
                    exact absurd e.1.symm hc
                  · exact e.length_le
          refine Passes.trans (b := (text (c :: r) st).1 ++ q) (s2 := (text (c :: r) st).2) ?_ (i2 q)
          intro m hm
          obtain ⟨m, rfl⟩ : ∃ k, m = k + 1 := ⟨m - 1, by omega⟩
          refine ⟨m, ?_, ?_⟩
          · simp only [List.cons_append, List.length_cons, List.length_append] at hm ⊢
            omega
          · have e : parseTree (m + 1) (c :: r ++ q) st = parseTree m (text (c :: r ++ q) st).1 (text (c :: r ++ q) st).2 := by
              show (if c = '<' then _ else _) = _
              rw [if_neg hc]
              rfl
            rw [e, hstep.1]

/-- How many steps are allowed makes no difference. -/
theorem parseTree_fuel {n : Nat} {p : Str} {st st' : St} (h : parseTree n p st = some st') {m : Nat} (hm : p.length < m) : parseTree m p st = some st' := by
  obtain ⟨h1, h2⟩ := parseTree_ext h
  have := h2 [] m (by simpa using hm)
  rw [List.append_nil] at this
  obtain ⟨k, hk, e⟩ := this
  rw [e]
  exact parseTree_nil (by simpa [behindText] using hk) h1

/-! ### What is there stays there -/

/-- The nodes of the document only grow, and an element that is open must be closed before the end. -/
def Grows (st st' : St) : Prop := st.top <:+ st'.top ∧ (st.stack ≠ [] → st'.stack ≠ [] ∨ st.top.length < st'.top.length)

theorem grows_refl (st : St) : Grows st st := ⟨List.suffix_refl _, fun h => .inl h⟩

theorem grows_add (st : St) (x : XNode) : Grows st (st.add x) := by
  obtain ⟨stack, top⟩ := st
  cases stack with
  | nil => exact ⟨List.suffix_cons x top, fun h => absurd rfl h⟩
  | cons f fs => exact ⟨List.suffix_refl _, fun _ => .inl (by simp [St.add])⟩

theorem grows_push (st : St) (f : Frame) : Grows st (st.push f) := ⟨List.suffix_refl _, fun _ => .inl (by simp [St.push])⟩

theorem grows_pop (f : Frame) (fs : List Frame) (top : List XNode) (x : XNode) : Grows ⟨f :: fs, top⟩ (St.add x ⟨fs, top⟩) := by
  cases fs with
  | nil => exact ⟨List.suffix_cons x top, fun _ => .inr (by simp [St.add])⟩
  | cons g gs => exact ⟨List.suffix_refl _, fun _ => .inl (by simp [St.add])⟩

theorem grows_opened (d : Bool) (n : Str) (st : St) (x : List (Str × Str) × Bool × Str) : Grows st (opened d n st x).2 := by
  simp only [opened]
  split
  · exact grows_add _ _
  · exact grows_push _ _

theorem grows_trans {a b c : St} (h1 : Grows a b) (h2 : Grows b c) : Grows a c := by
  refine ⟨h1.1.trans h2.1, fun h => ?_⟩
  have l1 := h1.1.length_le
  have l2 := h2.1.length_le
  rcases h1.2 h with h' | h'
  · rcases h2.2 h' with h' | h'
    · exact .inl h'
    · exact .inr (by omega)
  · exact .inr (by omega)

theorem grows_tag {s : Str} {st : St} {x : Str × St} (h : tag s st = some x) : Grows st x.2 := by
  unfold tag at h
  cases s with
  | nil => cases h
  | cons c r =>
    simp only at h
    split at h
    · unfold startTag at h
      split at h
      · cases h
      · split at h
        · simp only [Option.some.injEq] at h; subst h; exact grows_push _ _
        · split at h
          · obtain ⟨y, -, rfl⟩ := Option.map_eq_some_iff.mp h
            exact grows_opened _ _ _ _
          · split at h
            · simp only [Option.some.injEq] at h; subst h; exact grows_add _ _
            · cases h
    · split at h
      · unfold endTag at h
        obtain ⟨stack, top⟩ := st
        cases stack with
        | nil => cases h
        | cons f fs =>
          simp only at h
          split at h
          · split at h
            · simp only [Option.some.injEq] at h; subst h; exact grows_pop _ _ _ _
            · cases h
          · cases h
      · split at h
        · unfold question at h
          split at h
          · split at h
            · cases h
            · split at h
              · cases h
              · split at h
                · split at h
                  · simp only [Option.some.injEq] at h; subst h; exact grows_add _ _
                  · cases h
                · split at h
                  · split at h
                    · cases h
                    · split at h
                      · obtain ⟨y, -, rfl⟩ := Option.map_eq_some_iff.mp h
                        exact grows_opened _ _ _ _
                      · simp only [Option.some.injEq] at h; subst h; exact grows_add _ _
                  · cases h
          · cases h
        · split at h
          · unfold exclamation at h
            split at h
            · obtain ⟨y, -, rfl⟩ := Option.map_eq_some_iff.mp h
              exact grows_refl _
            · obtain ⟨y, -, rfl⟩ := Option.map_eq_some_iff.mp h
              exact grows_add _ _
            · unfold doctypeTag at h
              split at h
              · cases h
              · obtain ⟨y, -, rfl⟩ := Option.map_eq_some_iff.mp h
                exact grows_add _ _
            · cases h
          · cases h

theorem grows_text (s : Str) (st : St) : Grows st (text s st).2 := by
  rw [text]
  split
  · exact grows_refl _
  · split
    · exact grows_refl _
    · split
      · exact grows_add _ _
      · exact grows_refl _

theorem grows_tree : ∀ {n : Nat} {s : Str} {st st' : St}, parseTree n s st = some st' → Grows st st' := by
  intro n
  induction n with
  | zero => intro s st st' h; simp [parseTree] at h
  | succ n ih =>
    intro s st st' h
    cases s with
    | nil => obtain ⟨-, rfl⟩ := parseTree_end h; exact grows_refl _
    | cons c r =>
      simp only [parseTree] at h
      split at h
      · obtain ⟨x, hx, h⟩ := Option.bind_eq_some_iff.mp h
        exact grows_trans (grows_tag hx) (ih h)
      · exact grows_trans (grows_text _ _) (ih h)

/-- What was accepted and more text behind it: refused, or the same nodes with others behind them. -/
theorem parseTree_more {n m : Nat} {p q : Str} {st a b : St} (h1 : parseTree n p st = some a) (h2 : parseTree m (p ++ q) st = some b) : a.top <:+ b.top ∧ (st.stack ≠ [] → st.top.length < a.top.length) := by
  obtain ⟨e1, e2⟩ := parseTree_ext h1
  have h3 := parseTree_fuel h2 (Nat.lt_succ_self _)
  obtain ⟨k, -, e⟩ := e2 q _ (Nat.lt_succ_self _)
  rw [e] at h3
  refine ⟨(grows_tree h3).1, fun hs => ?_⟩
  rcases (grows_tree h1).2 hs with h | h
  · exact absurd e1 h
  · exact h

/-! ### `parse` -/

theorem cString_split (s : Str) : cString s = s ∨ ∀ q, cString (s ++ q) = cString s := by
  by_cases h : '\x00' ∈ s
  · right
    intro q
    induction s with
    | nil => simp at h
    | cons c s ih =>
      simp only [cString, List.cons_append, List.takeWhile_cons]
      split
      · rename_i hc
        have hc : c ≠ '\x00' := by simpa using hc
        rcases List.mem_cons.mp h with e | e
        · exact absurd e.symm hc
        · have := ih e
          simp only [cString] at this
          rw [this]
      · rfl
  · exact .inl (cString_self h)

theorem cString_more {s : Str} (h : cString s = s) (q : Str) : cString (s ++ q) = s ++ cString q := by
  simp only [cString] at h ⊢
  rw [List.takeWhile_append, h]
  simp

theorem parseTree_no_tag {s : Str} (h : '<' ∉ s) {n : Nat} {st : St} (hp : parseTree n s {} = some st) : st = {} := by
  have h1 := parseTree_fuel hp (Nat.lt_succ_self _)
  obtain ⟨m, hm, e⟩ := passes_outside s (st := {}) rfl _ (Nat.lt_succ_self _)
  have : behindText s = [] := by
    rw [behindText, dropWhile_nil]
    intro c hc
    have : c ≠ '<' := by rintro rfl; exact h hc
    simpa using this
  rw [e, this] at h1
  exact (parseTree_end h1).2

theorem skipBom_length (s : Str) : (skipBom s).length ≤ s.length := by
  rw [skipBom]
  split
  · simp
  · exact Nat.le_refl _

theorem skipBom_more (p q : Str) : skipBom (p ++ q) = skipBom p ++ q ∨ skipBom p = p ∧ '<' ∉ p := by
  by_cases hl : 3 ≤ p.length
  · left
    rw [skipBom, skipBom, List.take_append_of_le_length hl]
    split
    · rw [List.drop_append_of_le_length hl]
    · rfl
  · by_cases h : (p ++ q).take 3 = ['\xef', '\xbb', '\xbf']
    · right
      have hp : p.take 3 = p := List.take_of_length_le (by omega)
      constructor
      · rw [skipBom, if_neg]
        intro e
        have := congrArg List.length e
        simp at this
        omega
      · intro hm
        have : '<' ∈ (p ++ q).take 3 := by
          rw [List.take_append, hp]
          exact List.mem_append_left _ hm
        rw [h] at this
        exact absurd this (by decide)
    · left
      rw [skipBom, if_neg h, skipBom, if_neg]
      intro e
      have := congrArg List.length e
      simp at this
      omega

theorem parse_some {s : Str} {d : List XNode} : parse s = some d ↔ ∃ st, parseTree (s.length + 1) (skipBom (cString s)) {} = some st ∧ st.top.any XNode.isElem = true ∧ d = st.top.reverse := by
  rw [parse]
  cases parseTree (s.length + 1) (skipBom (cString s)) {} with
  | none => simp
  | some st =>
    simp only [Option.some.injEq]
    split
    · rename_i h
      simp [h, eq_comm]
    · rename_i h
      simp [h]

/-- Text behind a text that is accepted: the whole is refused, or stands for the same nodes and others behind them. -/
theorem parse_more {p q : Str} {d d' : List XNode} (h : parse p = some d) (h' : parse (p ++ q) = some d') : d <+: d' := by
  obtain ⟨a, ha, hae, rfl⟩ := parse_some.mp h
  obtain ⟨b, hb, -, rfl⟩ := parse_some.mp h'
  rw [List.reverse_prefix]
  rcases cString_split p with e | e
  · rw [e] at ha
    rw [cString_more e] at hb
    rcases skipBom_more p (cString q) with e' | ⟨e1, e2⟩
    · rw [e'] at hb
      exact (parseTree_more ha hb).1
    · rw [e1] at ha
      rw [parseTree_no_tag e2 ha] at hae
      simp at hae
  · rw [e q] at hb
    have hl : (skipBom (cString p)).length < (p ++ q).length + 1 := by
      have h1 := skipBom_length (cString p)
      have h2 : (cString p).length ≤ p.length := (List.takeWhile_prefix _).length_le
      rw [List.length_append]
      omega
    rw [parseTree_fuel ha hl, Option.some.injEq] at hb
    rw [hb]
    exact List.suffix_refl _

end Mx.Pugi
