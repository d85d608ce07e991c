import Verif.Proofs.XmlChars

/-
A document that is spelt out piece by piece is parsed into the nodes the pieces stand for.
-/
open Spec
namespace Mx.Pugi

/-! ### Start tags -/

theorem attributes_congr (n : Nat) {s s' : Str} (h : skipWs s = skipWs s') : attributes n s = attributes n s' := by
  cases n with
  | zero => rfl
  | succ n => simp only [attributes, h]

/-- The end of a start tag: `>` or `/>`, and the rest behind it. -/
def TagEnd (t : Str) (closed : Bool) (rest : Str) : Prop := t = '>' :: rest ∧ closed = false ∨ t = '/' :: '>' :: rest ∧ closed = true

theorem tagEnd_cons {t rest : Str} {b : Bool} (h : TagEnd t b rest) : ∃ c r, t = c :: r ∧ isSpace c = false ∧ isSymbol c = false ∧ isStart c = false := by
  rcases h with ⟨rfl, -⟩ | ⟨rfl, -⟩
  · exact ⟨_, _, rfl, by decide, by decide, by decide⟩
  · exact ⟨_, _, rfl, by decide, by decide, by decide⟩

theorem no_start {w : Str} (h : ∀ c ∈ w, XmlSpace c) {t : Str} (ht : ∃ c r, t = c :: r ∧ isSpace c = false ∧ isSymbol c = false ∧ isStart c = false) :
    startsName (w ++ t) = false := by
  cases w with
  | nil =>
    obtain ⟨c, r, rfl, -, -, hc⟩ := ht
    simpa [startsName] using hc
  | cons c w =>
    have := space_not_start ((isSpace_iff c).mpr (h c List.mem_cons_self))
    simpa [startsName] using this

theorem attr_text (a : AttrText) : a.text = a.gap ++ (a.name ++ (a.before ++ ('=' :: (a.behind ++ (a.quote :: (a.spelt ++ [a.quote])))))) := by
  simp [AttrText.text, List.append_assoc]

theorem attributes_spelt (as : List AttrText) : ∀ (n : Nat) (g t rest : Str) (closed : Bool), (∀ a ∈ as, a.Ok) → (∀ c ∈ g, XmlSpace c) → TagEnd t closed rest → as.length < n →
    attributes n (as.flatMap AttrText.text ++ (g ++ t)) = some (attrValues as, closed, rest) := by
  induction as with
  | nil =>
    intro n g t rest closed _ hg ht hn
    obtain ⟨n, rfl⟩ : ∃ m, n = m + 1 := ⟨n - 1, by omega⟩
    have h1 : skipWs (([] : List AttrText).flatMap AttrText.text ++ (g ++ t)) = t := by
      obtain ⟨c, r, rfl, hc, -⟩ := tagEnd_cons ht
      show skipWs (g ++ (c :: r)) = _
      rw [skipWs_append hg, skipWs_cons hc]
    have h2 : startsName t = false := no_start (w := []) (by simp) (tagEnd_cons ht)
    simp only [attributes, h1, h2]
    rcases ht with ⟨rfl, rfl⟩ | ⟨rfl, rfl⟩ <;> rfl
  | cons a as ih =>
    intro n g t rest closed ha hg ht hn
    obtain ⟨n, rfl⟩ : ∃ m, n = m + 1 := ⟨n - 1, by omega⟩
    obtain ⟨hgap, hws, hname, hquote, hval⟩ := ha a List.mem_cons_self
    have hih := ih n g t rest closed (fun x hx => ha x (List.mem_cons_of_mem a hx)) hg ht (by simp at hn; omega)
    have hZ : startsName (as.flatMap AttrText.text ++ (g ++ t)) = false := by
      cases as with
      | nil => exact no_start hg (tagEnd_cons ht)
      | cons b bs =>
        obtain ⟨hb1, hb2, -⟩ := ha b (List.mem_cons_of_mem a List.mem_cons_self)
        rw [List.flatMap_cons, attr_text]
        cases hgb : b.gap with
        | nil => exact absurd hgb hb1
        | cons c w =>
          have : XmlSpace c := hb2 c (by simp [hgb])
          have := space_not_start ((isSpace_iff c).mpr this)
          simpa [startsName] using this
    generalize hZe : as.flatMap AttrText.text ++ (g ++ t) = Z at hih hZ
    have hs : (a :: as).flatMap AttrText.text ++ (g ++ t) = a.gap ++ (a.name ++ (a.before ++ ('=' :: (a.behind ++ (a.quote :: (a.spelt ++ a.quote :: Z)))))) := by
      rw [← hZe, List.flatMap_cons, attr_text]
      simp [List.append_assoc]
    have hsp1 : ∀ c ∈ a.gap, XmlSpace c := fun c hc => hws c (by simp [hc])
    have hsp2 : ∀ c ∈ a.before, XmlSpace c := fun c hc => hws c (by simp [hc])
    have hsp3 : ∀ c ∈ a.behind, XmlSpace c := fun c hc => hws c (by simp [hc])
    have h1 : ∀ X, skipWs (a.gap ++ (a.name ++ X)) = a.name ++ X := by
      intro X
      obtain ⟨⟨c, r, hcr, hc⟩, -⟩ := hname
      have hnc : isSpace c = false := by
        cases hsc : isSpace c with
        | false => rfl
        | true =>
          have h1 := space_not_start hsc
          rw [(isStart_iff c).mpr hc] at h1
          exact absurd h1 (by decide)
      rw [skipWs_append hsp1, hcr]
      exact skipWs_cons hnc _
    have hends : ∀ X, Ends (a.before ++ '=' :: X) := fun X => ends_space hsp2 (ends_cons (by decide) X)
    have h2 := name_take hname (hends (a.behind ++ (a.quote :: (a.spelt ++ a.quote :: Z))))
    have h3 : ∀ X, skipWs (a.before ++ '=' :: X) = '=' :: X := fun X => by
      rw [skipWs_append hsp2, skipWs_cons (by decide)]
    have h4 : ∀ X, skipWs (a.behind ++ a.quote :: X) = a.quote :: X := fun X => by
      rw [skipWs_append hsp3, skipWs_cons (by rcases hquote with h | h <;> rw [h] <;> decide)]
    have h5 := spelt_value hquote hval ((a.spelt ++ a.quote :: Z).length + 1) Z (by simp; omega)
    have h6 := cString_self (spelt_value_zero hval)
    rw [hs]
    simp only [attributes, h1, name_starts hname, if_true, h2.1, h2.2, h3, h4, hquote, h5, hZ, hih, h6]
    rfl

theorem startTag_spelt {n : Str} {as : List AttrText} {g t rest : Str} {closed : Bool} (h : TagOk n as g) (ht : TagEnd t closed rest) (st : St) :
    tag (n ++ (as.flatMap AttrText.text ++ (g ++ t))) st = some (opened false n st (attrValues as, closed, rest)) := by
  obtain ⟨hn, ha, hg⟩ := h
  have hst : tag (n ++ (as.flatMap AttrText.text ++ (g ++ t))) st = startTag (n ++ (as.flatMap AttrText.text ++ (g ++ t))) st := by
    obtain ⟨⟨c, r, rfl, hc⟩, -⟩ := hn
    rw [List.cons_append, tag, if_pos ((isStart_iff c).mpr hc)]
  rw [hst]
  -- the first character behind the name
  have key : (as = [] ∧ g = []) ∨ ∃ c s, as.flatMap AttrText.text ++ (g ++ t) = c :: s ∧ isSpace c = true := by
    cases as with
    | nil =>
      cases g with
      | nil => exact .inl ⟨rfl, rfl⟩
      | cons c g => exact .inr ⟨c, g ++ t, rfl, (isSpace_iff c).mpr (hg c List.mem_cons_self)⟩
    | cons a as =>
      right
      obtain ⟨hgap, hws, -⟩ := ha a List.mem_cons_self
      cases hga : a.gap with
      | nil => exact absurd hga hgap
      | cons c w =>
        rw [List.flatMap_cons, attr_text, hga]
        exact ⟨c, _, rfl, (isSpace_iff c).mpr (hws c (by simp [hga]))⟩
  rcases key with ⟨rfl, rfl⟩ | ⟨c, s, hcs, hc⟩
  · obtain ⟨c, r, htc, -, hcs, -⟩ := tagEnd_cons ht
    have hE : Ends t := by rw [htc]; exact ends_cons hcs r
    have h2 := name_take hn hE
    show startTag (n ++ t) st = _
    rw [startTag, h2.1, h2.2]
    rcases ht with ⟨rfl, rfl⟩ | ⟨rfl, rfl⟩
    · rfl
    · rfl
  · have hE : Ends (as.flatMap AttrText.text ++ (g ++ t)) := by rw [hcs]; exact ends_cons (space_not_symbol hc) s
    have h2 := name_take hn hE
    have hlen : as.length < s.length + 1 := by
      have h1 : as.length ≤ (as.flatMap AttrText.text).length := by
        clear hE h2 hcs hst
        induction as with
        | nil => simp
        | cons a as ih =>
          have := ih (fun x hx => ha x (List.mem_cons_of_mem a hx))
          rw [List.flatMap_cons, attr_text]
          simp only [List.length_append, List.length_cons, List.length_nil]
          omega
      have h3 := congrArg List.length hcs
      simp only [List.length_append, List.length_cons] at h3
      obtain ⟨c', r', htc, -⟩ := tagEnd_cons ht
      have : 0 < t.length := by rw [htc]; simp
      omega
    have h4 := attributes_spelt as (s.length + 1) g t rest closed ha hg ht hlen
    have h5 : attributes (s.length + 1) s = attributes (s.length + 1) (as.flatMap AttrText.text ++ (g ++ t)) := by
      apply attributes_congr
      rw [hcs, skipWs_space hc]
    have hgt : c ≠ '>' := by rintro rfl; exact absurd hc (by decide)
    rw [startTag, h2.1, h2.2, hcs]
    show (if c = '>' then _ else if isSpace c = true then (attributes (s.length + 1) s).map _ else _) = _
    rw [if_neg hgt, if_pos hc, h5, h4]
    rfl

/-! ### End tags, comments, instructions -/

theorem endTag_spelt {n g : Str} (hn : XmlName n) (hg : ∀ c ∈ g, XmlSpace c) (rest : Str) (f : Frame) (hf : f.name = n) (fs : List Frame) (top : List XNode) :
    tag ('/' :: n ++ g ++ '>' :: rest) ⟨f :: fs, top⟩ = some (rest, St.add f.node ⟨fs, top⟩) := by
  have h1 := name_take hn (ends_space hg (ends_cons (c := '>') (by decide) rest))
  have h2 : skipWs (g ++ '>' :: rest) = '>' :: rest := by rw [skipWs_append hg, skipWs_cons (by decide)]
  rw [List.append_assoc, List.cons_append, tag, if_neg (by decide), if_pos rfl, endTag]
  simp only [h1.1, h1.2, h2, hf, if_true]

theorem behindComment_spelt (s : Str) (h1 : ¬ ("--".toList <:+: s)) (h2 : s.getLast? ≠ some '-') (rest : Str) :
    behindComment (s ++ '-' :: '-' :: '>' :: rest) = some rest := by
  induction s with
  | nil => rfl
  | cons c s ih =>
    have h1' : ¬ ("--".toList <:+: s) := fun hx => h1 (hx.trans (List.infix_cons (List.infix_refl s)))
    have h2' : s.getLast? ≠ some '-' := by
      intro hx
      apply h2
      cases s with
      | nil => simp at hx
      | cons a s => rw [List.getLast?_cons_cons]; exact hx
    have hstep : ∀ q, c :: (s ++ '-' :: '-' :: '>' :: rest) ≠ '-' :: '-' :: '>' :: q := by
      intro q hq
      simp only [List.cons.injEq] at hq
      obtain ⟨rfl, hq⟩ := hq
      cases s with
      | nil => exact h2 rfl
      | cons a s =>
        simp only [List.cons_append, List.cons.injEq] at hq
        obtain ⟨rfl, -⟩ := hq
        exact h1 ⟨[], s, rfl⟩
    rw [List.cons_append, behindComment]
    · exact ih h1' h2'
    · intro q hc hq
      exact hstep q (by rw [hc, hq])

theorem comment_spelt (s : Str) (h1 : ¬ ("--".toList <:+: s)) (h2 : s.getLast? ≠ some '-') (rest : Str) (st : St) :
    tag ('!' :: '-' :: '-' :: s ++ '-' :: '-' :: '>' :: rest) st = some (rest, st) := by
  have h := behindComment_spelt s h1 h2 rest
  rw [List.cons_append, tag, if_neg (by decide), if_neg (by decide), if_neg (by decide), if_pos rfl]
  show (behindComment (s ++ '-' :: '-' :: '>' :: rest)).map _ = _
  rw [h]
  rfl

theorem uptoQuestion_spelt (d : Str) (h : ¬ ("?>".toList <:+: d)) (rest : Str) : uptoQuestion (d ++ '?' :: '>' :: rest) = some (d, '?' :: '>' :: rest) := by
  induction d with
  | nil => rfl
  | cons c d ih =>
    have h' : ¬ ("?>".toList <:+: d) := fun hx => h (hx.trans (List.infix_cons (List.infix_refl d)))
    rw [List.cons_append, uptoQuestion, ih h']
    · rfl
    · intro q hc hq
      subst hc
      cases d with
      | nil => simp at hq
      | cons a d =>
        simp only [List.cons_append, List.cons.injEq] at hq
        obtain ⟨rfl, -⟩ := hq
        exact h ⟨[], d, rfl⟩

theorem instruction_spelt {n g d : Str} (h : InstructionOk n g d) (rest : Str) (st : St) :
    tag ('?' :: n ++ g ++ d ++ '?' :: '>' :: rest) st = some (rest, st.add (.pi n (some d))) := by
  obtain ⟨hn, hxml, hg, hgs, hd, hd0, -⟩ := h
  cases hgc : g with
  | nil => exact absurd hgc hg
  | cons c w =>
    rw [hgc] at hgs
    have hc : isSpace c = true := (isSpace_iff c).mpr (hgs c List.mem_cons_self)
    have hcq : c ≠ '?' := by rintro rfl; exact absurd hc (by decide)
    have hw : ∀ x ∈ w, XmlSpace x := fun x hx => hgs x (List.mem_cons_of_mem c hx)
    have h1 := name_take hn (ends_cons (space_not_symbol hc) (w ++ (d ++ '?' :: '>' :: rest)))
    have h2 : skipWs (w ++ (d ++ '?' :: '>' :: rest)) = d ++ '?' :: '>' :: rest := by
      rw [skipWs_append hw]
      cases d with
      | nil => exact skipWs_cons (by decide) _
      | cons a d =>
        have := hd0 a d rfl
        refine skipWs_cons ?_ _
        cases ha : isSpace a with
        | false => rfl
        | true => exact absurd ((isSpace_iff a).mp ha) this
    have h3 := uptoQuestion_spelt d hd rest
    have hx : isXml n = false := by
      rw [isXml, decide_eq_false_iff_not]
      exact hxml
    have e1 : '?' :: n ++ c :: w ++ d ++ '?' :: '>' :: rest = '?' :: (n ++ (c :: (w ++ (d ++ '?' :: '>' :: rest)))) := by simp
    rw [e1, tag, if_neg (by decide), if_neg (by decide), if_pos rfl, question, if_pos (name_starts hn _), h1.1, h1.2]
    simp only [hx, hcq, hc, h2, h3]
    rfl

theorem bare_spelt {n : Str} (hn : XmlName n) (hxml : n.map Char.toLower ≠ "xml".toList) (rest : Str) (st : St) :
    tag ('?' :: n ++ '?' :: '>' :: rest) st = some (rest, st.add (.pi n none)) := by
  have h1 := name_take hn (ends_cons (c := '?') (by decide) ('>' :: rest))
  have hx : isXml n = false := by
    rw [isXml, decide_eq_false_iff_not]
    exact hxml
  rw [List.cons_append, tag, if_neg (by decide), if_neg (by decide), if_pos rfl, question, if_pos (name_starts hn _), h1.1, h1.2]
  simp only [hx]
  rfl

theorem cdataText_spelt : ∀ (s : Str) (_ : ¬ ("]]>".toList <:+: s)) (rest : Str), cdataText (s ++ ']' :: ']' :: '>' :: rest) = some (lineEnds s, rest)
  | [], _, rest => rfl
  | c :: s, h, rest => by
    have h' : ¬ ("]]>".toList <:+: s) := fun hx => h (hx.trans (List.infix_cons (List.infix_refl s)))
    have ih := cdataText_spelt s h' rest
    by_cases hc : c = '\r'
    · subst hc
      cases s with
      | nil => rfl
      | cons b s =>
        by_cases hb : b = '\n'
        · subst hb
          have h'' : ¬ ("]]>".toList <:+: s) := fun hx => h' (hx.trans (List.infix_cons (List.infix_refl s)))
          have ih' := cdataText_spelt s h'' rest
          show (cdataText (s ++ ']' :: ']' :: '>' :: rest)).map _ = _
          rw [ih']
          rfl
        · have e1 : cdataText ('\r' :: b :: s ++ ']' :: ']' :: '>' :: rest) = (cdataText (b :: s ++ ']' :: ']' :: '>' :: rest)).map fun x => ('\n' :: x.1, x.2) := by
            rw [List.cons_append, cdataText]
            intro r hr
            simp at hr
            exact hb hr.1
          rw [e1, ih, lineEnds]
          · rfl
          · intro r hr
            simp at hr
            exact hb hr.1
    · have e1 : cdataText (c :: s ++ ']' :: ']' :: '>' :: rest) = (cdataText (s ++ ']' :: ']' :: '>' :: rest)).map fun x => (c :: x.1, x.2) := by
        rw [List.cons_append, cdataText]
        · intro r hcc hr
          subst hcc
          cases s with
          | nil => simp at hr
          | cons a s =>
            simp only [List.cons_append, List.cons.injEq] at hr
            obtain ⟨rfl, hr⟩ := hr
            cases s with
            | nil => simp at hr
            | cons b s =>
              simp only [List.cons_append, List.cons.injEq] at hr
              obtain ⟨rfl, -⟩ := hr
              exact h ⟨[], s, rfl⟩
        · intro r hcc _
          exact hc hcc
        · exact hc
      rw [e1, ih, lineEnds]
      · rfl
      · intro r hcc _
        exact hc hcc
      · exact hc

theorem cdata_spelt (s : Str) (h : ¬ ("]]>".toList <:+: s)) (rest : Str) (st : St) :
    tag ('!' :: '[' :: 'C' :: 'D' :: 'A' :: 'T' :: 'A' :: '[' :: (s ++ ']' :: ']' :: '>' :: rest)) st = some (rest, st.add (.cdata (lineEnds s))) := by
  rw [tag, if_neg (by decide), if_neg (by decide), if_neg (by decide), if_pos rfl]
  show (cdataText (s ++ ']' :: ']' :: '>' :: rest)).map _ = _
  rw [cdataText_spelt s h rest]
  rfl

/-! ### Pieces -/

/-- White space, then a tag or the end. -/
def Tagged (s : Str) : Prop := skipWs s = [] ∨ ∃ r, skipWs s = '<' :: r

theorem tagged_lt (r : Str) : Tagged ('<' :: r) := .inr ⟨r, skipWs_cons (by decide) r⟩

theorem tagged_nil : Tagged [] := .inl rfl

theorem tagged_space {w : Str} (h : ∀ c ∈ w, XmlSpace c) {s : Str} (hs : Tagged s) : Tagged (w ++ s) := by
  rw [Tagged, skipWs_append h]
  exact hs

theorem piece_tagged {p : XmlPiece} (h : p.Ok) {s : Str} (hs : Tagged s) : Tagged (p.text' ++ s) := by
  cases p with
  | space w => exact tagged_space h hs
  | comment s => exact tagged_lt _
  | instruction n g d => exact tagged_lt _
  | bare n => exact tagged_lt _
  | cdata n a g s g' => exact tagged_lt _
  | empty n a g => exact tagged_lt _
  | text n a g e v g' => exact tagged_lt _
  | node n a g ks g' => exact tagged_lt _

theorem pieces_tagged {l : List XmlPiece} (h : PiecesOk l) {s : Str} (hs : Tagged s) : Tagged (piecesText l ++ s) := by
  induction l with
  | nil => exact hs
  | cons p ps ih =>
    rw [piecesText, List.append_assoc]
    exact piece_tagged h.1 (ih h.2)

/-- Nodes one after the other. -/
def St.addAll (st : St) (l : List XNode) : St := l.foldl (fun st x => st.add x) st

theorem addAll_append (st : St) (a b : List XNode) : st.addAll (a ++ b) = (st.addAll a).addAll b := List.foldl_append

theorem addAll_frame (f : Frame) (fs : List Frame) (top : List XNode) (l : List XNode) :
    St.addAll ⟨f :: fs, top⟩ l = ⟨{ f with kids := l.reverse ++ f.kids } :: fs, top⟩ := by
  induction l generalizing f with
  | nil => rfl
  | cons x l ih =>
    show St.addAll (St.add x ⟨f :: fs, top⟩) l = _
    rw [show St.add x ⟨f :: fs, top⟩ = ⟨{ f with kids := x :: f.kids } :: fs, top⟩ from rfl, ih]
    simp

theorem addAll_top (top : List XNode) (l : List XNode) : St.addAll ⟨[], top⟩ l = ⟨[], l.reverse ++ top⟩ := by
  induction l generalizing top with
  | nil => rfl
  | cons x l ih =>
    show St.addAll (St.add x ⟨[], top⟩) l = _
    rw [show St.add x ⟨[], top⟩ = ⟨[], x :: top⟩ from rfl, ih]
    simp

/-- The parser gets over a text and is at the rest, with nodes added. -/
def Passes (s rest : Str) (st st' : St) : Prop :=
  ∀ n, s.length < n → ∃ m, rest.length < m ∧ parseTree n s st = parseTree m rest st'

theorem Passes.trans {a b c : Str} {s1 s2 s3 : St} (h1 : Passes a b s1 s2) (h2 : Passes b c s2 s3) : Passes a c s1 s3 := by
  intro n hn
  obtain ⟨m, hm, e⟩ := h1 n hn
  obtain ⟨k, hk, e'⟩ := h2 m hm
  exact ⟨k, hk, e.trans e'⟩

theorem passes_tag {r rest : Str} {st st' : St} (h : tag r st = some (rest, st')) (hlen : rest.length ≤ r.length) : Passes ('<' :: r) rest st st' := by
  intro n hn
  obtain ⟨n, rfl⟩ : ∃ m, n = m + 1 := ⟨n - 1, by omega⟩
  refine ⟨n, ?_, ?_⟩
  · simp only [List.length_cons] at hn
    omega
  · simp only [parseTree, if_true, h]
    rfl

theorem text_space {c : Char} {r : Str} (hc : isSpace c = true) (hr : Tagged r) (st : St) : text (c :: r) st = (skipWs r, st) := by
  rw [text, skipWs_space hc]
  rcases hr with h | ⟨r', h⟩
  · rw [h]
  · rw [h]
    simp

theorem passes_space {w : Str} (h : ∀ c ∈ w, XmlSpace c) {s : Str} (hs : Tagged s) (st : St) : Passes (w ++ s) s st st := by
  intro n hn
  cases w with
  | nil => exact ⟨n, hn, rfl⟩
  | cons c w =>
    obtain ⟨n, rfl⟩ : ∃ m, n = m + 1 := ⟨n - 1, by omega⟩
    have hc : isSpace c = true := (isSpace_iff c).mpr (h c List.mem_cons_self)
    have hne : c ≠ '<' := by rintro rfl; exact absurd hc (by decide)
    have hw : ∀ x ∈ w, XmlSpace x := fun x hx => h x (List.mem_cons_of_mem c hx)
    have e1 : parseTree (n + 1) (c :: w ++ s) st = parseTree n (skipWs s) st := by
      show (if c = '<' then _ else parseTree n (text (c :: (w ++ s)) st).1 (text (c :: (w ++ s)) st).2) = _
      rw [if_neg hne, text_space hc (tagged_space hw hs), skipWs_append hw]
    simp only [List.cons_append, List.length_cons, List.length_append] at hn
    cases hsc : s with
    | nil => exact ⟨n, by simp; omega, by rw [← hsc, e1, hsc]; rfl⟩
    | cons a s' =>
      cases ha : isSpace a with
      | false => exact ⟨n, by rw [← hsc]; omega, by rw [← hsc, e1, hsc, skipWs_cons ha]⟩
      | true =>
        have hne' : a ≠ '<' := by rintro rfl; exact absurd ha (by decide)
        have hs' : Tagged s' := by rw [Tagged, ← skipWs_space ha s', ← hsc]; exact hs
        refine ⟨n + 1, by rw [← hsc]; omega, ?_⟩
        rw [← hsc, e1, hsc]
        show _ = (if a = '<' then _ else parseTree n (text (a :: s') st).1 (text (a :: s') st).2)
        rw [if_neg hne', text_space ha hs', skipWs_space ha]

theorem reference_no_lt {r : Str} {n : Nat} (h : Reference r n) : '<' ∉ r := by
  intro hm
  cases h with
  | decimal _ hds _ _ =>
    simp only [List.mem_cons, List.mem_append, List.mem_map, List.not_mem_nil, or_false] at hm
    rcases hm with hm | ⟨d, hd, hm⟩ | hm
    · exact absurd hm (by decide)
    · have h1 := dec_digit (hds d hd)
      rw [hm, show decDigit '<' = none from by decide] at h1
      exact absurd h1 (by simp)
    · exact absurd hm (by decide)
  | hexadecimal _ hds _ _ =>
    simp only [List.mem_cons, List.mem_append, List.mem_map, List.not_mem_nil, or_false] at hm
    rcases hm with hm | hm | ⟨d, hd, hm⟩ | hm
    · exact absurd hm (by decide)
    · exact absurd hm (by decide)
    · have h1 := hex_digit d.1 (hds d hd)
      rw [hm, show hexDigit '<' = none from by decide] at h1
      exact absurd h1 (by simp)
    · exact absurd hm (by decide)

theorem text_no_lt {e v : Str} (h : TextSpells e v) : '<' ∉ e := by
  induction h with
  | nil => simp
  | char h1 _ _ _ _ ih => simpa [ih] using Ne.symm h1
  | entity hx _ ih =>
    simp only [entities, List.mem_cons, Prod.mk.injEq, List.not_mem_nil, or_false] at hx
    rcases hx with ⟨rfl, rfl⟩ | ⟨rfl, rfl⟩ | ⟨rfl, rfl⟩ | ⟨rfl, rfl⟩ | ⟨rfl, rfl⟩ <;> simpa using ih
  | reference hx _ ih =>
    have := reference_no_lt hx
    simpa [ih] using this
  | crlf _ ih => simpa using ih
  | cr _ _ ih => simpa using ih

theorem passes_text {e v : Str} (h : TextSpells e v) (hne : ∃ c ∈ e, ¬ XmlSpace c) (rest : Str) (f : Frame) (fs : List Frame) (top : List XNode) :
    Passes (e ++ '<' :: rest) ('<' :: rest) ⟨f :: fs, top⟩ (St.add (.pcdata v) ⟨f :: fs, top⟩) := by
  intro n hn
  obtain ⟨n, rfl⟩ : ∃ m, n = m + 1 := ⟨n - 1, by omega⟩
  have hnlt := text_no_lt h
  -- the first character that is not white space is no `<`
  have hsk : ∃ c r, skipWs (e ++ '<' :: rest) = c :: r ∧ c ≠ '<' := by
    clear h hn
    induction e with
    | nil => obtain ⟨c, hc, -⟩ := hne; simp at hc
    | cons a e ih =>
      cases ha : isSpace a with
      | false =>
        refine ⟨a, e ++ '<' :: rest, skipWs_cons ha _, ?_⟩
        rintro rfl
        exact hnlt List.mem_cons_self
      | true =>
        rw [List.cons_append, skipWs_space ha]
        refine ih ?_ (fun hx => hnlt (List.mem_cons_of_mem a hx))
        obtain ⟨c, hc, hcs⟩ := hne
        rcases List.mem_cons.mp hc with rfl | hc
        · exact absurd ((isSpace_iff _).mp ha) hcs
        · exact ⟨c, hc, hcs⟩
  obtain ⟨c, r, hcr, hcl⟩ := hsk
  have htext : text (e ++ '<' :: rest) ⟨f :: fs, top⟩ = ('<' :: rest, St.add (.pcdata v) ⟨f :: fs, top⟩) := by
    rw [text, hcr]
    show (if c = '<' then _ else _) = _
    rw [if_neg hcl, if_pos (by simp), spelt_text h _ _ (by simp; omega), cString_self (spelt_text_zero h)]
  cases e with
  | nil => obtain ⟨c, hc, -⟩ := hne; simp at hc
  | cons a e =>
    have ha : a ≠ '<' := by rintro rfl; exact hnlt List.mem_cons_self
    refine ⟨n, ?_, ?_⟩
    · simp only [List.cons_append, List.length_cons, List.length_append] at hn ⊢
      omega
    · show (if a = '<' then _ else parseTree n (text (a :: e ++ '<' :: rest) ⟨f :: fs, top⟩).1 (text (a :: e ++ '<' :: rest) ⟨f :: fs, top⟩).2) = _
      rw [if_neg ha, htext]

theorem add_addAll (st : St) (x : XNode) : st.add x = st.addAll [x] := rfl

mutual
theorem piece_passes (p : XmlPiece) (h : p.Ok) (rest : Str) (hr : Tagged rest) (st : St) : Passes (p.text' ++ rest) rest st (st.addAll p.nodes) := by
  cases p with
  | space w => exact passes_space h hr st
  | comment s =>
    have e : (XmlPiece.comment s).text' ++ rest = '<' :: ('!' :: '-' :: '-' :: s ++ '-' :: '-' :: '>' :: rest) := by simp [XmlPiece.text']
    rw [e]
    exact passes_tag (comment_spelt s h.1 h.2.1 rest st) (by simp; omega)
  | instruction n g d =>
    have e : (XmlPiece.instruction n g d).text' ++ rest = '<' :: ('?' :: n ++ g ++ d ++ '?' :: '>' :: rest) := by simp [XmlPiece.text']
    rw [e]
    exact passes_tag (instruction_spelt h rest st) (by simp; omega)
  | empty n a g =>
    have e : (XmlPiece.empty n a g).text' ++ rest = '<' :: (n ++ (a.flatMap AttrText.text ++ (g ++ '/' :: '>' :: rest))) := by simp [XmlPiece.text', tagText]
    rw [e]
    have ht := startTag_spelt (t := '/' :: '>' :: rest) (closed := true) h (.inr ⟨rfl, rfl⟩) st
    exact passes_tag ht (by simp; omega)
  | text n a g e v g' =>
    obtain ⟨h1, h2, h3, h4⟩ := h
    have e1 : (XmlPiece.text n a g e v g').text' ++ rest = '<' :: (n ++ (a.flatMap AttrText.text ++ (g ++ '>' :: (e ++ '<' :: ('/' :: n ++ g' ++ '>' :: rest))))) := by
      simp [XmlPiece.text', tagText, endTagText]
    rw [e1]
    have ht := startTag_spelt (t := '>' :: (e ++ '<' :: ('/' :: n ++ g' ++ '>' :: rest))) (closed := false) h1 (.inl ⟨rfl, rfl⟩) st
    refine (passes_tag ht (by simp; omega)).trans ?_
    refine (passes_text h3 h4 _ ⟨false, n, attrValues a, []⟩ st.stack st.top).trans ?_
    refine passes_tag (endTag_spelt h1.1 h2 rest ⟨false, n, attrValues a, [.pcdata v]⟩ rfl st.stack st.top) (by simp; omega)
  | bare n =>
    have e : (XmlPiece.bare n).text' ++ rest = '<' :: ('?' :: n ++ '?' :: '>' :: rest) := by simp [XmlPiece.text']
    rw [e]
    exact passes_tag (bare_spelt h.1 h.2 rest st) (by simp; omega)
  | cdata n a g s g' =>
    obtain ⟨h1, h2, h3, h4⟩ := h
    have e1 : (XmlPiece.cdata n a g s g').text' ++ rest
        = '<' :: (n ++ (a.flatMap AttrText.text ++ (g ++ '>' :: '<' :: ('!' :: '[' :: 'C' :: 'D' :: 'A' :: 'T' :: 'A' :: '[' :: (s ++ ']' :: ']' :: '>' :: '<' :: ('/' :: n ++ g' ++ '>' :: rest)))))) := by
      simp [XmlPiece.text', tagText, endTagText]
    rw [e1]
    have ht := startTag_spelt (t := '>' :: '<' :: ('!' :: '[' :: 'C' :: 'D' :: 'A' :: 'T' :: 'A' :: '[' :: (s ++ ']' :: ']' :: '>' :: '<' :: ('/' :: n ++ g' ++ '>' :: rest)))) (closed := false) h1
      (.inl ⟨rfl, rfl⟩) st
    refine (passes_tag ht (by simp; omega)).trans ?_
    refine (passes_tag (cdata_spelt s h3 ('<' :: ('/' :: n ++ g' ++ '>' :: rest)) ⟨⟨false, n, attrValues a, []⟩ :: st.stack, st.top⟩) (by simp; omega)).trans ?_
    refine passes_tag (endTag_spelt h1.1 h2 rest ⟨false, n, attrValues a, [.cdata (lineEnds s)]⟩ rfl st.stack st.top) (by simp; omega)
  | node n a g ks g' =>
    obtain ⟨h1, h2, h3⟩ := h
    have e1 : (XmlPiece.node n a g ks g').text' ++ rest = '<' :: (n ++ (a.flatMap AttrText.text ++ (g ++ '>' :: (piecesText ks ++ '<' :: ('/' :: n ++ g' ++ '>' :: rest))))) := by
      simp [XmlPiece.text', tagText, endTagText]
    rw [e1]
    have ht := startTag_spelt (t := '>' :: (piecesText ks ++ '<' :: ('/' :: n ++ g' ++ '>' :: rest))) (closed := false) h1 (.inl ⟨rfl, rfl⟩) st
    refine (passes_tag ht (by simp; omega)).trans ?_
    refine (pieces_pass ks h3 _ (tagged_lt _) ⟨⟨false, n, attrValues a, []⟩ :: st.stack, st.top⟩).trans ?_
    rw [addAll_frame]
    have := endTag_spelt h1.1 h2 rest ⟨false, n, attrValues a, (piecesNodes ks).reverse ++ []⟩ rfl st.stack st.top
    refine passes_tag (st' := St.addAll st (XmlPiece.node n a g ks g').nodes) ?_ (by simp; omega)
    rw [this]
    simp [Frame.node, St.addAll, XmlPiece.nodes]
theorem pieces_pass (l : List XmlPiece) (h : PiecesOk l) (rest : Str) (hr : Tagged rest) (st : St) : Passes (piecesText l ++ rest) rest st (st.addAll (piecesNodes l)) := by
  cases l with
  | nil => exact fun n hn => ⟨n, hn, rfl⟩
  | cons p ps =>
    rw [piecesText, List.append_assoc, piecesNodes, addAll_append]
    exact (piece_passes p h.1 _ (pieces_tagged h.2 hr) st).trans (pieces_pass ps h.2 rest hr _)
end

end Mx.Pugi
