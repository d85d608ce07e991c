import Verif.Proofs.XmlSave

/-
Loading a document, however it is spelt.
-/
open Spec
namespace Mx.XmlDoc
open Mx.Pugi

theorem leading_pieces (b : Bool) (l : List XmlPiece) : leadingInstrs b (piecesNodes l) = nextInstructions b l := by
  induction l with
  | nil => rfl
  | cons p l ih =>
    cases p with
    | space w => exact ih
    | comment s => exact ih
    | instruction n g d =>
      show leadingInstrs b (.pi n (some d) :: piecesNodes l) = _
      rw [leadingInstrs, ih, nextInstructions]
      rfl
    | bare n =>
      show leadingInstrs b (.pi n none :: piecesNodes l) = _
      rw [leadingInstrs, ih, nextInstructions]
      rfl
    | empty n a g => rfl
    | text n a g e v g' => rfl
    | cdata n a g s g' => rfl
    | node n a g ks g' => rfl

theorem pieces_no_text (l : List XmlPiece) : ∀ x ∈ piecesNodes l, XNode.isText x = false := by
  induction l with
  | nil => simp [piecesNodes]
  | cons p l ih =>
    intro x hx
    rw [piecesNodes] at hx
    rcases List.mem_append.mp hx with hx | hx
    · cases p <;> simp [XmlPiece.nodes] at hx <;> subst hx <;> rfl
    · exact ih x hx

theorem begin_skip {l : List XNode} (h : ∀ x ∈ l, XNode.isText x = false) (hd : ∀ x ∈ l, x.isElem = true ∨ XNode.isPi x = true) : begin l = l.dropWhile XNode.isPi := by
  cases l with
  | nil => rfl
  | cons x l =>
    rcases hd x List.mem_cons_self with hx | hx
    · cases x <;> simp_all [XNode.isElem, begin, XNode.isPi]
    · cases x <;> simp_all [begin, XNode.isPi]

theorem pieces_kind (l : List XmlPiece) : ∀ x ∈ piecesNodes l, x.isElem = true ∨ XNode.isPi x = true := by
  induction l with
  | nil => simp [piecesNodes]
  | cons p l ih =>
    intro x hx
    rw [piecesNodes] at hx
    rcases List.mem_append.mp hx with hx | hx
    · cases p <;> simp [XmlPiece.nodes] at hx <;> subst hx <;> simp [XNode.isElem, XNode.isPi]
    · exact ih x hx

theorem pieces_begin (l : List XmlPiece) : (begin (piecesNodes l)).isEmpty = (pieceElems l).isEmpty := by
  rw [begin_skip (pieces_no_text l) (pieces_kind l)]
  induction l with
  | nil => rfl
  | cons p l ih =>
    cases p with
    | space w => exact ih
    | comment s => exact ih
    | instruction n g d => exact ih
    | bare n => exact ih
    | empty n a g => rfl
    | text n a g e v g' => rfl
    | cdata n a g s g' => rfl
    | node n a g ks g' => rfl

theorem text_ne_nil {e v : Str} (h : TextSpells e v) (hm : ∃ c ∈ e, ¬ XmlSpace c) : v ≠ [] := by
  cases h with
  | nil => obtain ⟨c, hc, -⟩ := hm; simp at hc
  | char => simp
  | entity => simp
  | @reference r n e v hr _ =>
    have : utf8 n ≠ [] := by
      rw [utf8]
      split
      · simp
      · split
        · simp
        · split <;> simp
    simp [this]
  | crlf => simp
  | cr => simp

mutual
theorem piece_read (p : XmlPiece) (h : p.Ok) (after : List XmlPiece) : ∀ x, p.nodes = [x] → x.isElem = true → ∃ e, fromNode (piecesNodes after) x = some e ∧ pieceElem after p = [e] := by
  intro x hx hxe
  cases p with
  | space w => simp [XmlPiece.nodes] at hx
  | comment s => simp [XmlPiece.nodes] at hx
  | instruction n g d =>
    simp [XmlPiece.nodes] at hx
    subst hx
    simp [XNode.isElem] at hxe
  | bare n =>
    simp [XmlPiece.nodes] at hx
    subst hx
    simp [XNode.isElem] at hxe
  | cdata n a g s g' =>
    simp [XmlPiece.nodes] at hx
    subst hx
    refine ⟨_, ?_, rfl⟩
    rw [fromNode, leading_pieces, typeOf, show textOf [XNode.cdata (lineEnds s)] = lineEnds s from rfl]
    by_cases hv : lineEnds s = []
    · rw [if_neg (by simp [hv]), hv]
      rfl
    · rw [if_pos hv]
  | empty n a g =>
    simp [XmlPiece.nodes] at hx
    subst hx
    refine ⟨_, ?_, rfl⟩
    rw [fromNode, leading_pieces]
    rfl
  | text n a g e v g' =>
    simp [XmlPiece.nodes] at hx
    subst hx
    refine ⟨_, ?_, rfl⟩
    have hv := text_ne_nil h.2.2.1 h.2.2.2
    rw [fromNode, leading_pieces, typeOf, show textOf [XNode.pcdata v] = v from rfl, if_pos hv]
  | node n a g ks g' =>
    simp [XmlPiece.nodes] at hx
    subst hx
    refine ⟨_, ?_, by rw [pieceElem]⟩
    rw [fromNode, leading_pieces, leading_pieces, typeOf, textOf_none (pieces_no_text ks), if_neg (by simp), pieces_begin, pieces_read ks h.2.2]
    cases hk : pieceElems ks with
    | nil => rfl
    | cons e es => rfl
theorem pieces_read (l : List XmlPiece) (h : PiecesOk l) : fromNodes (piecesNodes l) = some (pieceElems l) := by
  cases l with
  | nil => rfl
  | cons p l =>
    have ih := pieces_read l h.2
    have key : ∀ x, p.nodes = [x] → x.isElem = true → fromNodes (piecesNodes (p :: l)) = some (pieceElems (p :: l)) := by
      intro x hx hxe
      obtain ⟨e, h1, h2⟩ := piece_read p h.1 l x hx hxe
      rw [piecesNodes, hx, pieceElems, h2]
      show fromNodes (x :: piecesNodes l) = _
      rw [fromNodes, h1, ih]
      · rfl
      · intro n v hxx
        subst hxx
        simp [XNode.isElem] at hxe
    cases p with
    | space w => exact ih
    | comment s => exact ih
    | instruction n g d =>
      show fromNodes (.pi n (some d) :: piecesNodes l) = _
      rw [fromNodes, ih]
      rfl
    | bare n =>
      show fromNodes (.pi n none :: piecesNodes l) = _
      rw [fromNodes, ih]
      rfl
    | cdata n a g s g' => exact key _ rfl rfl
    | empty n a g => exact key _ rfl rfl
    | text n a g e v g' => exact key _ rfl rfl
    | node n a g ks g' => exact key _ rfl rfl
end

/-! ### Declarations -/

theorem attr_head (n v : Str) (l : List (Str × Str)) : attr n ((n, v) :: l) = some v := by simp [attr]

theorem fix_some {a : List AttrText} (h : DeclarationOk a) : ∃ l, fixDeclaration (attrValues a) = some l := by
  obtain ⟨⟨v, s, h1, h2, h3⟩, -⟩ := h
  have hv : sameLetters (chars "version") (chars "version") = true := by decide
  have he : sameLetters (chars "encoding") (chars "encoding") = true := by decide
  have hs : sameLetters (chars "encoding") (chars "standalone") = false := by decide
  have fin : ∀ l : List (Str × Str), (∃ x b r, addEncoding (addVersion l) = x :: (chars "encoding", b) :: r ∧ x.1 = chars "version") → l ≠ [] → ∃ l', fixDeclaration l = some l' := by
    rintro l ⟨x, b, r, hl, hx⟩ hne
    rw [fixDeclaration, if_neg hne, if_pos]
    · exact ⟨_, rfl⟩
    · rw [hl, fixVersion]
      obtain ⟨x1, x2⟩ := x
      simp only at hx
      subst hx
      split
      · simp only [attr, List.find?]
        rfl
      · simp only [attr, List.find?]
        rfl
  cases a with
  | nil => simp at h1
  | cons x a =>
    simp only [List.map_cons, List.cons.injEq] at h1
    obtain ⟨hx, h1⟩ := h1
    have hx' : x.name = chars "version" := hx
    apply fin
    · cases a with
      | nil =>
        refine ⟨(x.name, x.value), chars "UTF-8", [], ?_, hx'⟩
        · simp only [attrValues, List.map_cons, List.map_nil, addVersion, hx', hv, if_true, addEncoding]
      | cons y a =>
        rcases h2 with rfl | rfl
        · rcases h3 with rfl | rfl
          · simp at h1
          · simp only [List.map_cons, List.nil_append, List.cons.injEq] at h1
            have hy : y.name = chars "standalone" := h1.1
            refine ⟨(x.name, x.value), chars "UTF-8", (y.name, y.value) :: attrValues a, ?_, hx'⟩
            · simp only [attrValues, List.map_cons, addVersion, hx', hv, if_true, addEncoding, hy, hs]
              rfl
        · simp only [List.map_cons, List.cons_append, List.cons.injEq] at h1
          have hy : y.name = chars "encoding" := h1.1
          refine ⟨(x.name, x.value), y.value, attrValues a, ?_, hx'⟩
          · simp only [attrValues, List.map_cons, addVersion, hx', hv, if_true, addEncoding, hy, he]
    · simp [attrValues]

/-! ### Documents -/

theorem misc_none {l : List XmlPiece} (h : ∀ p ∈ l, p.isMisc = true) : ∀ x ∈ piecesNodes l, x.isElem = false := by
  induction l with
  | nil => simp [piecesNodes]
  | cons p l ih =>
    intro x hx
    rw [piecesNodes] at hx
    rcases List.mem_append.mp hx with hx | hx
    · have := h p List.mem_cons_self
      cases p <;> simp [XmlPiece.nodes, XmlPiece.isMisc] at hx this <;> subst hx <;> rfl
    · exact ih (fun p hp => h p (List.mem_cons_of_mem _ hp)) x hx

theorem root_skip {l : List XNode} (h : ∀ x ∈ l, x.isElem = false) (r : List XNode) : root (l ++ r) = root r := by
  induction l with
  | nil => rfl
  | cons x l ih =>
    rw [List.cons_append, root, if_neg (by simp [h x List.mem_cons_self]), ih fun y hy => h y (List.mem_cons_of_mem x hy)]

theorem root_cons {x : XNode} (h : x.isElem = true) (r : List XNode) : root (x :: r) = some (x, r) := by
  rw [root, if_pos h]

theorem load_document {d : XmlText} (h : d.Ok) (hd : ∀ a g, d.declaration = some (a, g) → DeclarationOk a) (tw : Bool) {a : List (Str × Str)} {p : List Instr} {v : Str} {ks : List Elem}
    (he : pieceElem d.after d.root = [.mk (rootName tw) a p v ks]) : load d.text = some (tw, .mk (rootName tw) a p v ks) := by
  have hp := parse_document h
  obtain ⟨n, a', k, hn⟩ := root_elem h.root.2
  obtain ⟨e, h1, h2⟩ := piece_read d.root h.root.1 d.after _ hn rfl
  rw [he] at h2
  simp only [List.cons.injEq, and_true] at h2
  subst h2
  have hpre : ∀ x ∈ piecesNodes d.before ++ doctypeNodes d.doctype ++ piecesNodes d.between, x.isElem = false := by
    intro x hx
    simp only [List.mem_append] at hx
    rcases hx with (hx | hx) | hx
    · exact misc_none h.before.2 x hx
    · cases hdd : d.doctype with
      | none => rw [hdd] at hx; simp [doctypeNodes] at hx
      | some t => rw [hdd] at hx; simp [doctypeNodes] at hx; subst hx; rfl
    · exact misc_none h.between.2 x hx
  have hload : ∃ y, loadStream d.text = some (.decl ['x', 'm', 'l'] y :: (piecesNodes d.before ++ doctypeNodes d.doctype ++ piecesNodes d.between ++ .elem n a' k :: piecesNodes d.after)) := by
    rw [loadStream, hp, documentNodes, hn]
    cases hdd : d.declaration with
    | none =>
      refine ⟨[(chars "version", chars "1.0"), (chars "encoding", chars "UTF-8")], ?_⟩
      simp only [declarationNodes, List.nil_append, List.append_assoc, List.cons_append, Option.bind_some]
      split
      · rename_i n' a'' r' hx
        exfalso
        have hmem : ∀ x ∈ piecesNodes d.before ++ (doctypeNodes d.doctype ++ (piecesNodes d.between ++ .elem n a' k :: piecesNodes d.after)), ∀ n a, x ≠ .decl n a := by
          intro x hx n a
          simp only [List.mem_append, List.mem_cons] at hx
          rcases hx with hx | hx | hx | hx | hx
          · rcases pieces_kind _ x hx with h | h <;> rintro rfl <;> simp [XNode.isElem, XNode.isPi] at h
          · cases hdt : d.doctype with
            | none => rw [hdt] at hx; simp [doctypeNodes] at hx
            | some t => rw [hdt] at hx; simp [doctypeNodes] at hx; subst hx; simp
          · rcases pieces_kind _ x hx with h | h <;> rintro rfl <;> simp [XNode.isElem, XNode.isPi] at h
          · subst hx; simp
          · rcases pieces_kind _ x hx with h | h <;> rintro rfl <;> simp [XNode.isElem, XNode.isPi] at h
        rw [hx] at hmem
        exact hmem _ List.mem_cons_self n' a'' rfl
      · rfl
    | some x =>
      obtain ⟨as, g⟩ := x
      obtain ⟨l, hl⟩ := fix_some (hd as g hdd)
      refine ⟨l, ?_⟩
      simp [declarationNodes, hl]
  obtain ⟨y, hload⟩ := hload
  have hroot : root (.decl ['x', 'm', 'l'] y :: (piecesNodes d.before ++ doctypeNodes d.doctype ++ piecesNodes d.between ++ .elem n a' k :: piecesNodes d.after)) = some (.elem n a' k, piecesNodes d.after) := by
    have := root_skip (l := .decl ['x', 'm', 'l'] y :: (piecesNodes d.before ++ doctypeNodes d.doctype ++ piecesNodes d.between)) (by
      intro x hx
      rcases List.mem_cons.mp hx with rfl | hx
      · rfl
      · exact hpre x hx) (.elem n a' k :: piecesNodes d.after)
    rw [List.cons_append] at this
    rw [this]
    exact root_cons rfl _
  rw [load, hload]
  simp only [Option.bind_some, hroot, h1]
  cases tw <;> rfl

/-! ### The saved file as a document -/

theorem file_document (tw : Bool) (e : Elem) (h : Normal e) :
    ∃ d : XmlText, d.Ok ∧ (∀ a g, d.declaration = some (a, g) → DeclarationOk a) ∧ d.text = fileText tw e ∧ pieceElem d.after d.root = [e] ∧ (e.behind = [] → d.after = [.space ['\n']]) := by
  obtain ⟨p, p1, p2, p3⟩ := node_printed e h 0
  have hi : ∀ i ∈ e.behind, InstrOk i ∧ ∀ c r, i.data = c :: r → ¬ XmlSpace c := by
    cases e with
    | mk n a p v ks => exact fun i hx => h.2.2.1 i (List.mem_of_mem_filter hx)
  obtain ⟨is, i1, i2, i3, i4, i5⟩ : ∃ ps, PiecesOk ps ∧ outNodes .line 0 (e.behind.map piNode ++ []) = (piecesText ps ++ (outNodes .line 0 []).1, (outNodes .line 0 []).2)
      ∧ piecesNodes ps = e.behind.map piNode ∧ (∀ p ∈ ps, p.isMisc = true) ∧ (e.behind = [] → ps = []) := by
    by_cases hb : e.behind = []
    · rw [hb]
      exact ⟨[], trivial, rfl, rfl, by simp, fun _ => rfl⟩
    · obtain ⟨is, i1, i2, i3, i4⟩ := pis_printed 0 e.behind hi []
      exact ⟨is, i1, i2, i3, i4, fun h => absurd h hb⟩
  have hel : ∃ n a k, e.node = .elem n a k := by
    cases e
    exact ⟨_, _, _, rfl⟩
  have hmisc : p.isMisc = false := by
    obtain ⟨n, a, k, hk⟩ := hel
    rw [hk] at p3
    cases p with
    | space => simp [XmlPiece.nodes] at p3
    | comment => simp [XmlPiece.nodes] at p3
    | instruction => simp [XmlPiece.nodes] at p3
    | bare => simp [XmlPiece.nodes] at p3
    | cdata => rfl
    | empty => rfl
    | text => rfl
    | node => rfl
  refine ⟨⟨false, some (printedAttrs stdAttrs, []), [.space ['\n']], some (' ' :: doctypeValue tw), [.space ('\n' :: printIndent 0)], p, is ++ [.space ['\n']]⟩, ⟨?_, ?_, ?_, ?_, ?_, ?_⟩, ?_, ?_, ?_, ?_⟩
  · intro a g hx
    simp only [Option.some.injEq, Prod.mk.injEq] at hx
    obtain ⟨rfl, rfl⟩ := hx
    exact ⟨printed_ok stdAttrs_ok, by simp, by rw [printed_text]; decide⟩
  · exact ⟨⟨by simp [XmlPiece.Ok, XmlSpace], trivial⟩, by simp [XmlPiece.isMisc]⟩
  · intro t ht
    simp only [Option.some.injEq] at ht
    subst ht
    exact doctypeValue_ok tw
  · exact ⟨⟨printIndent_space 0, trivial⟩, by simp [XmlPiece.isMisc]⟩
  · exact ⟨p1, hmisc⟩
  · refine ⟨pieces_ok_append i1 ⟨by simp [XmlPiece.Ok, XmlSpace], trivial⟩, ?_⟩
    intro q hq
    rcases List.mem_append.mp hq with hq | hq
    · exact i4 q hq
    · simp at hq
      subst hq
      rfl
  · intro a g hx
    simp only [Option.some.injEq, Prod.mk.injEq] at hx
    obtain ⟨rfl, rfl⟩ := hx
    refine ⟨⟨[_], [_], rfl, .inr rfl, .inr rfl⟩, ?_⟩
    intro x hx hn
    simp only [printedAttrs, stdAttrs, List.map_cons, List.map_nil, List.mem_cons, List.not_mem_nil, or_false] at hx
    rcases hx with rfl | rfl | rfl
    · exact absurd hn (by decide)
    · decide
    · exact absurd hn (by decide)
  · have e2 : outNode .start 0 (.decl ['x', 'm', 'l'] stdAttrs) = (chars "<?xml version=\"1.0\" encoding=\"UTF-8\" standalone=\"no\"?>", .line) := by
      rw [outNode, show outIndent .start 0 = [] from rfl, show outAttrs stdAttrs = chars " version=\"1.0\" encoding=\"UTF-8\" standalone=\"no\"" from by decide]
      rfl
    have e1 : declarationText (some (printedAttrs stdAttrs, [])) = chars "<?xml version=\"1.0\" encoding=\"UTF-8\" standalone=\"no\"?>" := by
      rw [declarationText, printed_text]
      decide
    have e3 : stdNodes tw ++ Elem.nodes [e] = .decl ['x', 'm', 'l'] stdAttrs :: .doctype (doctypeValue tw) :: e.node :: (e.behind.map piNode ++ []) := by
      rw [Elem.nodes]; rfl
    have e4 : outNodes .start 0 (stdNodes tw ++ Elem.nodes [e]) = (stdText tw ++ ('\n' :: printIndent 0 ++ p.text') ++ piecesText is, .line) := by
      rw [e3, outNodes, e2, outNodes, outNode, outNodes, p2, i2]
      simp [stdText, outIndent, outNodes]
    rw [fileText, print, e4, XmlText.text, e1]
    simp [stdText, piecesText, XmlPiece.text', pieces_append, doctypeText]
  · obtain ⟨n, a, k, hk⟩ := hel
    obtain ⟨e', h1, h2⟩ := piece_read p p1 (is ++ [.space ['\n']]) e.node p3 (by rw [hk]; rfl)
    have h3 := node_read e h [] rfl
    rw [pieces_nodes_append, i3] at h1
    have h4 : piecesNodes [.space ['\n']] = [] := rfl
    rw [h4, h3] at h1
    simp only [Option.some.injEq] at h1
    rw [h2, ← h1]
  · intro he
    rw [i5 he]
    rfl

/-! ### What is kept is not changed again -/

theorem blanks_id {v : Str} (h : OneLine v) : blanks v = v := by
  induction v with
  | nil => rfl
  | cons c v ih =>
    obtain ⟨h1, h2, h3⟩ := h
    simp only [List.mem_cons, not_or] at h1 h2 h3
    rw [blanks_other (fun hc => absurd hc.symm h3.1), ih ⟨h1.2, h2.2, h3.2⟩]
    split
    · rename_i hs
      rcases hs with rfl | rfl | rfl | rfl
      · rfl
      · exact absurd rfl h1.1
      · exact absurd rfl h2.1
      · exact absurd rfl h3.1
    · rfl

theorem blanks_spec (v : Str) : OneLine (blanks v) ∧ ('"' ∉ v → '"' ∉ blanks v) := by
  match v with
  | [] => simp [blanks, OneLine]
  | c :: r =>
    by_cases hh : c = '\r' ∧ r.head? = some '\n'
    · obtain ⟨rfl, hh⟩ := hh
      cases r with
      | nil => simp at hh
      | cons d r =>
        simp at hh
        subst hh
        obtain ⟨⟨h1, h2, h3⟩, h4⟩ := blanks_spec r
        rw [blanks]
        refine ⟨⟨by simpa using h1, by simpa using h2, by simpa using h3⟩, fun hq => ?_⟩
        simpa using h4 (fun hm => hq (by simp [hm]))
    · obtain ⟨⟨h1, h2, h3⟩, h4⟩ := blanks_spec r
      rw [blanks_other (fun h1 h2 => hh ⟨h1, h2⟩)]
      by_cases hs : XmlSpace c
      · rw [if_pos hs]
        refine ⟨⟨by simpa using h1, by simpa using h2, by simpa using h3⟩, fun hq => ?_⟩
        simpa using h4 (fun hm => hq (by simp [hm]))
      · rw [if_neg hs]
        have hne : c ≠ '\t' ∧ c ≠ '\n' ∧ c ≠ '\r' := by
          refine ⟨?_, ?_, ?_⟩ <;> rintro rfl <;> exact hs (by decide)
        refine ⟨⟨by simpa [h1] using Ne.symm hne.1, by simpa [h2] using Ne.symm hne.2.1, by simpa [h3] using Ne.symm hne.2.2⟩, fun hq => ?_⟩
        simp only [List.mem_cons, not_or] at hq ⊢
        exact ⟨hq.1, h4 hq.2⟩

theorem lineEnds_id {v : Str} (h : '\r' ∉ v) : lineEnds v = v := by
  induction v with
  | nil => rfl
  | cons c v ih =>
    simp only [List.mem_cons, not_or] at h
    rw [lineEnds_other (Ne.symm h.1), ih h.2]

theorem keptText_id {v : Str} (h : '\r' ∉ v) (hm : v = [] ∨ ∃ c ∈ v, ¬ XmlSpace c) : keptText v = v := by
  rcases hm with rfl | ⟨c, hc, hs⟩
  · rfl
  · rw [keptText, if_neg (fun hx => hs (hx c hc)), lineEnds_id h]

theorem keptInstr_id {i : Instr} {b : Bool} (h : ∀ c r, i.data = c :: r → ¬ XmlSpace c) (hb : i.isChild = b) : keptInstr b i = i := by
  obtain ⟨n, d, x⟩ := i
  simp only at hb
  subst hb
  cases d with
  | nil => rfl
  | cons c d =>
    have := h c d rfl
    simp [keptInstr, this]

theorem keptInstr_map {l : List Instr} {b : Bool} (h : ∀ i ∈ l, ∀ c r, i.data = c :: r → ¬ XmlSpace c) (hb : ∀ i ∈ l, i.isChild = b) : l.map (keptInstr b) = l := by
  conv_rhs => rw [← List.map_id l]
  exact List.map_congr_left fun i hi => keptInstr_id (h i hi) (hb i hi)

mutual
theorem kept_id (e : Elem) (h : Unchanged e) : kept e = e := by
  match e, h with
  | .mk n a p v ks, h =>
    obtain ⟨h1, h2, h3, h4, h5, h6, h7⟩ := h
    have ha : a.map (fun x => (x.1, blanks x.2)) = a := by
      conv_rhs => rw [← List.map_id a]
      exact List.map_congr_left fun x hx => by rw [blanks_id (h1 x hx)]; rfl
    have hp : keptInstrs (!ks.isEmpty) p = p := by
      cases ks with
      | nil => exact keptInstr_map h2 (h4 rfl)
      | cons k ks =>
        rw [List.isEmpty_cons, Bool.not_false, keptInstrs, if_pos rfl,
          keptInstr_map (fun i hi => h2 i (List.mem_of_mem_filter hi)) (fun i hi => (List.mem_filter.mp hi).2),
          keptInstr_map (fun i hi => h2 i (List.mem_of_mem_filter hi)) (fun i hi => by have := (List.mem_filter.mp hi).2; simpa using this)]
        exact h3.symm
    rw [kept, ha, hp, keptText_id h5 h6, keptAll_id ks h7]
theorem keptAll_id (l : List Elem) (h : UnchangedAll l) : keptAll l = l := by
  match l, h with
  | [], _ => rfl
  | e :: es, h => rw [keptAll, kept_id e h.1, keptAll_id es h.2]
end

theorem keptInstrs_data (b : Bool) (l : List Instr) : ∀ i ∈ keptInstrs b l, ∀ c r, i.data = c :: r → ¬ XmlSpace c := by
  have key : ∀ (b : Bool) (i : Instr), ∀ c r, (keptInstr b i).data = c :: r → ¬ XmlSpace c := by
    intro b i c r hr
    have := List.head?_dropWhile_not (fun c => decide (XmlSpace c)) i.data
    have hr' : i.data.dropWhile (fun c => decide (XmlSpace c)) = c :: r := hr
    rw [hr'] at this
    simpa using this
  intro i hi
  rw [keptInstrs] at hi
  split at hi
  · rcases List.mem_append.mp hi with hi | hi
    · obtain ⟨j, -, rfl⟩ := List.mem_map.mp hi
      exact key _ j
    · obtain ⟨j, -, rfl⟩ := List.mem_map.mp hi
      exact key _ j
  · obtain ⟨j, -, rfl⟩ := List.mem_map.mp hi
    exact key _ j

mutual
theorem kept_unchanged (e : Elem) : Unchanged (kept e) := by
  match e with
  | .mk n a p v ks =>
    obtain ⟨h1, -, h3⟩ := lineEnds_spec v
    refine ⟨?_, keptInstrs_data _ _, keptInstrs_split _ _, ?_, ?_, ?_, keptAll_unchanged ks⟩
    · intro x hx
      obtain ⟨y, -, rfl⟩ := List.mem_map.mp hx
      exact (blanks_spec y.2).1
    · intro hk
      have : ks = [] := by cases ks with | nil => rfl | cons e ks => simp [keptAll] at hk
      subst this
      intro i hi
      rw [List.isEmpty_nil, Bool.not_true, keptInstrs, if_neg (by simp)] at hi
      obtain ⟨j, -, rfl⟩ := List.mem_map.mp hi
      rfl
    · by_cases hm : ∀ c ∈ v, XmlSpace c
      · simp [keptText, if_pos hm]
      · rw [keptText, if_neg hm]
        exact h1
    · by_cases hm : ∀ c ∈ v, XmlSpace c
      · exact .inl (by rw [keptText, if_pos hm])
      · rw [keptText, if_neg hm]
        exact .inr (h3 (by simpa only [not_forall, exists_prop] using hm))
theorem keptAll_unchanged (l : List Elem) : UnchangedAll (keptAll l) := by
  match l with
  | [] => trivial
  | e :: es => exact ⟨kept_unchanged e, keptAll_unchanged es⟩
end

theorem kept_kept (e : Elem) : kept (kept e) = kept e := kept_id _ (kept_unchanged e)

mutual
theorem kept_writable (e : Elem) (h : Writable e) : Writable (kept e) := by
  match e, h with
  | .mk n a p v ks, h =>
    obtain ⟨h1, h2, h3, h4, h5⟩ := h
    refine ⟨h1, ?_, fun i hi => (keptInstrs_ok h3 _ i hi).1, (keptText_spec h4).1, keptAll_writable ks h5⟩
    intro x hx
    obtain ⟨y, hy, rfl⟩ := List.mem_map.mp hx
    obtain ⟨g1, g2, g3⟩ := h2 y hy
    exact ⟨g1, (blanks_spec y.2).2 g2, blanks_no_zero g3⟩
theorem keptAll_writable (l : List Elem) (h : WritableAll l) : WritableAll (keptAll l) := by
  match l, h with
  | [], _ => trivial
  | e :: es, h => exact ⟨kept_writable e h.1, keptAll_writable es h.2⟩
end

end Mx.XmlDoc
