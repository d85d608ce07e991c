import Verif.Proofs.XmlRead

/-
Documents: declaration, document type, root element.
-/
open Spec
namespace Mx.Pugi

/-! ### The declaration -/

theorem skipWs_split {c : Char} (h : isSpace c = false) (s t : Str) : skipWs (s ++ c :: t) = skipWs s ++ c :: t := by
  induction s with
  | nil => rw [List.nil_append, skipWs_cons h]; rfl
  | cons a s ih =>
    cases hsp : isSpace a with
    | true => rw [List.cons_append, skipWs_space hsp, skipWs_space hsp, ih]
    | false => rw [List.cons_append, skipWs_cons hsp, skipWs_cons hsp]; rfl

theorem declaration_spelt {as : List AttrText} {g : Str} (ha : ∀ x ∈ as, x.Ok) (hg : ∀ c ∈ g, XmlSpace c) (hq : ¬ ("?>".toList <:+: as.flatMap AttrText.text ++ g)) (rest : Str) (top : List XNode) :
    tag ('?' :: 'x' :: 'm' :: 'l' :: (as.flatMap AttrText.text ++ g ++ '?' :: '>' :: rest)) ⟨[], top⟩ = some (rest, ⟨[], .decl ['x', 'm', 'l'] (attrValues as) :: top⟩) := by
  have hx : XmlName ['x', 'm', 'l'] := ⟨⟨'x', ['m', 'l'], rfl, by decide⟩, by intro c hc; simp at hc; rcases hc with rfl | rfl | rfl <;> decide⟩
  rw [tag, if_neg (by decide), if_neg (by decide), if_pos rfl]
  have key : as.flatMap AttrText.text ++ g = [] ∨ ∃ c s, as.flatMap AttrText.text ++ g = c :: s ∧ isSpace c = true := by
    cases as with
    | nil =>
      cases g with
      | nil => exact .inl rfl
      | cons c g => exact .inr ⟨c, g, rfl, (isSpace_iff c).mpr (hg c List.mem_cons_self)⟩
    | cons a as =>
      right
      obtain ⟨hgap, hws, -⟩ := ha a List.mem_cons_self
      cases hga : a.gap with
      | nil => exact absurd hga hgap
      | cons c w =>
        rw [List.flatMap_cons, attr_text, hga]
        exact ⟨c, _, rfl, (isSpace_iff c).mpr (hws c (by simp [hga]))⟩
  rcases key with h0 | ⟨c, s, h0, hc⟩
  · have h1 : as = [] := by
      cases as with
      | nil => rfl
      | cons a as => rw [List.flatMap_cons, attr_text] at h0; simp at h0
    subst h1
    rw [h0]
    rfl
  · have hd := attributes_spelt as (as.length + 1) g ('/' :: '>' :: rest) rest true ha hg (.inr ⟨rfl, rfl⟩) (by omega)
    have hcq : c ≠ '?' := by rintro rfl; exact absurd hc (by decide)
    have hE : Ends (c :: (s ++ '?' :: '>' :: rest)) := ends_cons (space_not_symbol hc) _
    have h2 := name_take hx hE
    have h3 : 'x' :: 'm' :: 'l' :: (as.flatMap AttrText.text ++ g ++ '?' :: '>' :: rest) = ['x', 'm', 'l'] ++ (c :: (s ++ '?' :: '>' :: rest)) := by
      rw [h0]; rfl
    have hsplit : ∀ t, skipWs (s ++ '?' :: t) = skipWs s ++ '?' :: t := skipWs_split (by decide) s
    have hslash : ∀ t, skipWs (s ++ '/' :: t) = skipWs s ++ '/' :: t := skipWs_split (by decide) s
    have hidem : ∀ x : Str, skipWs (skipWs x) = skipWs x := by
      intro x
      induction x with
      | nil => rfl
      | cons a x ih =>
        cases hsp : isSpace a with
        | true => rw [skipWs_space hsp, ih]
        | false => rw [skipWs_cons hsp, skipWs_cons hsp]
    have hq' : ¬ ("?>".toList <:+: skipWs s) := by
      intro hx
      apply hq
      rw [h0]
      have hsuf : skipWs s <:+ s := List.dropWhile_suffix _
      exact (hx.trans hsuf.isInfix).trans (List.infix_cons (List.infix_refl s))
    have h4 := uptoQuestion_spelt (skipWs s) hq' rest
    have hlen : as.length ≤ (skipWs s).length := by
      -- every attribute takes at least two characters, one of which is no white space
      have h5 : as.length ≤ (skipWs (as.flatMap AttrText.text ++ g)).length := by
        clear hd hq h0 h2 hE h3 hsplit hslash hidem hq' h4
        cases as with
        | nil => simp
        | cons a as =>
          have h6 : ∀ l : List AttrText, l.length ≤ (l.flatMap AttrText.text).length := by
            intro l
            induction l with
            | nil => simp
            | cons b l ih =>
              rw [List.flatMap_cons, attr_text]
              simp only [List.length_append, List.length_cons, List.length_nil]
              omega
          obtain ⟨hgap, hws, hname, -⟩ := ha a List.mem_cons_self
          obtain ⟨⟨c', r', hcr, hc'⟩, -⟩ := hname
          have hsp1 : ∀ c ∈ a.gap, XmlSpace c := fun c hc => hws c (by simp [hc])
          have hnc : isSpace c' = false := by
            cases hsc : isSpace c' with
            | false => rfl
            | true =>
              have h1 := space_not_start hsc
              rw [(isStart_iff c').mpr hc'] at h1
              exact absurd h1 (by decide)
          rw [List.flatMap_cons, attr_text, List.append_assoc, List.append_assoc, skipWs_append hsp1, hcr]
          simp only [List.cons_append]
          rw [skipWs_cons hnc]
          have := h6 as
          simp only [List.length_append, List.length_cons]
          omega
      rw [h0, skipWs_space hc] at h5
      exact h5
    have h5 : attributes ((skipWs s).length + ('?' :: '>' :: rest).length + 1) (skipWs s ++ '/' :: '>' :: rest) = some (attrValues as, true, rest) := by
      have h6 := attributes_spelt as ((skipWs s).length + ('?' :: '>' :: rest).length + 1) g ('/' :: '>' :: rest) rest true ha hg (.inr ⟨rfl, rfl⟩) (by omega)
      rw [← h6]
      apply attributes_congr
      rw [← List.append_assoc, h0, List.cons_append, skipWs_space hc, ← hslash, hidem]
    rw [h3, question, if_pos (name_starts hx _), h2.1, h2.2]
    simp only [hcq, hc, hsplit, h4, show isXml ['x', 'm', 'l'] = true from rfl, if_true, if_false, ne_eq, not_true, and_false]
    rw [show ('?' :: '>' :: rest).tail = '>' :: rest from rfl, h5]
    rfl

/-! ### The document type -/

theorem behindQuote_spelt {q : Char} {l : Str} (h : q ∉ l) (r : Str) : behindQuote q (l ++ q :: r) = some r := by
  induction l with
  | nil => simp [behindQuote]
  | cons c l ih =>
    have : c ≠ q := by rintro rfl; exact h List.mem_cons_self
    rw [List.cons_append, behindQuote, if_neg this, ih (fun hm => h (List.mem_cons_of_mem c hm))]

theorem doctypeGroup_spelt {t : Str} (h : DoctypeText t) : ∀ (n : Nat) (r : Str), t.length < n → doctypeGroup n 0 (t ++ '>' :: r) = some ('>' :: r) := by
  induction h with
  | nil =>
    intro n r hn
    obtain ⟨n, rfl⟩ : ∃ m, n = m + 1 := ⟨n - 1, by omega⟩
    rfl
  | @char c s h1 h2 h3 h4 _ _ ih =>
    intro n r hn
    obtain ⟨n, rfl⟩ : ∃ m, n = m + 1 := ⟨n - 1, by omega⟩
    rw [List.cons_append, doctypeGroup]
    · rw [if_neg (by simp [h1]), if_neg (by simp [h1, h3, h4]), if_neg h2]
      exact ih n r (by simp at hn; omega)
    · intro c' r' hc _
      exact absurd hc h1
  | @literal q l s hq hl _ _ ih =>
    intro n r hn
    obtain ⟨n, rfl⟩ : ∃ m, n = m + 1 := ⟨n - 1, by omega⟩
    have e : q :: (l ++ q :: s) ++ '>' :: r = q :: (l ++ q :: (s ++ '>' :: r)) := by simp
    have hne : q ≠ '<' := by rcases hq with rfl | rfl <;> decide
    have hd : doctypePrimitive (q :: (l ++ q :: (s ++ '>' :: r))) = some (s ++ '>' :: r) := by
      have := behindQuote_spelt hl (s ++ '>' :: r)
      rcases hq with rfl | rfl <;> simpa [doctypePrimitive] using this
    rw [e, doctypeGroup]
    · rw [if_neg (by simp [hne]), if_pos (by rcases hq with h | h <;> simp [h]), hd]
      exact ih n r (by simp at hn; omega)
    · intro c' r' hc _
      exact absurd hc hne

theorem doctype_spelt {t : Str} (h : DoctypeText t) (rest : Str) (top : List XNode) :
    tag ('!' :: 'D' :: 'O' :: 'C' :: 'T' :: 'Y' :: 'P' :: 'E' :: (t ++ '>' :: rest)) ⟨[], top⟩ = some (rest, ⟨[], .doctype (skipWs t) :: top⟩) := by
  have hD : DoctypeText ('D' :: 'O' :: 'C' :: 'T' :: 'Y' :: 'P' :: 'E' :: t) := by
    refine .char ?_ ?_ ?_ ?_ ?_ (.char ?_ ?_ ?_ ?_ ?_ (.char ?_ ?_ ?_ ?_ ?_ (.char ?_ ?_ ?_ ?_ ?_ (.char ?_ ?_ ?_ ?_ ?_ (.char ?_ ?_ ?_ ?_ ?_ (.char ?_ ?_ ?_ ?_ ?_ h)))))) <;> decide
  have h1 := doctypeGroup_spelt hD (('D' :: 'O' :: 'C' :: 'T' :: 'Y' :: 'P' :: 'E' :: (t ++ '>' :: rest)).length + 1) rest (by simp; omega)
  rw [tag, if_neg (by decide), if_neg (by decide), if_neg (by decide), if_pos rfl]
  show doctypeTag _ _ = _
  rw [doctypeTag, if_neg (by simp)]
  simp only [List.cons_append] at h1
  rw [h1]
  have h2 : (('D' :: 'O' :: 'C' :: 'T' :: 'Y' :: 'P' :: 'E' :: (t ++ '>' :: rest)).take (('D' :: 'O' :: 'C' :: 'T' :: 'Y' :: 'P' :: 'E' :: (t ++ '>' :: rest)).length - ('>' :: rest).length)).drop 7 = t := by
    have e : ('D' :: 'O' :: 'C' :: 'T' :: 'Y' :: 'P' :: 'E' :: (t ++ '>' :: rest)).length - ('>' :: rest).length = t.length + 7 := by
      simp only [List.length_cons, List.length_append]
      omega
    rw [e]
    simp
  simp only [Option.map_some, h2]
  rfl

/-! ### Documents -/

theorem doctype_no_zero {t : Str} (h : DoctypeText t) : '\x00' ∉ t := by
  induction h with
  | nil => simp
  | char _ _ _ _ h0 _ ih => simpa [ih] using Ne.symm h0
  | @literal q l s hq _ h0 _ ih =>
    have : '\x00' ≠ q := by rcases hq with rfl | rfl <;> decide
    simp [this, h0, ih]

/-- The nodes of a declaration. -/
def declarationNodes : Option (List AttrText × List Char) → List XNode
  | none => []
  | some (a, _) => [.decl ['x', 'm', 'l'] (attrValues a)]

/-- The node of a document type. -/
def doctypeNodes : Option (List Char) → List XNode
  | none => []
  | some t => [.doctype (skipWs t)]

/-- The nodes of a document. -/
def documentNodes (d : XmlText) : List XNode :=
  declarationNodes d.declaration ++ piecesNodes d.before ++ doctypeNodes d.doctype ++ piecesNodes d.between ++ d.root.nodes ++ piecesNodes d.after

theorem passes_declaration {o : Option (List AttrText × List Char)}
    (h : ∀ a g, o = some (a, g) → (∀ x ∈ a, x.Ok) ∧ (∀ c ∈ g, XmlSpace c) ∧ ¬ ("?>".toList <:+: a.flatMap AttrText.text ++ g)) (rest : Str) (top : List XNode) :
    Passes (declarationText o ++ rest) rest ⟨[], top⟩ (St.addAll ⟨[], top⟩ (declarationNodes o)) := by
  cases o with
  | none => exact fun n hn => ⟨n, hn, rfl⟩
  | some x =>
    obtain ⟨a, g⟩ := x
    obtain ⟨h1, h2, h3⟩ := h a g rfl
    have e : declarationText (some (a, g)) ++ rest = '<' :: ('?' :: 'x' :: 'm' :: 'l' :: (a.flatMap AttrText.text ++ g ++ '?' :: '>' :: rest)) := by
      simp [declarationText]
    rw [e]
    exact passes_tag (declaration_spelt h1 h2 h3 rest top) (by simp; omega)

theorem passes_doctype {o : Option (List Char)} (h : ∀ t, o = some t → DoctypeText t) (rest : Str) (top : List XNode) :
    Passes (doctypeText o ++ rest) rest ⟨[], top⟩ (St.addAll ⟨[], top⟩ (doctypeNodes o)) := by
  cases o with
  | none => exact fun n hn => ⟨n, hn, rfl⟩
  | some t =>
    have e : doctypeText (some t) ++ rest = '<' :: ('!' :: 'D' :: 'O' :: 'C' :: 'T' :: 'Y' :: 'P' :: 'E' :: (t ++ '>' :: rest)) := by
      simp [doctypeText]
    rw [e]
    exact passes_tag (doctype_spelt (h t rfl) rest top) (by simp; omega)

theorem tagged_doctype (o : Option (List Char)) {s : Str} (hs : Tagged s) : Tagged (doctypeText o ++ s) := by
  cases o with
  | none => exact hs
  | some t =>
    have e : doctypeText (some t) ++ s = '<' :: ('!' :: 'D' :: 'O' :: 'C' :: 'T' :: 'Y' :: 'P' :: 'E' :: (t ++ '>' :: s)) := by
      simp [doctypeText]
    rw [e]
    exact tagged_lt _

theorem root_elem {p : XmlPiece} (h : p.isMisc = false) : ∃ n a k, p.nodes = [.elem n a k] := by
  cases p with
  | space => simp [XmlPiece.isMisc] at h
  | comment => simp [XmlPiece.isMisc] at h
  | instruction => simp [XmlPiece.isMisc] at h
  | bare => simp [XmlPiece.isMisc] at h
  | empty n a g => exact ⟨_, _, _, rfl⟩
  | text n a g e v g' => exact ⟨_, _, _, rfl⟩
  | cdata n a g s g' => exact ⟨_, _, _, rfl⟩
  | node n a g ks g' => exact ⟨_, _, _, rfl⟩

theorem root_lt {p : XmlPiece} (h : p.isMisc = false) : ∃ r, p.text' = '<' :: r := by
  cases p with
  | space => simp [XmlPiece.isMisc] at h
  | comment => simp [XmlPiece.isMisc] at h
  | instruction => simp [XmlPiece.isMisc] at h
  | bare => simp [XmlPiece.isMisc] at h
  | empty n a g => exact ⟨_, rfl⟩
  | text n a g e v g' => exact ⟨_, rfl⟩
  | cdata n a g s g' => exact ⟨_, rfl⟩
  | node n a g ks g' => exact ⟨_, rfl⟩

theorem skipBom_tagged {s : Str} (h : Tagged s) : skipBom s = s := by
  rw [skipBom, if_neg]
  intro hx
  match s, hx, h with
  | a :: b :: c :: r, hx, h =>
    simp at hx
    obtain ⟨rfl, rfl, rfl⟩ := hx
    rw [Tagged, skipWs_cons (by decide)] at h
    rcases h with h | ⟨r', h⟩
    · cases h
    · simp at h
  | [], hx, _ => simp at hx
  | [_], hx, _ => simp at hx
  | [_, _], hx, _ => simp at hx

/-- A document whose part from the root element on is `body`. -/
theorem parse_parts (mark : Bool) (decl : Option (List AttrText × List Char)) (before : List XmlPiece) (doctype : Option (List Char)) (body : List XmlPiece)
    (hd : ∀ a g, decl = some (a, g) → (∀ x ∈ a, x.Ok) ∧ (∀ c ∈ g, XmlSpace c) ∧ ¬ ("?>".toList <:+: a.flatMap AttrText.text ++ g)) (hb : PiecesOk before) (hdt : ∀ t, doctype = some t → DoctypeText t)
    (hbody : PiecesOk body) (he : (piecesNodes body).any XNode.isElem = true) :
    parse ((if mark then ['\xef', '\xbb', '\xbf'] else []) ++ (declarationText decl ++ (piecesText before ++ (doctypeText doctype ++ piecesText body))))
      = some (declarationNodes decl ++ (piecesNodes before ++ (doctypeNodes doctype ++ piecesNodes body))) := by
  have T3 : Tagged (piecesText body ++ []) := pieces_tagged hbody tagged_nil
  have T2 := tagged_doctype doctype T3
  have T1 := pieces_tagged hb T2
  rw [← List.append_nil (piecesText body)]
  generalize hs : declarationText decl ++ (piecesText before ++ (doctypeText doctype ++ (piecesText body ++ []))) = s at *
  have hT : Tagged s := by
    rw [← hs]
    cases decl with
    | none => exact T1
    | some x =>
      have e : ∀ r, declarationText (some x) ++ r = '<' :: ('?' :: 'x' :: 'm' :: 'l' :: (x.1.flatMap AttrText.text ++ x.2 ++ '?' :: '>' :: r)) := by
        intro r
        simp [declarationText]
      rw [e]
      exact tagged_lt _
  have hz : '\x00' ∉ s := by
    rw [← hs]
    have z1 := XmlDoc.pieces_no_zero _ hb
    have z3 := XmlDoc.pieces_no_zero _ hbody
    have z4 : '\x00' ∉ doctypeText doctype := by
      cases hdd : doctype with
      | none => simp [doctypeText]
      | some t => simpa [doctypeText] using doctype_no_zero (hdt t hdd)
    have z5 : '\x00' ∉ declarationText decl := by
      cases hdd : decl with
      | none => simp [declarationText]
      | some x =>
        obtain ⟨a, g⟩ := x
        obtain ⟨h1, h2, -⟩ := hd a g hdd
        have h3 : '\x00' ∉ a.flatMap AttrText.text := by
          intro hm
          obtain ⟨b, hb, hm⟩ := List.mem_flatMap.mp hm
          exact XmlDoc.attr_no_zero (h1 b hb) hm
        have h4 := XmlDoc.space_no_zero h2
        simp only [declarationText, List.mem_append, not_or]
        exact ⟨⟨⟨by decide, h3⟩, h4⟩, by decide⟩
    simp only [List.mem_append, not_or]
    exact ⟨z5, z1, z4, z3, by simp⟩
  have hcs : cString ((if mark then ['\xef', '\xbb', '\xbf'] else []) ++ s) = (if mark then ['\xef', '\xbb', '\xbf'] else []) ++ s := by
    apply cString_self
    simp only [List.mem_append, not_or]
    refine ⟨?_, hz⟩
    cases mark <;> simp
  have hbom : skipBom ((if mark then ['\xef', '\xbb', '\xbf'] else []) ++ s) = s := by
    cases mark with
    | false => exact skipBom_tagged hT
    | true => rfl
  have p1 := passes_declaration hd (piecesText before ++ (doctypeText doctype ++ (piecesText body ++ []))) []
  rw [addAll_top] at p1
  have p2 := pieces_pass before hb (doctypeText doctype ++ (piecesText body ++ [])) T2 ⟨[], (declarationNodes decl).reverse ++ []⟩
  rw [addAll_top] at p2
  have p3 := passes_doctype hdt (piecesText body ++ []) ((piecesNodes before).reverse ++ ((declarationNodes decl).reverse ++ []))
  rw [addAll_top] at p3
  have p5 := pieces_pass body hbody [] tagged_nil ⟨[], (doctypeNodes doctype).reverse ++ ((piecesNodes before).reverse ++ ((declarationNodes decl).reverse ++ []))⟩
  rw [addAll_top] at p5
  have p := p1.trans (p2.trans (p3.trans p5))
  rw [hs] at p
  have hlen : s.length < ((if mark then ['\xef', '\xbb', '\xbf'] else []) ++ s).length + 1 := by
    simp only [List.length_append]
    omega
  obtain ⟨m, hm, hp⟩ := p _ hlen
  obtain ⟨m, rfl⟩ : ∃ k, m = k + 1 := ⟨m - 1, by simp at hm; omega⟩
  rw [parse, hcs, hbom, show ({} : St) = ⟨[], []⟩ from rfl, hp]
  simp [parseTree, he]

theorem parse_document {d : XmlText} (h : d.Ok) : parse d.text = some (documentNodes d) := by
  obtain ⟨hd, ⟨hb, -⟩, hdt, ⟨hbt, -⟩, ⟨hr, hrm⟩, ha, -⟩ := h
  obtain ⟨n, a, k, hn⟩ := root_elem hrm
  have := parse_parts d.mark d.declaration d.before d.doctype (d.between ++ d.root :: d.after) hd hb hdt (XmlDoc.pieces_ok_append hbt ⟨hr, ha⟩)
    (by rw [XmlDoc.pieces_nodes_append, piecesNodes, hn]; simp [XNode.isElem])
  rw [XmlDoc.pieces_append, XmlDoc.pieces_nodes_append, piecesText, piecesNodes] at this
  simpa [XmlText.text, documentNodes] using this

end Mx.Pugi
