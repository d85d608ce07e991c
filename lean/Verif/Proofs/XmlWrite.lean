import Verif.Proofs.XmlSpell

/-
The text an element is written as spells out what is kept of the element.
-/
open Spec
namespace Mx.XmlDoc
open Mx.Pugi

/-- The instructions behind an element. -/
def Elem.behind : Elem → List Instr
  | .mk _ _ p _ _ => p.filter fun i => !i.isChild

mutual
/-- The node of an element. -/
def Elem.node : Elem → XNode
  | .mk n a p v ks => .elem n a (if v ≠ [] then [.pcdata v] else (p.filter (·.isChild)).map piNode ++ Elem.nodes ks)
/-- The nodes of elements, with the instructions behind each of them. -/
def Elem.nodes : List Elem → List XNode
  | [] => []
  | e :: es => e.node :: (e.behind.map piNode ++ Elem.nodes es)
end

/-! ### Loading a text of pieces -/

theorem parse_pieces {ps : List XmlPiece} (h : PiecesOk ps) (hlt : ∃ r, piecesText ps = '<' :: r) (he : (piecesNodes ps).any XNode.isElem = true) :
    parse (piecesText ps) = some (piecesNodes ps) := by
  have h1 : cString (piecesText ps) = piecesText ps := cString_self (pieces_no_zero ps h)
  have h2 : skipBom (piecesText ps) = piecesText ps := by
    obtain ⟨r, hr⟩ := hlt
    rw [skipBom, hr, if_neg]
    intro hx
    cases r with
    | nil => exact absurd hx (by simp)
    | cons a r => simp at hx
  obtain ⟨m, hm, hp⟩ := pieces_pass ps h [] tagged_nil {} ((piecesText ps).length + 1) (by simp)
  rw [List.append_nil] at hp
  obtain ⟨m, rfl⟩ : ∃ k, m = k + 1 := ⟨m - 1, by simp at hm; omega⟩
  rw [parse, h1, h2, hp, addAll_top]
  show (match some (⟨[], (piecesNodes ps).reverse ++ []⟩ : St) with | none => none | some st => if st.top.any XNode.isElem then some st.top.reverse else none) = _
  simp [he]

theorem hasChildren_piece {p : XmlPiece} (h : p.Ok) (hlt : ∃ r, p.text' = '<' :: r) {n : Str} {a : List (Str × Str)} {kids : List XNode} (hn : p.nodes = [.elem n a kids]) :
    hasChildren p.text' = some (decide (typeOf kids = .element) && !(begin kids).isEmpty) := by
  have e : p.text' = piecesText [p] := by simp [piecesText]
  have en : piecesNodes [p] = [.elem n a kids] := by simp [piecesNodes, hn]
  have hp := parse_pieces (ps := [p]) ⟨h, trivial⟩ (by rw [← e]; exact hlt) (by rw [en]; rfl)
  rw [hasChildren, loadStream, e, hp, en]
  rfl

/-! ### The nodes of children -/

def XNode.isText : XNode → Bool
  | .pcdata _ => true
  | .cdata _ => true
  | _ => false

theorem textOf_none {l : List XNode} (h : ∀ x ∈ l, XNode.isText x = false) : textOf l = [] := by
  induction l with
  | nil => rfl
  | cons x l ih =>
    have hx := h x List.mem_cons_self
    have := ih (fun y hy => h y (List.mem_cons_of_mem x hy))
    cases x <;> simp_all [textOf, XNode.isText]

theorem node_not_text (e : Elem) : XNode.isText e.node = false := by
  cases e; rfl

theorem nodes_no_text (l : List Elem) : ∀ x ∈ Elem.nodes l, XNode.isText x = false := by
  induction l with
  | nil => simp [Elem.nodes]
  | cons e l ih =>
    intro x hx
    rw [Elem.nodes] at hx
    rcases List.mem_cons.mp hx with rfl | hx
    · exact node_not_text e
    · rcases List.mem_append.mp hx with hx | hx
      · obtain ⟨i, -, rfl⟩ := List.mem_map.mp hx
        rfl
      · exact ih x hx

theorem nodes_head (e : Elem) (l : List Elem) : ∃ n a k r, Elem.nodes (e :: l) = .elem n a k :: r := by
  obtain ⟨n, a, p, v, ks⟩ := e
  exact ⟨n, a, _, _, by rw [Elem.nodes, Elem.node]⟩

theorem has_nodes (l : List Elem) : (decide (typeOf (Elem.nodes l) = .element) && !(begin (Elem.nodes l)).isEmpty) = !l.isEmpty := by
  cases l with
  | nil => rfl
  | cons e l =>
    have h1 := textOf_none (nodes_no_text (e :: l))
    obtain ⟨n, a, k, r, h2⟩ := nodes_head e l
    rw [typeOf, if_neg (by simp [h1]), h2]
    rfl

theorem keptAll_isEmpty (l : List Elem) : (keptAll l).isEmpty = l.isEmpty := by
  cases l <;> rfl

theorem lineEnds_nil {v : Str} (h : lineEnds v = []) : v = [] := by
  match v with
  | [] => rfl
  | c :: r =>
    exfalso
    revert h
    rw [lineEnds.eq_def]
    split <;> simp_all

/-! ### Elements -/

/-- The start tag of a piece. -/
theorem tag_written {n : Str} {a : List (Str × Str)} (hn : XmlName n) (ha : ∀ x ∈ a, AttrOk x) : TagOk n (writtenAttrs a) [] :=
  ⟨hn, written_ok ha, by simp⟩

theorem filter_all {q : Instr → Bool} {l : List Instr} {f : Instr → Instr} (h : ∀ i, q (f i) = true) : (l.map f).filter q = l.map f := by
  rw [List.filter_eq_self]
  intro x hx
  obtain ⟨i, -, rfl⟩ := List.mem_map.mp hx
  exact h i

theorem filter_none {q : Instr → Bool} {l : List Instr} {f : Instr → Instr} (h : ∀ i, q (f i) = false) : (l.map f).filter q = [] := by
  rw [List.filter_eq_nil_iff]
  intro x hx
  obtain ⟨i, -, rfl⟩ := List.mem_map.mp hx
  simp [h i]

theorem kept_filter_child (l : List Instr) : (keptInstrs true l).filter (·.isChild) = (l.filter (·.isChild)).map (keptInstr true) := by
  rw [keptInstrs, if_pos rfl, List.filter_append, filter_all (fun _ => rfl), filter_none (fun _ => rfl), List.append_nil]

theorem kept_filter_behind (l : List Instr) : (keptInstrs true l).filter (fun i => !i.isChild) = (l.filter (fun i => !i.isChild)).map (keptInstr false) := by
  rw [keptInstrs, if_pos rfl, List.filter_append, filter_none (fun _ => rfl), filter_all (fun _ => rfl), List.nil_append]

theorem kept_none_child (l : List Instr) : (keptInstrs false l).filter (·.isChild) = [] := by
  rw [keptInstrs, if_neg (by simp), List.filter_eq_nil_iff]
  intro x hx
  obtain ⟨i, -, rfl⟩ := List.mem_map.mp hx
  simp [keptInstr]

theorem kept_none_behind (l : List Instr) : (keptInstrs false l).filter (fun i => !i.isChild) = l.map (keptInstr false) := by
  rw [keptInstrs, if_neg (by simp), List.filter_eq_self]
  intro x hx
  obtain ⟨i, -, rfl⟩ := List.mem_map.mp hx
  simp [keptInstr]

/-- An element of white space and children, without instructions: its piece. -/
theorem without_piece (level : Nat) {n : Str} {a : List (Str × Str)} (hn : XmlName n) (ha : ∀ x ∈ a, AttrOk x) (ps : List XmlPiece) (hp : PiecesOk ps) (o full : Bool) :
    ∃ p : XmlPiece, p.Ok ∧ (∃ r, p.text' = '<' :: r) ∧ p.text' = streamWithout level n a ⟨piecesText ps, o, full⟩
      ∧ p.nodes = [.elem n (a.map fun x => (x.1, blanks x.2)) (if (Contents.mk (piecesText ps) o full).selfClosing then [] else piecesNodes ps)] := by
  cases hs : (Contents.mk (piecesText ps) o full).selfClosing with
  | true =>
    refine ⟨.empty n (writtenAttrs a) [], tag_written hn ha, ⟨_, rfl⟩, ?_, ?_⟩
    · rw [streamWithout, hs, if_pos rfl]
      simp [XmlPiece.text', tagText, written_text, selfCloseTag]
    · simp [XmlPiece.nodes, written_values]
  | false =>
    refine ⟨.node n (writtenAttrs a) [] (ps ++ [.space (if o then [] else indent level)]) [], ⟨tag_written hn ha, by simp, pieces_ok_append hp ⟨?_, trivial⟩⟩, ⟨_, rfl⟩, ?_, ?_⟩
    · cases o
      · exact indent_space level
      · intro c hc; simp at hc
    · rw [streamWithout, hs, if_neg (show ¬ (false = true) from by simp)]
      cases o <;> simp [XmlPiece.text', tagText, written_text, openTag, closeTag, endTagText, pieces_append, piecesText]
    · simp [XmlPiece.nodes, written_values, pieces_nodes_append, piecesNodes]

/-- Contents that consist of nothing: no nodes. -/
theorem selfClosing_nodes {ps : List XmlPiece} (hp : PiecesOk ps) {o full : Bool} (h : (Contents.mk (piecesText ps) o full).selfClosing = true) : piecesNodes ps = [] := by
  have h1 : piecesText ps = [] := by
    simp only [Contents.selfClosing, Bool.and_eq_true, List.isEmpty_iff] at h
    exact h.1
  clear h
  induction ps with
  | nil => rfl
  | cons p ps ih =>
    rw [piecesText, List.append_eq_nil_iff] at h1
    rw [piecesNodes, ih hp.2 h1.2]
    cases p with
    | space w => rfl
    | comment s => rfl
    | instruction n g d => simp [XmlPiece.text'] at h1
    | bare n => simp [XmlPiece.text'] at h1
    | cdata n a g s g' => simp [XmlPiece.text', tagText] at h1
    | empty n a g => simp [XmlPiece.text', tagText] at h1
    | text n a g e v g' => simp [XmlPiece.text', tagText] at h1
    | node n a g ks g' => simp [XmlPiece.text', tagText] at h1

/-- An element of white space and children, whose contents stand for the children `ks`. -/
theorem assemble_kids (level : Nat) {n : Str} {a : List (Str × Str)} (hn : XmlName n) (ha : ∀ x ∈ a, AttrOk x) {pis : List Instr} (hi : ∀ i ∈ pis, InstrOk i)
    {ps ps0 : List XmlPiece} (hp : PiecesOk ps) (hp0 : PiecesOk ps0) (o full : Bool) (ks : List Elem)
    (hk : piecesNodes ps = Elem.nodes ks) (hk0 : piecesNodes ps0 = Elem.nodes ks) :
    ∃ qs, assemble level n a pis (some ⟨piecesText ps, o, full⟩) (some ⟨piecesText ps0, o, full⟩) = some (piecesText qs) ∧ PiecesOk qs
      ∧ piecesNodes qs = Elem.nodes [.mk n (a.map fun x => (x.1, blanks x.2)) (keptInstrs (!ks.isEmpty) pis) [] ks] := by
  by_cases h0 : pis = []
  · subst h0
    obtain ⟨p, h1, -, h2, h3⟩ := without_piece level hn ha ps hp o full
    refine ⟨[.space (indent level), p], ?_, ⟨indent_space level, h1, trivial⟩, ?_⟩
    · rw [assemble, if_pos rfl]
      simp [piecesText, XmlPiece.text', h2]
    · have e : (if (Contents.mk (piecesText ps) o full).selfClosing then [] else piecesNodes ps) = Elem.nodes ks := by
        cases hs : (Contents.mk (piecesText ps) o full).selfClosing with
        | true => rw [if_pos rfl, ← hk, selfClosing_nodes hp hs]
        | false => rw [if_neg (by simp), hk]
      have e2 : ∀ b, keptInstrs b [] = [] := by intro b; cases b <;> rfl
      simp [piecesNodes, XmlPiece.nodes, h3, Elem.nodes, Elem.node, Elem.behind, e, e2]
  · obtain ⟨p, h1, hlt, h2, h3⟩ := without_piece 0 hn ha ps0 hp0 o full
    have e0 : (if (Contents.mk (piecesText ps0) o full).selfClosing then [] else piecesNodes ps0) = Elem.nodes ks := by
      cases hs : (Contents.mk (piecesText ps0) o full).selfClosing with
      | true => rw [if_pos rfl, ← hk0, selfClosing_nodes hp0 hs]
      | false => rw [if_neg (by simp), hk0]
    have hhas : hasChildren (streamWithout 0 n a ⟨piecesText ps0, o, full⟩) = some (!ks.isEmpty) := by
      rw [← h2, hasChildren_piece h1 hlt h3, e0, has_nodes]
    rw [assemble, if_neg h0]
    simp only [Option.bind_some, hhas, Option.map_some]
    have hiAll : ∀ q : Instr → Bool, ∀ i ∈ pis.filter q, InstrOk i := fun q i hx => hi i (List.mem_of_mem_filter hx)
    cases hs : (Contents.mk (piecesText ps) o full).selfClosing with
    | true =>
      have hke : ks = [] := by
        have := selfClosing_nodes hp hs
        rw [hk] at this
        cases ks with
        | nil => rfl
        | cons e ks => rw [Elem.nodes] at this; cases this
      subst hke
      obtain ⟨is, i1, i2, i3⟩ := instrs_pieces level false pis hi
      refine ⟨.space (indent level) :: .empty n (writtenAttrs a) [] :: .space ['\n'] :: is, ?_, ⟨indent_space level, tag_written hn ha, by simp [XmlPiece.Ok, XmlSpace], i1⟩, ?_⟩
      · rw [streamWith, hs, if_pos rfl]
        simp [piecesText, XmlPiece.text', tagText, written_text, selfCloseTag, i2]
      · simp only [piecesNodes, XmlPiece.nodes, i3, written_values, Elem.nodes, Elem.node, Elem.behind, List.isEmpty_nil, Bool.not_true, kept_none_child, kept_none_behind]
        simp
    | false =>
      have hlay : (XmlPiece.space (if o then [] else indent level)).Ok := by
        cases o
        · exact indent_space level
        · intro c hc; simp at hc
      cases hke : ks.isEmpty with
      | true =>
        have hke' : ks = [] := List.isEmpty_iff.mp hke
        subst hke'
        obtain ⟨is, i1, i2, i3⟩ := instrs_pieces level false pis hi
        refine ⟨.space (indent level) :: .node n (writtenAttrs a) [] (ps ++ [.space (if o then [] else indent level)]) [] :: .space ['\n'] :: is, ?_,
          ⟨indent_space level, ⟨tag_written hn ha, by simp, pieces_ok_append hp ⟨hlay, trivial⟩⟩, by simp [XmlPiece.Ok, XmlSpace], i1⟩, ?_⟩
        · rw [streamWith, hs, if_neg (by simp)]
          simp [piecesText, XmlPiece.text', tagText, written_text, openTag, closeTag, endTagText, pieces_append, i2]
        · simp only [piecesNodes, XmlPiece.nodes, pieces_nodes_append, i3, hk, written_values, Elem.nodes, Elem.node, Elem.behind, Bool.not_true, kept_none_child, kept_none_behind]
          simp
      | false =>
        obtain ⟨is, i1, i2, i3⟩ := instrs_pieces (level + 1) true _ (hiAll (·.isChild))
        obtain ⟨js, j1, j2, j3⟩ := instrs_pieces level false _ (hiAll (fun i => !i.isChild))
        refine ⟨.space (indent level) :: .node n (writtenAttrs a) [] (is ++ (ps ++ [.space (if o then [] else indent level)])) [] :: .space ['\n'] :: js, ?_,
          ⟨indent_space level, ⟨tag_written hn ha, by simp, pieces_ok_append i1 (pieces_ok_append hp ⟨hlay, trivial⟩)⟩, by simp [XmlPiece.Ok, XmlSpace], j1⟩, ?_⟩
        · rw [streamWith, hs, if_neg (by simp)]
          simp [piecesText, XmlPiece.text', tagText, written_text, openTag, closeTag, endTagText, pieces_append, i2, j2]
        · simp only [piecesNodes, XmlPiece.nodes, pieces_nodes_append, i3, j3, hk, written_values, Elem.nodes, Elem.node, Elem.behind, Bool.not_false, kept_filter_child, kept_filter_behind]
          simp

/-- An element with a text that is not white space. -/
theorem assemble_text (level : Nat) {n : Str} {a : List (Str × Str)} (hn : XmlName n) (ha : ∀ x ∈ a, AttrOk x) {pis : List Instr} (hi : ∀ i ∈ pis, InstrOk i)
    {v : Str} (hv : '\x00' ∉ v) (hm : ∃ c ∈ v, ¬ XmlSpace c) (full : Bool) :
    ∃ qs, assemble level n a pis (some ⟨escapeXml v, true, full⟩) (some ⟨escapeXml v, true, full⟩) = some (piecesText qs) ∧ PiecesOk qs
      ∧ piecesNodes qs = Elem.nodes [.mk n (a.map fun x => (x.1, blanks x.2)) (keptInstrs false pis) (lineEnds v) []] := by
  have hne : lineEnds v ≠ [] := by
    intro h
    obtain ⟨c, hc, -⟩ := hm
    rw [lineEnds_nil h] at hc
    simp at hc
  have hs : (Contents.mk (escapeXml v) true full).selfClosing = false := by
    obtain ⟨c, hc, -⟩ := escapeXml_mark hm
    cases he : escapeXml v with
    | nil => rw [he] at hc; simp at hc
    | cons x l => rfl
  have hok : (XmlPiece.text n (writtenAttrs a) [] (escapeXml v) (lineEnds v) []).Ok := ⟨tag_written hn ha, by simp, text_written v hv, escapeXml_mark hm⟩
  have htext : ∀ level, (XmlPiece.text n (writtenAttrs a) [] (escapeXml v) (lineEnds v) []).text' = streamWithout level n a ⟨escapeXml v, true, full⟩ := by
    intro level
    rw [streamWithout, hs, if_neg (by simp)]
    simp [XmlPiece.text', tagText, written_text, openTag, closeTag, endTagText]
  by_cases h0 : pis = []
  · subst h0
    refine ⟨[.space (indent level), .text n (writtenAttrs a) [] (escapeXml v) (lineEnds v) []], ?_, ⟨indent_space level, hok, trivial⟩, ?_⟩
    · rw [assemble, if_pos rfl]
      simp [piecesText, htext level, XmlPiece.text'.eq_1]
    · simp [piecesNodes, XmlPiece.nodes, written_values, Elem.nodes, Elem.node, Elem.behind, hne, keptInstrs]
  · have hhas : hasChildren (streamWithout 0 n a ⟨escapeXml v, true, full⟩) = some false := by
      rw [← htext 0, hasChildren_piece hok ⟨_, rfl⟩ rfl]
      simp [typeOf, textOf, hne]
    rw [assemble, if_neg h0]
    simp only [Option.bind_some, hhas, Option.map_some]
    obtain ⟨is, i1, i2, i3⟩ := instrs_pieces level false pis hi
    refine ⟨.space (indent level) :: .text n (writtenAttrs a) [] (escapeXml v) (lineEnds v) [] :: .space ['\n'] :: is, ?_, ⟨indent_space level, hok, by simp [XmlPiece.Ok, XmlSpace], i1⟩, ?_⟩
    · rw [streamWith, hs, if_neg (by simp)]
      simp [piecesText, XmlPiece.text', tagText, written_text, openTag, closeTag, endTagText, i2]
    · simp only [piecesNodes, XmlPiece.nodes, i3, written_values, Elem.nodes, Elem.node, Elem.behind, kept_none_behind, ne_eq, hne]
      simp

mutual
theorem elem_written (e : CElem) (hw : Writable (contents e)) (hl : Laid e) (level : Nat) :
    ∃ ps, toStream level e = some (piecesText ps) ∧ PiecesOk ps ∧ piecesNodes ps = Elem.nodes [kept (contents e)] := by
  cases e with
  | text n a p v full =>
    obtain ⟨hn, ha, hi, hv, -⟩ := hw
    by_cases hm : ∀ c ∈ v, XmlSpace c
    · have e1 : escapeXml v = piecesText [.space v] := by simp [escapeXml_space hm, piecesText, XmlPiece.text']
      have := assemble_kids level hn ha hi (ps := [.space v]) (ps0 := [.space v]) ⟨hm, trivial⟩ ⟨hm, trivial⟩ true full [] rfl rfl
      rw [← e1] at this
      simpa only [toStream, contents, kept, keptAll, keptText, if_pos hm, List.isEmpty_nil, Bool.not_true] using this
    · have hm' : ∃ c ∈ v, ¬ XmlSpace c := by
        simpa only [not_forall, exists_prop] using hm
      have := assemble_text level hn ha hi hv hm' full
      simpa only [toStream, contents, kept, keptAll, keptText, if_neg hm, List.isEmpty_nil, Bool.not_true] using this
  | node n a p ks o full =>
    obtain ⟨hn, ha, hi, -, hk⟩ := hw
    obtain ⟨ps, h1, h2, h3⟩ := kids_written ks hk hl level
    obtain ⟨ps0, h4, h5, h6⟩ := kids_written ks hk hl 0
    have := assemble_kids level hn ha hi h2 h5 o full _ h3 h6
    rw [keptAll_isEmpty] at this
    simpa only [toStream, h1, h4, Option.map_some, contents, kept, show keptText [] = [] from rfl] using this
theorem kids_written (ks : CKids) (hw : WritableAll (contentsAll ks)) (hl : LaidKids ks) (level : Nat) :
    ∃ ps, kidsToStream level ks = some (piecesText ps) ∧ PiecesOk ps ∧ piecesNodes ps = Elem.nodes (keptAll (contentsAll ks)) := by
  cases ks with
  | nil l => exact ⟨[.space l], by simp [kidsToStream, piecesText, XmlPiece.text'], ⟨hl, trivial⟩, rfl⟩
  | cons g e r =>
    obtain ⟨ps, h1, h2, h3⟩ := elem_written e hw.1 hl.2.1 (level + 1)
    obtain ⟨qs, h4, h5, h6⟩ := kids_written r hw.2 hl.2.2 level
    refine ⟨.space g :: (ps ++ qs), ?_, ⟨hl.1, pieces_ok_append h2 h5⟩, ?_⟩
    · simp [kidsToStream, h1, h4, piecesText, XmlPiece.text', pieces_append]
    · rw [piecesNodes, pieces_nodes_append, h3, h6]
      simp [XmlPiece.nodes, contentsAll, keptAll, Elem.nodes]
end

end Mx.XmlDoc
