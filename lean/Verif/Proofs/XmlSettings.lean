import Verif.Spec.XmlSettings
import Verif.Proofs.XmlSave

open Spec
namespace Mx.XmlDoc
open Mx.Pugi

/-- What stands behind the declaration. -/
def behindDecl (s : Settings) (rest : List XNode) : List XNode := (match s.doctype with
  | none => []
  | some v => [.doctype v]) ++ rest

/-- The attribute `standalone`. -/
def saAttr : Option Bool → List (Str × Str)
  | none => []
  | some b => [(chars "standalone", yesNo b)]

def NotDoctype (rest : List XNode) : Prop := ∀ v r, rest ≠ .doctype v :: r

theorem doctype_nodes {a : List (Str × Str)} {s : Settings} {rest : List XNode} (h : NotDoctype rest) : doctypeOf (.decl (chars "xml") a :: behindDecl s rest) = s.doctype := by
  unfold behindDecl
  cases hd : s.doctype with
  | some v => rfl
  | none =>
    match rest, h with
    | [], _ => rfl
    | .doctype v :: r, h => exact absurd rfl (h v r)
    | .elem .. :: _, _ => rfl
    | .pcdata .. :: _, _ => rfl
    | .cdata .. :: _, _ => rfl
    | .pi .. :: _, _ => rfl
    | .decl .. :: _, _ => rfl

theorem has_standalone (s : Settings) : (attr (chars "standalone") s.attributes).isSome = s.standalone.isSome := by
  obtain ⟨v, e, b, t⟩ := s
  cases v <;> cases e <;> (rcases b with _ | _ | _) <;> rfl

/-- A document is known by its nodes and members. -/
theorem declares_mk {d : DocState} {s : Settings} {rest : List XNode} (hr : NotDoctype rest) (h1 : d.version = s.version) (h2 : d.encoding = s.encoding) (h3 : d.standalone = s.standalone.getD false)
    (h4 : d.nodes = .decl (chars "xml") s.attributes :: behindDecl s rest) : Declares d s rest where
  version := h1
  encoding := h2
  standalone := h3
  hasStandalone := by
    rw [hasStandalone, declarationAttr, h4, ← has_standalone s]
    rfl
  hasDoctype := by rw [h4, doctype_nodes hr]
  doctype := by rw [doctypeText, h4, doctype_nodes hr]
  nodes := h4

theorem removeDoctype_nodes {a : List (Str × Str)} {s : Settings} {rest : List XNode} (h : s.doctype.isSome = true) :
    removeDoctype (.decl (chars "xml") a :: behindDecl s rest) = .decl (chars "xml") a :: rest := by
  unfold behindDecl
  cases hd : s.doctype with
  | some v => rfl
  | none => rw [hd] at h; exact nomatch h

theorem decl_of (a : List (Str × Str)) (r : List XNode) : declarationOf (.decl (chars "xml") a :: r) = some a := rfl

theorem call_declares {d : DocState} {s : Settings} {rest : List XNode} (hr : NotDoctype rest) (h : Declares d s rest) (c : SettingCall) :
    match s.after c with
    | some s' => ∃ d', callSetting d c = some d' ∧ Declares d' s' rest
    | none => callSetting d c = none := by
  have hn : d.nodes = .decl (chars "xml") s.attributes :: behindDecl s rest := h.nodes
  have hs := h.hasStandalone
  have hv := h.version
  have he := h.encoding
  have hst := h.standalone
  have hdo := h.hasDoctype
  cases c with
  | xmlVersion v =>
    by_cases hv0 : v = .unknown
    · subst hv0; rfl
    · simp only [Settings.after, hv0, if_false, callSetting, setXmlVersion, hn]
      obtain ⟨sv, se, sb, st⟩ := s
      refine ⟨_, rfl, declares_mk hr rfl he hst ?_⟩
      cases v with
      | unknown => exact absurd rfl hv0
      | onePointZero => rfl
      | onePointOne => rfl
  | encoding e =>
    by_cases he0 : e = .unknown
    · subst he0; rfl
    · simp only [Settings.after, he0, if_false, callSetting, setEncoding, hn, decl_of, Option.bind_some]
      obtain ⟨sv, se, sb, st⟩ := s
      rw [if_pos (by first | trivial | rfl)]
      refine ⟨_, rfl, declares_mk hr hv rfl hst ?_⟩
      cases e with
      | unknown => exact absurd rfl he0
      | utfEight => rcases sb with _ | _ | _ <;> rfl
      | utfSixteen => rcases sb with _ | _ | _ <;> rfl
  | hasStandalone b =>
    obtain ⟨sv, se, sb, st⟩ := s
    simp only at hst hs hv he
    cases b with
    | true =>
      simp only [Settings.after, callSetting, setHasStandalone, hs]
      cases sb with
      | some b =>
        rw [if_pos (by first | trivial | rfl)]
        exact ⟨d, rfl, h⟩
      | none =>
        rw [if_neg (by simp), if_pos (by first | trivial | rfl), hn, decl_of]
        refine ⟨_, rfl, declares_mk hr hv he hst ?_⟩
        rw [hst]
        rfl
    | false =>
      simp only [Settings.after, callSetting, setHasStandalone, hs]
      cases sb with
      | none =>
        rw [if_pos (by first | trivial | rfl)]
        exact ⟨d, rfl, h⟩
      | some b =>
        rw [if_neg (by simp), if_neg (by simp), hn, decl_of]
        refine ⟨_, rfl, declares_mk hr hv he rfl ?_⟩
        cases b <;> rfl
  | isStandalone b =>
    obtain ⟨sv, se, sb, st⟩ := s
    simp only at hst hs hv he
    simp only [Settings.after, callSetting, setIsStandalone, setHasStandalone, hs]
    cases sb with
    | some b' =>
      rw [if_pos (by first | trivial | rfl), Option.bind_some, hn, decl_of]
      refine ⟨_, rfl, declares_mk hr hv he rfl ?_⟩
      cases b <;> cases b' <;> rfl
    | none =>
      rw [if_neg (by simp), if_pos (by first | trivial | rfl), hn, decl_of]
      refine ⟨_, rfl, declares_mk hr hv he rfl ?_⟩
      rw [hst]
      cases b <;> rfl
  | hasDoctype b =>
    cases b with
    | true =>
      simp only [Settings.after, callSetting, setHasDoctype, hdo]
      cases ht : s.doctype with
      | some v =>
        refine ⟨d, rfl, ?_⟩
        have hs' : { s with doctype := some ((some v).getD []) } = s := by
          obtain ⟨sv, se, sb, st⟩ := s
          simp only at ht
          subst ht
          rfl
        rw [hs']
        exact h
      | none =>
        rw [if_neg (by simp), if_pos (by first | trivial | rfl), hn]
        refine ⟨_, rfl, declares_mk hr hv he hst ?_⟩
        simp only [behindDecl, ht]
        rfl
    | false =>
      simp only [Settings.after, callSetting, setHasDoctype, hdo]
      cases ht : s.doctype with
      | none =>
        refine ⟨d, rfl, ?_⟩
        have hs' : { s with doctype := none } = s := by
          obtain ⟨sv, se, sb, st⟩ := s
          simp only at ht
          subst ht
          rfl
        rw [hs']
        exact h
      | some v =>
        rw [if_neg (by simp), if_neg (by simp)]
        refine ⟨_, rfl, declares_mk hr hv he hst ?_⟩
        show removeDoctype d.nodes = _
        rw [hn, removeDoctype_nodes (by rw [ht]; rfl)]
        rfl
  | doctypeValue v =>
    simp only [Settings.after, callSetting, setDoctypeValue, setHasDoctype, hdo]
    cases ht : s.doctype with
    | some w =>
      rw [if_pos (by first | trivial | rfl)]
      refine ⟨_, rfl, declares_mk hr hv he hst ?_⟩
      show putDoctype v d.nodes = _
      rw [hn]
      simp only [behindDecl, ht]
      rfl
    | none =>
      rw [if_neg (by simp), if_pos (by first | trivial | rfl), hn]
      refine ⟨_, rfl, declares_mk hr hv he hst ?_⟩
      simp only [behindDecl, ht]
      rfl

theorem calls_declare {rest : List XNode} (hr : NotDoctype rest) : ∀ (cs : List SettingCall) {d : DocState} {s : Settings}, Declares d s rest →
    (callSettings d cs).2 = (s.afterAll cs).2 ∧ Declares (callSettings d cs).1 (s.afterAll cs).1 rest
  | [], d, s, h => ⟨rfl, h⟩
  | c :: cs, d, s, h => by
    have hc := call_declares hr h c
    rw [callSettings, Settings.afterAll]
    cases ha : s.after c with
    | none =>
      rw [ha] at hc
      rw [show callSetting d c = none from hc]
      obtain ⟨h1, h2⟩ := calls_declare hr cs h
      exact ⟨by rw [h1], h2⟩
    | some s' =>
      rw [ha] at hc
      obtain ⟨d', hd, h'⟩ := hc
      rw [hd]
      obtain ⟨h1, h2⟩ := calls_declare hr cs h'
      simp only
      exact ⟨by rw [h1], h2⟩

/-! ### Loading -/

/-- What happens after the parser, on attributes that are already complete. -/
theorem load_complete (d : DocState) {s : Settings} {rest : List XNode} (hr : NotDoctype rest) (hv : s.version ≠ .unknown) {e : Str} {text : Str} {nodes : List XNode} (hp : parse text = some nodes)
    (hc : completeDeclaration nodes = .decl (chars "xml") ((chars "version", s.version.text) :: (chars "encoding", e) :: saAttr s.standalone) :: behindDecl s rest) (he : s.encoding = .utfEight) :
    ∃ d', loadInto d text = some d' ∧ Declares d' s rest := by
  obtain ⟨sv, se, sb, st⟩ := s
  simp only at hv he hc
  subst he
  unfold loadInto
  rw [hp, Option.bind_some, hc]
  have hver : parseXmlVersion sv.text = sv := by cases sv <;> first | rfl | exact absurd rfl hv
  have hne : sv.text ≠ [] := by cases sv <;> simp [XmlVersion.text]
  refine ⟨⟨.decl (chars "xml") (Settings.attributes ⟨sv, .utfEight, sb, st⟩) :: behindDecl ⟨sv, .utfEight, sb, st⟩ rest, sv, .utfEight, sb.getD false⟩, ?_, declares_mk hr rfl rfl rfl rfl⟩
  have h1 : readVersion { d with nodes := .decl (chars "xml") ((chars "version", sv.text) :: (chars "encoding", e) :: saAttr sb) :: behindDecl ⟨sv, .utfEight, sb, st⟩ rest } = some ⟨.decl (chars "xml") ((chars "version", sv.text) :: (chars "encoding", e) :: saAttr sb) :: behindDecl ⟨sv, .utfEight, sb, st⟩ rest, sv, d.encoding, d.standalone⟩ := by
    unfold readVersion
    rw [decl_of, Option.bind_some, if_neg (show ¬ (attr (chars "version") ((chars "version", sv.text) :: (chars "encoding", e) :: saAttr sb)).getD [] = [] from hne)]
    rw [show (attr (chars "version") ((chars "version", sv.text) :: (chars "encoding", e) :: saAttr sb)).getD [] = sv.text from rfl, hver]
  rw [h1, Option.bind_some]
  rcases sb with _ | _ | _ <;> cases sv <;> first | rfl | exact absurd rfl hv

theorem complete_says {l : List (Str × Str)} {v : XmlVersion} {b : Option Bool} (h : DeclarationSays l v b) (r : List XNode) :
    ∃ e, completeDeclaration (.decl (chars "xml") l :: r) = .decl (chars "xml") ((chars "version", v.text) :: (chars "encoding", e) :: saAttr b) :: r ∧ v ≠ .unknown := by
  cases h with
  | bare v b hv =>
    refine ⟨chars "UTF-8", ?_, hv⟩
    (rcases b with _ | _ | _) <;> cases v <;> first | rfl | exact absurd rfl hv
  | full v e b hv =>
    refine ⟨e, ?_, hv⟩
    (rcases b with _ | _ | _) <;> cases v <;> first | rfl | exact absurd rfl hv

/-- Nodes that come from pieces of a document are no document types. -/
theorem pieces_notDoctype : ∀ ps : List XmlPiece, NotDoctype (piecesNodes ps)
  | [] => fun v r h => by simp [piecesNodes] at h
  | p :: ps => by
    intro v r h
    have ih := pieces_notDoctype ps
    rw [piecesNodes] at h
    cases p with
    | space s => exact ih v r h
    | comment s => exact ih v r h
    | instruction n g d => exact nomatch h
    | bare n => exact nomatch h
    | empty n a g => exact nomatch h
    | text n a g e w g' => exact nomatch h
    | cdata n a g s g' => exact nomatch h
    | node n a g ks g' => exact nomatch h

theorem load_text (d : DocState) {x : XmlText} (h : x.Ok) (hb : piecesNodes x.before = []) {v : XmlVersion} {b : Option Bool}
    (hd : match x.declaration with
      | none => v = .onePointZero ∧ b = none
      | some (a, _) => DeclarationSays (attrValues a) v b) :
    ∃ d', loadInto d x.text = some d' ∧ Declares d' ⟨v, .utfEight, b, x.doctype.map Pugi.skipWs⟩ (piecesNodes (x.between ++ x.root :: x.after)) := by
  have hp := parse_document h
  have hn : documentNodes x = declarationNodes x.declaration ++ behindDecl ⟨v, .utfEight, b, x.doctype.map Pugi.skipWs⟩ (piecesNodes (x.between ++ x.root :: x.after)) := by
    rw [documentNodes, hb, behindDecl, pieces_nodes_append, piecesNodes]
    cases x.doctype <;> simp [doctypeNodes]
  rw [hn] at hp
  have hnd := pieces_notDoctype (x.between ++ x.root :: x.after)
  cases hx : x.declaration with
  | none =>
    rw [hx] at hd hp
    obtain ⟨rfl, rfl⟩ := hd
    refine load_complete d hnd (by simp) (e := chars "UTF-8") hp ?_ rfl
    show completeDeclaration (behindDecl _ _) = _
    generalize hg : behindDecl ⟨.onePointZero, .utfEight, none, x.doctype.map Pugi.skipWs⟩ (piecesNodes (x.between ++ x.root :: x.after)) = l
    have : ∀ n a r, l ≠ .decl n a :: r := by
      intro n a r hl
      subst hg
      have hpn : ∀ ps : List XmlPiece, ∀ n a r, piecesNodes ps ≠ .decl n a :: r := by
        intro ps
        induction ps with
        | nil => intro n a r hh; simp [piecesNodes] at hh
        | cons p ps ih =>
          intro n a r hh
          rw [piecesNodes] at hh
          cases p with
          | space s => exact ih n a r hh
          | comment s => exact ih n a r hh
          | instruction n g d => exact nomatch hh
          | bare n => exact nomatch hh
          | empty n a g => exact nomatch hh
          | text n a g e w g' => exact nomatch hh
          | cdata n a g s g' => exact nomatch hh
          | node n a g ks g' => exact nomatch hh
      unfold behindDecl at hl
      cases hdt : x.doctype with
      | none => rw [hdt] at hl; exact hpn _ n a r hl
      | some t => rw [hdt] at hl; exact nomatch hl
    match l, this with
    | [], _ => rfl
    | .decl n a :: r, h => exact absurd rfl (h n a r)
    | .doctype .. :: _, _ => rfl
    | .elem .. :: _, _ => rfl
    | .pcdata .. :: _, _ => rfl
    | .cdata .. :: _, _ => rfl
    | .pi .. :: _, _ => rfl
  | some y =>
    obtain ⟨a, g⟩ := y
    rw [hx] at hd hp
    obtain ⟨e, he, hv⟩ := complete_says hd (behindDecl ⟨v, .utfEight, b, x.doctype.map Pugi.skipWs⟩ (piecesNodes (x.between ++ x.root :: x.after)))
    exact load_complete d hnd hv hp he rfl

/-! ### Saving -/

theorem attributes_ok (s : Settings) : ∀ x ∈ s.attributes, XmlName x.1 ∧ '\x00' ∉ x.2 := by
  have h1 : XmlName (chars "version") := ⟨⟨_, _, rfl, by decide⟩, by decide⟩
  have h2 : XmlName (chars "encoding") := ⟨⟨_, _, rfl, by decide⟩, by decide⟩
  have h3 : XmlName (chars "standalone") := ⟨⟨_, _, rfl, by decide⟩, by decide⟩
  obtain ⟨v, e, b, t⟩ := s
  intro x hx
  unfold Settings.attributes at hx
  simp only [List.mem_cons] at hx
  rcases hx with rfl | rfl | hx
  · exact ⟨h1, by cases v <;> decide⟩
  · exact ⟨h2, by cases e <;> decide⟩
  · (rcases b with _ | _ | _)
    · exact nomatch hx
    · obtain rfl := List.mem_singleton.mp hx
      exact ⟨h3, by decide⟩
    · obtain rfl := List.mem_singleton.mp hx
      exact ⟨h3, by decide⟩

theorem no_end {l : Str} (h : '?' ∉ l) : ¬ ("?>".toList <:+: l) := fun hi => h (hi.subset (by decide))

theorem attributes_noEnd (s : Settings) : ¬ ("?>".toList <:+: (printedAttrs s.attributes).flatMap AttrText.text ++ []) := by
  rw [printed_text]
  apply no_end
  obtain ⟨v, e, b, t⟩ := s
  show '?' ∉ outAttrs (Settings.attributes ⟨v, e, b, none⟩) ++ []
  clear t
  cases v <;> cases e <;> (rcases b with _ | _ | _) <;> decide

/-- The text that is written is the text of a well formed document. -/
theorem print_pieces {s : Settings} {l : List XNode} {ps : List XmlPiece} (h2 : outNodes .line 0 l = (piecesText ps, .line)) :
    print (.decl (chars "xml") s.attributes :: behindDecl s l) =
      declarationText (some (printedAttrs s.attributes, [])) ++ (piecesText (if s.doctype.isSome then [.space ['\n']] else []) ++ (Spec.doctypeText (s.doctype.map (' ' :: ·)) ++ piecesText (ps ++ [.space ['\n']]))) := by
  have e2 : outNode .start 0 (.decl (chars "xml") s.attributes) = (declarationText (some (printedAttrs s.attributes, [])), .line) := by
    rw [outNode, declarationText, printed_text]
    simp [outIndent]
  unfold behindDecl
  cases hd : s.doctype with
  | none =>
    have e1 : outNodes .start 0 (.decl (chars "xml") s.attributes :: ([] ++ l)) = (declarationText (some (printedAttrs s.attributes, [])) ++ piecesText ps, .line) := by
      rw [outNodes, e2, List.nil_append, h2]
    simp only
    rw [print, e1, pieces_append]
    simp [piecesText, XmlPiece.text', Spec.doctypeText]
  | some v =>
    have e3 : outNode .line 0 (.doctype v) = ('\n' :: Spec.doctypeText (some (' ' :: v)), .line) := by
      rw [outNode, Spec.doctypeText]
      simp [outIndent]
    have e1 : outNodes .start 0 (.decl (chars "xml") s.attributes :: ([.doctype v] ++ l)) =
        (declarationText (some (printedAttrs s.attributes, [])) ++ ('\n' :: Spec.doctypeText (some (' ' :: v)) ++ piecesText ps), .line) := by
      rw [outNodes, e2, List.singleton_append, outNodes, e3, h2]
    simp only
    rw [print, e1, pieces_append]
    simp [piecesText, XmlPiece.text']

theorem says_attributes (s : Settings) (hv : s.version ≠ .unknown) (he : s.encoding = .utfEight) : DeclarationSays s.attributes s.version s.standalone := by
  obtain ⟨v, e, b, t⟩ := s
  simp only at he
  subst he
  exact DeclarationSays.full v (chars "UTF-8") b hv

theorem save_load_settings (d d' : DocState) {s : Settings} {e : Elem} (hn : Normal e) (h : Declares d s (Elem.nodes [e])) (hv : s.version ≠ .unknown) (he : s.encoding = .utfEight)
    (hd : ∀ v, s.doctype = some v → DoctypeFits v) : ∃ d'', loadInto d' (print d.nodes) = some d'' ∧ Declares d'' s (Elem.nodes [e]) := by
  obtain ⟨ps, h1, h2, h3⟩ := nodes_printed [e] ⟨hn, trivial⟩ 0
  have h4 : d.nodes = .decl (chars "xml") s.attributes :: behindDecl s (Elem.nodes [e]) := h.nodes
  have hok : PiecesOk (ps ++ [.space ['\n']]) := pieces_ok_append h1 ⟨by simp [XmlPiece.Ok, XmlSpace], trivial⟩
  have hpn : piecesNodes (ps ++ [.space ['\n']]) = Elem.nodes [e] := by
    rw [pieces_nodes_append, h3]
    simp [piecesNodes, XmlPiece.nodes]
  have hnd : NotDoctype (Elem.nodes [e]) := by rw [← hpn]; exact pieces_notDoctype _
  have hp := parse_parts false (some (printedAttrs s.attributes, [])) (if s.doctype.isSome then [.space ['\n']] else []) (s.doctype.map (' ' :: ·)) (ps ++ [.space ['\n']])
    (by
      intro a g hx
      simp only [Option.some.injEq, Prod.mk.injEq] at hx
      obtain ⟨rfl, rfl⟩ := hx
      exact ⟨printed_ok (attributes_ok s), by simp, attributes_noEnd s⟩)
    (by split
        · exact ⟨by simp [XmlPiece.Ok, XmlSpace], trivial⟩
        · trivial)
    (by
      intro t ht
      cases hdt : s.doctype with
      | none => rw [hdt] at ht; exact nomatch ht
      | some v =>
        rw [hdt] at ht
        obtain rfl : ' ' :: v = t := by simpa using ht
        exact plain_doctype (a := [' ']) (by decide) (hd v hdt).1)
    hok (by rw [hpn]; exact nodes_elem e)
  rw [hpn] at hp
  have hdn : declarationNodes (some (printedAttrs s.attributes, [])) ++ (piecesNodes (if s.doctype.isSome then [.space ['\n']] else []) ++ (doctypeNodes (s.doctype.map (' ' :: ·)) ++ Elem.nodes [e])) =
      .decl (chars "xml") s.attributes :: behindDecl s (Elem.nodes [e]) := by
    have hb : piecesNodes (if s.doctype.isSome then [XmlPiece.space ['\n']] else []) = [] := by split <;> simp [piecesNodes, XmlPiece.nodes]
    have hdt : doctypeNodes (s.doctype.map (' ' :: ·)) = (match s.doctype with
        | none => []
        | some v => [.doctype v]) := by
      cases hdt : s.doctype with
      | none => rfl
      | some v =>
        obtain ⟨-, c, r, rfl, hc⟩ := hd v hdt
        show [XNode.doctype (Pugi.skipWs (' ' :: c :: r))] = [XNode.doctype (c :: r)]
        have hsp : isSpace c = false := by
          cases hs : isSpace c with
          | false => rfl
          | true => exact absurd ((isSpace_iff c).mp hs) hc
        rw [skipWs_space (by decide), skipWs_cons hsp]
    rw [hb, hdt, declarationNodes, printed_values]
    rfl
  rw [hdn] at hp
  have htext := print_pieces (s := s) h2
  rw [h4, htext]
  obtain ⟨e', he', -⟩ := complete_says (says_attributes s hv he) (behindDecl s (Elem.nodes [e]))
  exact load_complete d' hnd hv hp he' he

theorem loadInto_utf8 (d d' : DocState) (text : Str) (h : loadInto d text = some d') : d'.encoding = .utfEight := by
  unfold loadInto at h
  simp only [Option.bind_eq_some_iff] at h
  obtain ⟨n, -, d1, -, d2, -, h3⟩ := h
  unfold setEncoding at h3
  rw [if_neg (by simp), Option.bind_eq_some_iff] at h3
  obtain ⟨a, -, h4⟩ := h3
  split at h4
  · obtain rfl := Option.some.inj h4
    rfl
  · exact nomatch h4

theorem setAttr_twice (n v w : Str) : ∀ l : List (Str × Str), setAttr n v (setAttr n w l) = setAttr n v l
  | [] => rfl
  | x :: r => by
    by_cases h : x.1 = n
    · simp [setAttr, h]
    · simp [setAttr, h, setAttr_twice n v w r]

theorem attr_setAttr (n v : Str) : ∀ l : List (Str × Str), (attr n (setAttr n v l)).isSome = (attr n l).isSome
  | [] => rfl
  | x :: r => by
    have ih := attr_setAttr n v r
    by_cases h : x.1 = n
    · simp [setAttr, h, attr]
    · simp only [attr] at ih
      simp only [setAttr, h, if_false, attr, List.find?_cons, decide_false]
      exact ih

/-- After the parser: version, encoding, `standalone` are read, on the attributes `a`. -/
theorem read_rest (d : DocState) {n : Str} (hn : sameLetters n (chars "xml") = true) (a : List (Str × Str)) (r : List XNode) (hv : ∃ x l, a = x :: l ∧ sameLetters (chars "version") x.1 = true) :
    (((readVersion { d with nodes := .decl n a :: r }).bind fun d1 => (readEncoding d1).bind fun d2 => setEncoding .utfEight (readStandalone d2)).map (·.nodes)) =
      if (attr (chars "encoding") (fixVersion a)).isSome then some (.decl n (setAttr (chars "encoding") (chars "UTF-8") (fixVersion a)) :: r) else none := by
  have hd : ∀ a' r', declarationOf (.decl n a' :: r') = some a' := fun a' r' => by rw [declarationOf, if_pos hn]
  obtain ⟨x, l, rfl, hx⟩ := hv
  have h1 : ∃ v, readVersion { d with nodes := .decl n (x :: l) :: r } = some { d with nodes := .decl n (fixVersion (x :: l)) :: r, version := v } := by
    unfold readVersion fixVersion
    simp only [hd, Option.bind_some]
    by_cases hc : (attr (chars "version") (x :: l)).getD [] = []
    · rw [if_pos hc, if_pos hc]
      refine ⟨.onePointZero, ?_⟩
      simp only [setXmlVersion]
      rw [if_neg (by simp)]
      simp only [putVersion, if_pos hx]
      rfl
    · rw [if_neg hc, if_neg hc]
      exact ⟨_, rfl⟩
  obtain ⟨v, h1⟩ := h1
  rw [h1, Option.bind_some]
  generalize fixVersion (x :: l) = f
  simp only [readEncoding, hd, Option.bind_some]
  cases he : attr (chars "encoding") f with
  | none => simp
  | some e =>
    have he2 := attr_setAttr (chars "encoding") (parseEncoding e).text f
    rw [he, Option.isSome_some] at he2
    simp only [Option.map_some, Option.bind_some, withDeclaration, readStandalone, setEncoding, hd]
    rw [if_neg (by simp), if_pos he2]
    simp only [setAttr_twice, Option.map_some, Option.isSome_some, if_true]
    rfl

theorem complete_first (a : List (Str × Str)) (h : a ≠ []) : ∃ x l, addEncoding (addVersion a) = x :: l ∧ sameLetters (chars "version") x.1 = true := by
  cases a with
  | nil => exact absurd rfl h
  | cons y r =>
    have h1 : ∃ x l, addVersion (y :: r) = x :: l ∧ sameLetters (chars "version") x.1 = true := by
      unfold addVersion
      split
      · next hh => simp at hh
      · next hh =>
        by_cases hy : sameLetters (chars "version") y.1 = true
        · obtain ⟨rfl, rfl⟩ := List.cons.inj hh
          rw [if_pos hy]
          exact ⟨_, _, rfl, hy⟩
        · obtain ⟨rfl, rfl⟩ := List.cons.inj hh
          rw [if_neg hy]
          exact ⟨_, _, rfl, by decide⟩
    obtain ⟨x, l, h1, h2⟩ := h1
    rw [h1]
    cases l with
    | nil => exact ⟨_, _, rfl, h2⟩
    | cons z l =>
      simp only [addEncoding]
      split
      · exact ⟨_, _, rfl, h2⟩
      · exact ⟨_, _, rfl, h2⟩

/-- The document that is loaded has the nodes that `loadStream` gives. -/
theorem loadInto_nodes (d : DocState) (s : Str) (hx : ∀ n a r, parse s = some (.decl n a :: r) → sameLetters n (chars "xml") = true) : (loadInto d s).map (·.nodes) = loadStream s := by
  unfold loadInto loadStream
  cases hp : parse s with
  | none => rfl
  | some nodes =>
    simp only [Option.bind_some]
    have other : ∀ l : List XNode, ((readVersion { d with nodes := .decl (chars "xml") [(chars "version", chars "1.0"), (chars "encoding", chars "UTF-8")] :: l }).bind fun d1 =>
        (readEncoding d1).bind fun d2 => setEncoding .utfEight (readStandalone d2)).map (·.nodes) = some (.decl (chars "xml") [(chars "version", chars "1.0"), (chars "encoding", chars "UTF-8")] :: l) := by
      intro l
      rfl
    match nodes, hp with
    | .decl n a :: r, hp =>
      have hn := hx n a r hp
      simp only [completeDeclaration, fixDeclaration]
      by_cases ha : a = []
      · simp only [ha, if_pos]
        rw [read_rest d hn _ r ⟨_, _, rfl, by decide⟩]
        rfl
      · simp only [if_neg ha]
        rw [read_rest d hn _ r (complete_first a ha)]
        split <;> rfl
    | [], _ => exact other _
    | .doctype .. :: _, _ => exact other _
    | .elem .. :: _, _ => exact other _
    | .pcdata .. :: _, _ => exact other _
    | .cdata .. :: _, _ => exact other _
    | .pi .. :: _, _ => exact other _

end Mx.XmlDoc
