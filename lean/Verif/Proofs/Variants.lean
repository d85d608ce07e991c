import Verif.Spec.Supported
import Verif.Proofs.ReaderMain

/-
The objects that are written and read without loss, as expressions over the names of their children.
-/
open Mx.Spec
namespace Mx.Content

/-- What is asked of a member: a flag off or a vector empty; a flag on or a vector not empty; a group of certain variants; nothing. -/
inductive Mode where
  | off
  | must
  | only (l : List Nat)
  | free

structure Variant where
  choice : Nat
  modes : List (Nat × Mode)

def Variant.mode (v : Variant) (i : Nat) : Mode := ((v.modes.find? fun p => Nat.beq p.1 i).map (·.2)).getD .free

def allVariants (c : Cls) : List Variant :=
  if Nat.beq c.info.choices 0 then [⟨0, []⟩] else (List.range c.info.choices).map fun k => ⟨k, []⟩

/-- The states of the objects of a class that the reader copes with. -/
def variants (c : Cls) : List Variant :=
  match c with
  | .Play => []
  | .Percussion => []
  | .NoteheadText => []
  | .NotationsChoice => (allVariants .NotationsChoice).filter fun v => !Nat.beq v.choice 13
  | .Arrow => [⟨0, []⟩]
  | .KeyChoice => [⟨0, []⟩, ⟨1, [(1, .must)]⟩]
  | .TimeChoice => [⟨0, [(0, .must)]⟩, ⟨1, []⟩]
  | .TimewiseMeasure => [⟨0, [(0, .must)]⟩]
  | .EditorialGroup => [⟨0, [(0, .off), (1, .off)]⟩, ⟨0, []⟩]
  | .Lyric => [⟨0, [(0, .only [0]), (3, .only [0])]⟩, ⟨0, [(0, .only [1, 2, 3]), (1, .off), (2, .off), (3, .only [0])]⟩]
  | .ElisionSyllabicGroup => [⟨0, [(1, .off)]⟩]
  | .MetronomeTuplet => [⟨0, [(2, .off)]⟩]
  | .CreditWordsGroup => [⟨0, [(0, .off), (1, .off)]⟩]
  | .Sound => [⟨0, [(1, .must), (2, .off)]⟩, ⟨0, [(0, .off), (1, .off), (2, .off)]⟩]
  | c => allVariants c

def anyVariant (_ : Nat) : Bool := true

def howV (sub : Cls → (Nat → Bool) → Re) (p : Nat → Bool) : How → Kind → Re
  | .element, kd => .sym (kindDecl kd)
  | _, .comp c => sub c p
  | _, .leaf .. => .none

/-- The variants of the group in a member. -/
def Mode.pick : Mode → Nat → Bool
  | .only l, j => l.any (Nat.beq j)
  | _, _ => true

def multV (c : Cls) (i : Nat) : Mult → Mode → Re → Re
  | .one, _, r => r
  | .opt, .off, _ => .eps
  | .opt, .must, r => r
  | .opt, _, r => .opt r
  | .set _, .off, _ => if Nat.beq (wide.lo c i) 0 then .eps else .none
  | .set _, .must, r => .rep (max 1 (wide.lo c i)) (wide.hi c i) r
  | .set _, _, r => .rep (wide.lo c i) (wide.hi c i) r

def stmtV (c : Cls) (v : Variant) (sub : Cls → (Nat → Bool) → Re) (s : Stmt) : Re :=
  if inChoice v.choice s then
    match c.info.members[s.slot]? with
    | none => .none
    | some m => multV c s.slot m.mult (v.mode s.slot) (howV sub (v.mode s.slot).pick s.how m.kind)
  else .eps

def variantV (c : Cls) (sub : Cls → (Nat → Bool) → Re) (v : Variant) : Re := Re.seqs (c.info.stmts.map (stmtV c v sub))

def pickFrom (p : Nat → Bool) : List Variant → Nat → List Variant
  | [], _ => []
  | v :: vs, j => if p j then v :: pickFrom p vs (j + 1) else pickFrom p vs (j + 1)

def classV : Nat → Cls → (Nat → Bool) → Re
  | 0, _, _ => .none
  | f + 1, c, p => Re.alts ((pickFrom p (variants c) 0).map (variantV c (classV f)))

set_option maxRecDepth 100000 in
/-- Everything that is supported can be expressed. -/
theorem check_supported : (allCls.all fun c => Nat.beq c.info.name 0 || match supportedModel (classDecl c) with
    | none => false
    | some r => Re.included r (classV 8 c anyVariant)) = true := by decide +kernel

set_option maxRecDepth 100000 in
theorem check_narrowed : (narrowed.all fun p => match schemaModel p.1 with
    | none => false
    | some r => Re.included p.2 r) = true := by decide +kernel

/-! ## Expressions -/

theorem none_matches {w : List Nat} : ¬ (Re.none).Matches w := by
  rintro ⟨ws, _, h1, h2, _⟩
  have := h2 0 rfl
  omega

theorem seqs_cons_iff (r : Re) (rs : List Re) (w : List Nat) :
    (Re.seqs (r :: rs)).Matches w ↔ ∃ u v, w = u ++ v ∧ r.Matches u ∧ (Re.seqs rs).Matches v := by
  cases rs with
  | nil =>
    simp only [Re.seqs, Re.Matches]
    constructor
    · intro h; exact ⟨w, [], by simp, h, rfl⟩
    · rintro ⟨u, v, rfl, h, rfl⟩; simpa using h
  | cons r' rs => exact Iff.rfl

theorem alts_mem : ∀ {rs : List Re} {w : List Nat}, (Re.alts rs).Matches w → ∃ r ∈ rs, r.Matches w
  | [], w, h => absurd h none_matches
  | [r], w, h => ⟨r, by simp, h⟩
  | r :: r' :: rs, w, h => by
    rcases h with h | h
    · exact ⟨r, by simp, h⟩
    · obtain ⟨x, hx, hm⟩ := alts_mem (rs := r' :: rs) h
      exact ⟨x, List.mem_cons_of_mem _ hx, hm⟩

theorem pickFrom_mem {p : Nat → Bool} {v : Variant} : ∀ {vs : List Variant} {j : Nat}, v ∈ pickFrom p vs j → ∃ i, vs[i]? = some v ∧ p (j + i) = true
  | [], _, h => by simp [pickFrom] at h
  | w :: vs, j, h => by
    unfold pickFrom at h
    have tail : v ∈ pickFrom p vs (j + 1) → ∃ i, (w :: vs)[i]? = some v ∧ p (j + i) = true := by
      intro h
      obtain ⟨i, h1, h2⟩ := pickFrom_mem h
      exact ⟨i + 1, by simpa using h1, by rw [show j + (i + 1) = j + 1 + i by omega]; exact h2⟩
    split at h
    · rename_i hp
      rcases List.mem_cons.mp h with rfl | h
      · exact ⟨0, rfl, hp⟩
      · exact tail h
    · exact tail h

theorem split_flatten {α : Type} {f : α → Nat} : ∀ {ws : List (List Nat)} {ps : List α}, ps.map f = ws.flatten →
    ∃ pss : List (List α), ps = pss.flatten ∧ pss.map (List.map f) = ws
  | [], ps, h => ⟨[], by simpa using h, rfl⟩
  | w :: ws, ps, h => by
    rw [List.flatten_cons] at h
    obtain ⟨a, b, rfl, h1, h2⟩ := List.map_eq_append_iff.mp h
    obtain ⟨pss, rfl, h3⟩ := split_flatten h2
    exact ⟨a :: pss, by simp, by simp [h1, h3]⟩

/-! ## Conditions that do not look into other objects -/

/-- As `ReadableHere`, without `notehead-text` and without links and bookmarks between the words of a credit. -/
def StrictHere (c : Cls) (k : Nat) (ss : List Slot) : Prop :=
  match c with
  -- these three are never read, or with the values of their owner
  | .Play => False
  | .Percussion => False
  | .NoteheadText => False
  -- `other-notation`
  | .NotationsChoice => k ≠ 13
  -- `circular-arrow`
  | .Arrow => k = 0
  -- a key or a time signature without any
  | .KeyChoice => k = 1 → kidsAt ss 1 ≠ []
  | .TimeChoice => k = 0 → kidsAt ss 0 ≠ []
  | .TimewiseMeasure => kidsAt ss 0 ≠ []
  -- a footnote or level in a lyric; the end of a line or a paragraph after `extend`, `laughing` or `humming`
  | .Lyric => flagAt ss 3 0 = false ∧ flagAt ss 3 1 = false ∧ (choiceAt ss 0 ≠ 0 → onAt ss 1 = false ∧ onAt ss 2 = false)
  -- the `syllabic` after an elision
  | .ElisionSyllabicGroup => onAt ss 1 = false
  -- `normal-type` and `normal-dot` of a metronome tuplet
  | .MetronomeTuplet => onAt ss 2 = false
  -- links and bookmarks between the words of a credit
  | .CreditWordsGroup => kidsAt ss 0 = [] ∧ kidsAt ss 1 = []
  -- `chord` has neither attributes nor a value
  | .FullNoteGroup => onAt ss 0 = true → ∀ n ∈ kidsAt ss 0, ∃ t h, n = .leaf t h []
  | _ => True

inductive Strict : Node → Prop where
  | leaf (t : Nat) (h : Bool) (d : Str) : Strict (.leaf t h d)
  | comp (c : Cls) (d : Str) (k : Nat) (ss : List Slot) : StrictHere c k ss →
      (∀ w ∈ c.info.stmts, inChoice k w = true → ∀ s, ss[w.slot]? = some s → inUse c.info.members[w.slot]? s.on = true → ∀ n ∈ s.kids, Strict n) →
      Strict (.comp c d k ss)

theorem strict_words {n : Node} {d0 : Str} (h : Strict n) (hk : n.kind = .comp .CreditWordsGroup) : ∀ x ∈ partsAt n 0 ++ partsAt n 1, HasData d0 x := by
  obtain ⟨d, k, ss, rfl⟩ := kind_comp hk
  cases h with
  | comp _ _ _ _ h _ =>
    have h' : kidsAt ss 0 = [] ∧ kidsAt ss 1 = [] := h
    simp only [partsAt, h'.1, h'.2]
    simp

theorem strict_credit {d : Str} {k : Nat} {ss : List Slot} (hw : Wide (.comp .Credit d k ss)) (h : Strict (.comp .Credit d k ss)) : ReadableHere .Credit d k ss := by
  intro q hq hc g hg
  cases hw with
  | comp _ _ _ _ hsh hkids =>
  cases h with
  | comp _ _ _ _ _ hr =>
  have hm3 : (Cls.Credit).info.members[3]? = some ⟨.comp .CreditChoice, .one⟩ := rfl
  obtain ⟨s3, h3⟩ := getElem?_same_length hsh.length hm3
  have hq' : q ∈ s3.kids := by simpa [kidsAt, h3] using hq
  obtain ⟨d', k', ss', rfl⟩ := kind_comp ((hsh.slots 3 _ s3 hm3 h3).1 q hq')
  have hk : k' = 1 := hc
  subst hk
  have hS := hr ⟨[], 3, .body⟩ (List.mem_of_getElem? (i := 3) rfl) rfl s3 h3 rfl _ hq'
  cases hkids s3 (List.mem_of_getElem? h3) _ hq' with
  | comp _ _ _ _ hsh' _ =>
  cases hS with
  | comp _ _ _ _ _ hr' =>
  have hm2 : (Cls.CreditChoice).info.members[2]? = some ⟨.comp .CreditWordsGroup, .set ⟨0, none, 0, 0⟩⟩ := rfl
  obtain ⟨s2, h2⟩ := getElem?_same_length hsh'.length hm2
  have hg' : g ∈ s2.kids := by simpa [partsAt, kidsAt, h2] using hg
  exact strict_words (hr' ⟨[.choice 1], 2, .body⟩ (List.mem_of_getElem? (i := 2) rfl) rfl s2 h2 rfl g hg') ((hsh'.slots 2 _ s2 hm2 h2).1 g hg')

theorem strict_readable {n : Node} (h : Strict n) : Wide n → Readable n := by
  induction h with
  | leaf t h d => exact fun _ => .leaf t h d
  | comp c d k ss h1 h2 ih =>
    intro hw
    refine .comp c d k ss ?_ ?_
    · cases c <;> first
        | exact h1
        | exact h1.elim
        | exact True.intro
        | exact strict_credit hw (.comp _ d k ss h1 h2)
    · intro w hw' hc s hs hu n hn
      refine ih w hw' hc s hs hu n hn ?_
      cases hw with
      | comp _ _ _ _ _ hk => exact hk s (List.mem_of_getElem? hs) n hn

/-! ## Objects -/

/-- Can be written and read. -/
def Loadable (n : Node) : Prop := Fine n ∧ Strict n ∧ ∀ h d, n = .leaf (nm! "chord") h d → d = []

/-- The kind of an element of the document. -/
def ElementKind : Kind → Prop
  | .leaf t _ => t ∈ leafNames
  | .comp c => c.info.name ≠ 0

/-- The element can be expressed by objects of every kind that fits. -/
def Expressed (q : Nat × Xml) : Prop :=
  ∀ kd, ElementKind kd → kindDecl kd = q.1 → ∃ n, n.kind = kd ∧ Loadable n ∧ (whole n).element = q.2

def ModeHolds : Mult → Mode → Slot → Prop
  | .opt, .off, s => s.on = false
  | .opt, .must, s => s.on = true
  | .set _, .off, s => s.kids = []
  | .set _, .must, s => s.kids ≠ []
  | _, _, _ => True

/-- The members are as the variant asks. -/
def Top (v : Variant) (c : Cls) (k : Nat) (ss : List Slot) : Prop :=
  k = v.choice ∧ ∀ w ∈ c.info.stmts, inChoice v.choice w = true → ∀ m s, c.info.members[w.slot]? = some m → ss[w.slot]? = some s → ModeHolds m.mult (v.mode w.slot) s

def TopOf (p : Nat → Bool) (n : Node) : Prop :=
  ∃ c d k ss j v, n = .comp c d k ss ∧ (variants c)[j]? = some v ∧ p j = true ∧ Top v c k ss

/-- And so are their groups. -/
def Made (v : Variant) (c : Cls) (k : Nat) (ss : List Slot) : Prop :=
  Top v c k ss ∧ ∀ w ∈ c.info.stmts, inChoice v.choice w = true → w.how ≠ .element → ∀ m s, c.info.members[w.slot]? = some m → ss[w.slot]? = some s → m.mult = .one →
    ∀ n ∈ s.kids, TopOf (v.mode w.slot).pick n

def stmtKind (c : Cls) (s : Stmt) : Bool :=
  match s.how, c.info.members[s.slot]? with
  | .element, some ⟨.leaf t _, _⟩ => leafNames.any (Nat.beq t)
  | .element, some ⟨.comp c, _⟩ => !Nat.beq c.info.name 0
  | _, _ => true

theorem stmt_kinds (c : Cls) : ∀ s ∈ c.info.stmts, stmtKind c s = true := by
  have h : allCls.all (fun c => c.info.stmts.all (stmtKind c)) = true := by decide +kernel
  exact List.all_eq_true.mp (List.all_eq_true.mp h c (mem_allCls c))

theorem element_kind {c : Cls} {s : Stmt} (hs : s ∈ c.info.stmts) (he : s.how = .element) {m : Member} (hm : c.info.members[s.slot]? = some m) : ElementKind m.kind := by
  have h := stmt_kinds c s hs
  unfold stmtKind at h
  rw [he, hm] at h
  obtain ⟨kd, mu⟩ := m
  cases kd with
  | leaf t hc =>
    simp only [List.any_eq_true] at h
    obtain ⟨x, hx, e⟩ := h
    have := Nat.eq_of_beq_eq_true e
    subst this
    exact hx
  | comp c' =>
    simp only [Bool.not_eq_true'] at h
    show c'.info.name ≠ 0
    intro e
    rw [e] at h
    cases h

theorem variants_choice (c : Cls) : ∀ v ∈ variants c, c.info.choices = 0 ∨ v.choice < c.info.choices := by
  have h : allCls.all (fun c => (variants c).all fun v => Nat.beq c.info.choices 0 || Nat.blt v.choice c.info.choices) = true := by decide +kernel
  intro v hv
  have h' := List.all_eq_true.mp (List.all_eq_true.mp h c (mem_allCls c)) v hv
  simp only [Bool.or_eq_true] at h'
  rcases h' with h' | h'
  · exact .inl (Nat.eq_of_beq_eq_true h')
  · exact .inr (by simpa [Nat.blt_eq] using h')

/-! ## Objects for a list of elements -/

/-- Objects of a class for every list of elements that matches. -/
def Builds (sub : Cls → (Nat → Bool) → Re) : Prop :=
  ∀ c p (ps : List (Nat × Xml)), (∀ q ∈ ps, Expressed q) → (sub c p).Matches (ps.map (·.1)) → ∀ d,
    ∃ k ss j v, (variants c)[j]? = some v ∧ p j = true ∧ Top v c k ss ∧ Loadable (.comp c d k ss) ∧ (whole (.comp c d k ss)).kids = ps.map (·.2)

theorem build_one {sub : Cls → (Nat → Bool) → Re} (hsub : Builds sub) {p : Nat → Bool} {h : How} {kd : Kind} (hk : h = .element → ElementKind kd)
    {ps : List (Nat × Xml)} (hps : ∀ q ∈ ps, Expressed q) (hm : (howV sub p h kd).Matches (ps.map (·.1))) :
    ∃ n, n.kind = kd ∧ Loadable n ∧ partOf h (whole n) = ps.map (·.2) ∧ (h ≠ .element → TopOf p n) := by
  have body : h ≠ .element → (howV sub p .body kd).Matches (ps.map (·.1)) → ∃ n, n.kind = kd ∧ Loadable n ∧ (whole n).kids = ps.map (·.2) ∧ TopOf p n := by
    intro _ hm
    cases kd with
    | leaf t b => exact absurd hm none_matches
    | comp c =>
      obtain ⟨k, ss, j, v, h1, h2, h3, h4, h5⟩ := hsub c p ps hps hm []
      exact ⟨.comp c [] k ss, rfl, h4, h5, c, [], k, ss, j, v, rfl, h1, h2, h3⟩
  cases h with
  | element =>
    obtain ⟨q, rfl, hq⟩ : ∃ q, ps = [q] ∧ q.1 = kindDecl kd := by
      have hm' : ps.map (·.1) = [kindDecl kd] := hm
      cases ps with
      | nil => cases hm'
      | cons q qs =>
        cases qs with
        | nil => exact ⟨q, rfl, by simpa using hm'⟩
        | cons => simp at hm'
    obtain ⟨n, h1, h2, h3⟩ := hps q (by simp) kd (hk rfl) hq.symm
    exact ⟨n, h1, h2, by simp [partOf, h3], fun h => absurd rfl h⟩
  | body =>
    obtain ⟨n, h1, h2, h3, h4⟩ := body (by simp) hm
    exact ⟨n, h1, h2, h3, fun _ => h4⟩
  | bodyIf =>
    have hm' : (howV sub p .body kd).Matches (ps.map (·.1)) := by cases kd <;> exact hm
    obtain ⟨n, h1, h2, h3, h4⟩ := body (by simp) hm'
    exact ⟨n, h1, h2, h3, fun _ => h4⟩

/-- Many of them. -/
theorem build_many {sub : Cls → (Nat → Bool) → Re} (hsub : Builds sub) {p : Nat → Bool} {h : How} {kd : Kind} (hk : h = .element → ElementKind kd) :
    ∀ (pss : List (List (Nat × Xml))), (∀ ps ∈ pss, ∀ q ∈ ps, Expressed q) → (∀ ps ∈ pss, (howV sub p h kd).Matches (ps.map (·.1))) →
    ∃ ns : List Node, ns.length = pss.length ∧ (∀ n ∈ ns, n.kind = kd ∧ Loadable n) ∧ ns.flatMap (fun n => partOf h (whole n)) = pss.flatten.map (·.2)
  | [], _, _ => ⟨[], rfl, by simp, rfl⟩
  | ps :: pss, hps, hm => by
    obtain ⟨n, h1, h2, h3, _⟩ := build_one hsub hk (hps ps (by simp)) (hm ps (by simp))
    obtain ⟨ns, g1, g2, g3⟩ := build_many hsub hk pss (fun x hx => hps x (by simp [hx])) (fun x hx => hm x (by simp [hx]))
    refine ⟨n :: ns, by simp [g1], ?_, by simp [h3, g3]⟩
    intro x hx
    rcases List.mem_cons.mp hx with rfl | hx
    · exact ⟨h1, h2⟩
    · exact g2 x hx

/-- The member as it is after the constructor. -/
def dfltSlot (c : Cls) (i : Nat) : Slot :=
  match c.info.members[i]? with
  | none => .mk false []
  | some m => .mk false (List.replicate m.mult.start (make m.kind))

/-- What a statement writes. -/
def outOf (c : Cls) (k : Nat) (s : Stmt) (sl : Slot) : List Xml :=
  if inChoice k s && inUse c.info.members[s.slot]? sl.on then sl.kids.flatMap fun n => partOf s.how (whole n) else []

structure StmtMade (c : Cls) (v : Variant) (s : Stmt) (sl : Slot) : Prop where
  ok : ∀ m, c.info.members[s.slot]? = some m → SlotOk wide c s.slot m sl
  fine : ∀ n ∈ sl.kids, Fine n
  good : inChoice v.choice s = true → inUse c.info.members[s.slot]? sl.on = true → ∀ n ∈ sl.kids, Loadable n
  mode : inChoice v.choice s = true → ∀ m, c.info.members[s.slot]? = some m → ModeHolds m.mult (v.mode s.slot) sl
  group : inChoice v.choice s = true → s.how ≠ .element → ∀ m, c.info.members[s.slot]? = some m → m.mult = .one → ∀ n ∈ sl.kids, TopOf (v.mode s.slot).pick n

theorem dflt_kids {c : Cls} {i : Nat} {m : Member} (hm : c.info.members[i]? = some m) : BlankSlot m (dfltSlot c i) := by
  unfold dfltSlot
  rw [hm]
  refine ⟨rfl, by simp [Slot.kids], ?_⟩
  intro x hx
  rw [kids_mk] at hx
  have := List.eq_of_mem_replicate hx
  subst this
  exact ⟨make_kind _, make_blank_member hm⟩

theorem one_slot {n : Node} {m : Member} {c : Cls} {i : Nat} {b : Bool} (h : n.kind = m.kind) (hs : ∀ s, m.mult ≠ .set s) : SlotOk wide c i m (.mk b [n]) := by
  refine ⟨by intro k hk; simp [Slot.kids] at hk; subst hk; exact h, ?_⟩
  cases hm : m.mult with
  | one => rfl
  | opt => rfl
  | set s => exact absurd hm (hs s)

theorem build_stmt {sub : Cls → (Nat → Bool) → Re} (hsub : Builds sub) {c : Cls} {v : Variant} {s : Stmt} (hs : s ∈ c.info.stmts)
    {ps : List (Nat × Xml)} (hps : ∀ q ∈ ps, Expressed q) (hm : (stmtV c v sub s).Matches (ps.map (·.1))) :
    ∃ sl, StmtMade c v s sl ∧ outOf c v.choice s sl = ps.map (·.2) := by
  have nil_of : ps.map (·.1) = [] → ps = [] := by intro h; simpa using h
  cases hmem : c.info.members[s.slot]? with
  | none =>
    unfold stmtV at hm
    rw [hmem] at hm
    by_cases hc : inChoice v.choice s = true
    · rw [if_pos hc] at hm; exact absurd hm none_matches
    · rw [if_neg hc] at hm
      have := nil_of hm
      subst this
      refine ⟨.mk false [], ⟨?_, ?_, ?_, ?_, ?_⟩, ?_⟩
      · intro m h; cases h.symm.trans hmem
      · simp [Slot.kids]
      · simp [Slot.kids]
      · intro h; exact absurd h hc
      · intro h; exact absurd h hc
      · unfold outOf; simp [hc]
  | some m =>
    have same : ∀ {P : Member → Prop}, P m → ∀ m', c.info.members[s.slot]? = some m' → P m' := by
      intro P h m' h'
      cases h'.symm.trans hmem
      exact h
    have hbl := dflt_kids hmem
    have hfine : ∀ n ∈ (dfltSlot c s.slot).kids, Fine n := fun n hn => blank_fine (hbl.2.2 n hn).2
    by_cases hc : inChoice v.choice s = true
    · unfold stmtV at hm
      rw [if_pos hc, hmem] at hm
      simp only at hm
      have hk : s.how = .element → ElementKind m.kind := fun he => element_kind hs he hmem
      obtain ⟨kd, mu⟩ := m
      -- a member with one object, in use
      have single : ∀ (b : Bool), (∀ sc, mu ≠ .set sc) → inUse (some ⟨kd, mu⟩) b = true → (mu = .opt → v.mode s.slot = .off → False) → (mu = .opt → b = true) →
          (howV sub (v.mode s.slot).pick s.how kd).Matches (ps.map (·.1)) → ∃ sl, StmtMade c v s sl ∧ outOf c v.choice s sl = ps.map (·.2) := by
        intro b hns hu hoff hon hmm
        obtain ⟨n, h1, h2, h3, h4⟩ := build_one hsub hk hps hmm
        refine ⟨.mk b [n], ⟨same (one_slot h1 hns), ?_, ?_, ?_, ?_⟩, ?_⟩
        · intro x hx; simp [Slot.kids] at hx; subst hx; exact h2.1
        · intro _ _ x hx; simp [Slot.kids] at hx; subst hx; exact h2
        · intro _
          refine same ?_
          cases hmu : mu with
          | one => trivial
          | set sc => exact absurd hmu (hns sc)
          | opt =>
            cases hmo : v.mode s.slot with
            | off => exact (hoff hmu hmo).elim
            | must => exact hon hmu
            | only l => trivial
            | free => trivial
        · intro _ he
          refine same ?_
          intro _ x hx
          simp [Slot.kids] at hx; subst hx
          exact h4 he
        · unfold outOf
          rw [hc, hmem]
          simp only [Slot.on, hu, Bool.and_self, if_true, Slot.kids, List.flatMap_cons, List.flatMap_nil, List.append_nil, h3]
      -- a flag that is off
      have absent : mu = .opt → v.mode s.slot ≠ .must → ps.map (·.1) = [] → ∃ sl, StmtMade c v s sl ∧ outOf c v.choice s sl = ps.map (·.2) := by
        intro hmu hmo he
        have := nil_of he
        subst this
        have hu : inUse (some (⟨kd, mu⟩ : Member)) (dfltSlot c s.slot).on = false := by rw [hbl.1, hmu]; rfl
        refine ⟨dfltSlot c s.slot, ⟨same (blank_slotOk hmem hbl), hfine, ?_, ?_, ?_⟩, ?_⟩
        · intro _ h; rw [hmem, hu] at h; cases h
        · intro _
          refine same ?_
          rw [hmu]
          cases hm' : v.mode s.slot with
          | off => exact hbl.1
          | must => exact absurd hm' hmo
          | only l => trivial
          | free => trivial
        · intro _ _; refine same ?_; intro h; cases h.symm.trans hmu
        · unfold outOf; rw [hmem, hu]; simp
      -- a vector
      have vector : ∀ (sc : SetCode) (lo : Nat), mu = .set sc → wide.lo c s.slot ≤ lo → (v.mode s.slot = .must → 1 ≤ lo) → v.mode s.slot ≠ .off →
          (Re.rep lo (wide.hi c s.slot) (howV sub (v.mode s.slot).pick s.how kd)).Matches (ps.map (·.1)) →
          ∃ sl, StmtMade c v s sl ∧ outOf c v.choice s sl = ps.map (·.2) := by
        intro sc lo hmu hlo hmust hoff hmm
        obtain ⟨ws, e, l1, l2, l3⟩ := hmm
        obtain ⟨pss, rfl, rfl⟩ := split_flatten e
        obtain ⟨ns, g1, g2, g3⟩ := build_many hsub hk (p := (v.mode s.slot).pick) pss
          (fun x hx q hq => hps q (List.mem_flatten.mpr ⟨x, hx, hq⟩)) (fun x hx => l3 _ (List.mem_map.mpr ⟨x, hx, rfl⟩))
        simp only [List.length_map] at l1 l2
        refine ⟨.mk false ns, ⟨same ⟨fun n hn => (g2 n hn).1, ?_⟩, fun n hn => (g2 n hn).2.1, fun _ _ n hn => (g2 n hn).2, ?_, ?_⟩, ?_⟩
        · rw [hmu]
          simp only [kids_mk, g1]
          exact ⟨by omega, l2⟩
        · intro _
          refine same ?_
          rw [hmu]
          cases hmo : v.mode s.slot with
          | off => exact absurd hmo hoff
          | must =>
            have := hmust hmo
            intro h
            rw [kids_mk] at h
            rw [h] at g1
            simp at g1
            omega
          | only l => trivial
          | free => trivial
        · intro _ _; refine same ?_; intro h; cases h.symm.trans hmu
        · unfold outOf
          rw [hc, hmem, hmu]
          simp only [inUse, Bool.and_self, if_true, kids_mk, g3]
      cases hmu : mu with
      | one =>
        rw [hmu] at hm
        exact single false (by rw [hmu]; intro _ h; cases h) (by rw [hmu]; rfl) (by rw [hmu]; intro h; cases h) (by rw [hmu]; intro h; cases h) hm
      | opt =>
        rw [hmu] at hm
        cases hmo : v.mode s.slot with
        | off => rw [hmo] at hm; exact absent hmu (by rw [hmo]; intro h; cases h) hm
        | must =>
          have hm' : (howV sub (v.mode s.slot).pick s.how kd).Matches (ps.map (·.1)) := by rw [hmo] at hm ⊢; exact hm
          exact single true (by rw [hmu]; intro _ h; cases h) (by rw [hmu]; rfl) (by rw [hmo]; intro _ h; cases h) (fun _ => rfl) hm'
        | only l =>
          have hm' : (Re.opt (howV sub (v.mode s.slot).pick s.how kd)).Matches (ps.map (·.1)) := by rw [hmo] at hm ⊢; exact hm
          obtain ⟨ws, e, _, l2, l3⟩ := hm'
          have := l2 1 rfl
          match ws, this with
          | [], _ => exact absent hmu (by rw [hmo]; intro h; cases h) e
          | [w], _ =>
            exact single true (by rw [hmu]; intro _ h; cases h) (by rw [hmu]; rfl) (by rw [hmo]; intro _ h; cases h) (fun _ => rfl)
              (by rw [e]; simpa using l3 w (by simp))
        | free =>
          have hm' : (Re.opt (howV sub (v.mode s.slot).pick s.how kd)).Matches (ps.map (·.1)) := by rw [hmo] at hm ⊢; exact hm
          obtain ⟨ws, e, _, l2, l3⟩ := hm'
          have := l2 1 rfl
          match ws, this with
          | [], _ => exact absent hmu (by rw [hmo]; intro h; cases h) e
          | [w], _ =>
            exact single true (by rw [hmu]; intro _ h; cases h) (by rw [hmu]; rfl) (by rw [hmo]; intro _ h; cases h) (fun _ => rfl)
              (by rw [e]; simpa using l3 w (by simp))
      | set sc =>
        rw [hmu] at hm
        cases hmo : v.mode s.slot with
        | off =>
          rw [hmo] at hm
          simp only [multV] at hm
          split at hm
          · rename_i hlo
            have hlo' : wide.lo c s.slot = 0 := Nat.eq_of_beq_eq_true hlo
            have := nil_of hm
            subst this
            refine ⟨.mk false [], ⟨same ⟨by simp [Slot.kids], ?_⟩, by simp [Slot.kids], by simp [Slot.kids], ?_, by simp [Slot.kids]⟩, ?_⟩
            · rw [hmu]
              simp only [kids_mk, List.length_nil, hlo']
              exact ⟨Nat.le_refl _, fun h _ => Nat.zero_le _⟩
            · intro _
              refine same ?_
              rw [hmu, hmo]
              rfl
            · unfold outOf; simp [Slot.kids]
          · exact absurd hm none_matches
        | must =>
          refine vector sc (max 1 (wide.lo c s.slot)) hmu (Nat.le_max_right _ _) (fun _ => Nat.le_max_left _ _) (by rw [hmo]; intro h; cases h) ?_
          rw [hmo] at hm ⊢; exact hm
        | only l =>
          refine vector sc (wide.lo c s.slot) hmu (Nat.le_refl _) (by rw [hmo]; intro h; cases h) (by rw [hmo]; intro h; cases h) ?_
          rw [hmo] at hm ⊢; exact hm
        | free =>
          refine vector sc (wide.lo c s.slot) hmu (Nat.le_refl _) (by rw [hmo]; intro h; cases h) (by rw [hmo]; intro h; cases h) ?_
          rw [hmo] at hm ⊢; exact hm
    · unfold stmtV at hm
      rw [if_neg hc] at hm
      have := nil_of hm
      subst this
      refine ⟨dfltSlot c s.slot, ⟨same (blank_slotOk hmem hbl), hfine, ?_, ?_, ?_⟩, ?_⟩
      · intro h; exact absurd h hc
      · intro h; exact absurd h hc
      · intro h; exact absurd h hc
      · unfold outOf; simp [hc]

theorem build_stmts {sub : Cls → (Nat → Bool) → Re} (hsub : Builds sub) {c : Cls} {v : Variant} :
    ∀ (l : List Stmt), (∀ s ∈ l, s ∈ c.info.stmts) → (l.map (·.slot)).Nodup → ∀ (ps : List (Nat × Xml)), (∀ q ∈ ps, Expressed q) →
    (Re.seqs (l.map (stmtV c v sub))).Matches (ps.map (·.1)) →
    ∃ σ : Nat → Slot, (∀ s ∈ l, StmtMade c v s (σ s.slot)) ∧ (l.flatMap fun s => outOf c v.choice s (σ s.slot)) = ps.map (·.2)
  | [], _, _, ps, _, hm => by
    have : ps.map (·.1) = [] := hm
    have : ps = [] := by simpa using this
    subst this
    exact ⟨fun _ => .mk false [], by simp, rfl⟩
  | s :: l, hl, hnd, ps, hps, hm => by
    rw [List.map_cons, seqs_cons_iff] at hm
    obtain ⟨u, w, e, h1, h2⟩ := hm
    obtain ⟨a, b, rfl, rfl, rfl⟩ := List.map_eq_append_iff.mp e
    simp only [List.map_cons, List.nodup_cons] at hnd
    obtain ⟨sl, g1, g2⟩ := build_stmt hsub (hl s (by simp)) (fun q hq => hps q (by simp [hq])) h1
    obtain ⟨σ, f1, f2⟩ := build_stmts hsub l (fun x hx => hl x (by simp [hx])) hnd.2 b (fun q hq => hps q (by simp [hq])) h2
    have hne : ∀ x ∈ l, x.slot ≠ s.slot := fun x hx h => hnd.1 (by rw [← h]; exact List.mem_map.mpr ⟨x, hx, rfl⟩)
    refine ⟨fun i => if i = s.slot then sl else σ i, ?_, ?_⟩
    · intro x hx
      rcases List.mem_cons.mp hx with rfl | hx
      · simpa using g1
      · simp only [if_neg (hne x hx)]
        exact f1 x hx
    · have : (l.flatMap fun x => outOf c v.choice x (if x.slot = s.slot then sl else σ x.slot)) = l.flatMap fun x => outOf c v.choice x (σ x.slot) := by
        rw [List.flatMap_def, List.flatMap_def]
        congr 1
        refine List.map_congr_left ?_
        intro x hx
        rw [if_neg (hne x hx)]
      simp only [List.flatMap_cons, if_true, this, f2, g2, List.map_append]

end Mx.Content
