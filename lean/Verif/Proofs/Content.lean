import Verif.Spec.Content
import Verif.Proofs.Inclusion

/-
Written contents match the expression computed from the table of classes.
-/
open Mx.Spec
namespace Mx.Content

/-- Bounds for the sizes of the vectors and the values of `myChoice`. -/
structure Limits where
  lo : Cls → Nat → Nat
  hi : Cls → Nat → Option Nat
  choice : Cls → Nat → Bool

def SlotOk (L : Limits) (c : Cls) (i : Nat) (m : Member) (s : Slot) : Prop :=
  (∀ k ∈ s.kids, k.kind = m.kind) ∧
  match m.mult with
  | .set _ => L.lo c i ≤ s.kids.length ∧ ∀ h, L.hi c i = some h → s.kids.length ≤ h
  | _ => s.kids.length = 1

structure Shape (L : Limits) (c : Cls) (k : Nat) (ss : List Slot) : Prop where
  length : ss.length = c.info.members.length
  slots : ∀ (i : Nat) (m : Member) (s : Slot), c.info.members[i]? = some m → ss[i]? = some s → SlotOk L c i m s
  choice : c.info.choices = 0 ∨ (k < c.info.choices ∧ L.choice c k = true)

def Cond.differs (k : Nat) : Cond → Bool
  | .choice j => !Nat.beq k j
  | _ => false

def isSetB (c : Cls) (i : Nat) : Bool :=
  match c.info.members[i]? with
  | some ⟨_, .set _⟩ => true
  | _ => false

/-- The part of the formula of `hasContents` is true because a vector cannot be empty. -/
def HasAtom.sure (L : Limits) (c : Cls) : HasAtom → Bool
  | .size i => Nat.ble 1 (L.lo c i) && isSetB c i
  | _ => false

def hasAlways (L : Limits) (c : Cls) : Bool := c.info.has.any fun conj => conj.all (HasAtom.sure L c)

/-- Not a condition on the choice. -/
def Cond.guard : Cond → Bool
  | .choice _ => false
  | _ => true

/-- The condition may be false (`sure`: the object surely has contents). -/
def Cond.open (sure : Bool) : Cond → Bool
  | .choice _ => false
  | .flag _ => true
  | .self => !sure

/-- One object. -/
def howRe (sub : Cls → Re) : How → Kind → Re
  | .element, kd => .sym (kindDecl kd)
  | .body, .comp c => sub c
  | .bodyIf, .comp c => .opt (sub c)
  | .body, .leaf _ _ => .eps
  | .bodyIf, .leaf _ _ => .eps

def multRe (L : Limits) (c : Cls) (i : Nat) : Mult → Re → Re
  | .set _, r => .rep (L.lo c i) (L.hi c i) r
  | _, r => r

def guardRe (g : Bool) (r : Re) : Re := if g then .opt r else r

def stmtRe (L : Limits) (c : Cls) (k : Nat) (sub : Cls → Re) (s : Stmt) : Re :=
  if s.conds.any (Cond.differs k) then .eps
  else match c.info.members[s.slot]? with
    | none => .any
    | some m => guardRe (s.conds.any (Cond.open (hasAlways L c))) (multRe L c s.slot m.mult (howRe sub s.how m.kind))

def choiceRe (L : Limits) (c : Cls) (sub : Cls → Re) (k : Nat) : Re :=
  Re.seqs (c.info.stmts.map (stmtRe L c k sub))

def choicesRe (L : Limits) (c : Cls) (sub : Cls → Re) : Re :=
  if Nat.beq c.info.choices 0 then choiceRe L c sub 0
  else Re.alts (((List.range c.info.choices).filter (L.choice c)).map (choiceRe L c sub))

/-- What the objects of a class write as contents, with `f` levels of groups taken into account. -/
def classRe (L : Limits) (ov : Cls → Option Re) : Nat → Cls → Re
  | 0, _ => .any
  | f + 1, c => (ov c).getD (choicesRe L c (classRe L ov f))

/-- The children of the elements of a class. -/
def elementRe (L : Limits) (ov : Cls → Option Re) (c : Cls) : Re :=
  if hasAlways L c then classRe L ov 8 c else .alt .eps (classRe L ov 8 c)

def itemDecls (l : List Item) : List Nat := l.map fun i => kindDecl i.kind

/-- A property of objects that passes to their members and gives the bounds. -/
structure Tree (L : Limits) (ov : Cls → Option Re) (T : Node → Prop) : Prop where
  leaf : ∀ {t h d}, T (.leaf t h d) → t ∈ leafNames
  kids : ∀ {c d k ss}, T (.comp c d k ss) → ∀ s ∈ ss, ∀ n ∈ s.kids, T n
  shape : ∀ {c d k ss}, T (.comp c d k ss) → Shape L c k ss
  over : ∀ {c d k ss} {r : Re}, ov c = some r → T (.comp c d k ss) → r.Matches (itemDecls (Node.write (.comp c d k ss)).body)

theorem writeSlots_get : ∀ (ss : List Slot) (i : Nat), (writeSlots ss)[i]? = ss[i]?.map writeSlot
  | [], i => by simp [writeSlots]
  | s :: ss, 0 => by simp [writeSlots]
  | s :: ss, i + 1 => by simp [writeSlots, writeSlots_get ss i]

theorem writeKids_eq : ∀ ks : List Node, writeKids ks = ks.map Node.write
  | [] => by simp [writeKids]
  | k :: ks => by simp [writeKids, writeKids_eq ks]

theorem writeSlot_kids (s : Slot) : (writeSlot s).kids = s.kids.map Node.write := by
  cases s; simp [writeSlot, writeKids_eq, Slot.kids]

theorem writeSlot_on (s : Slot) : (writeSlot s).on = s.on := by
  cases s; simp [writeSlot, Slot.on]

theorem write_element_kind (n : Node) : n.write.element.kind = n.kind := by
  cases n <;> simp [Node.write, assemble, Node.kind]

theorem seqs_matches : ∀ (rs : List Re) (ws : List (List Nat)), rs.length = ws.length →
    (∀ (i : Nat) (r : Re) (w : List Nat), rs[i]? = some r → ws[i]? = some w → r.Matches w) → (Re.seqs rs).Matches ws.flatten
  | [], [], _, _ => by simp [Re.seqs, Re.Matches]
  | [], _ :: _, h, _ => by simp at h
  | _ :: _, [], h, _ => by simp at h
  | [r], [w], _, h => by
    have := h 0 r w rfl rfl
    simpa [Re.seqs] using this
  | [r], w :: w' :: ws, h, _ => by simp at h
  | r :: r' :: rs, [w], h, _ => by simp at h
  | r :: r' :: rs, w :: w' :: ws, hl, h => by
    have h0 := h 0 r w rfl rfl
    have ih := seqs_matches (r' :: rs) (w' :: ws) (by simpa using hl) (fun i r w h1 h2 => h (i + 1) r w h1 h2)
    exact ⟨w, (w' :: ws).flatten, by simp, h0, ih⟩

theorem alts_matches : ∀ (rs : List Re) (w : List Nat) (r : Re), r ∈ rs → r.Matches w → (Re.alts rs).Matches w
  | [], _, _, h, _ => by simp at h
  | [a], w, r, h, hm => by simp at h; subst h; simpa [Re.alts] using hm
  | a :: b :: rs, w, r, h, hm => by
    rcases List.mem_cons.mp h with rfl | h
    · exact Or.inl hm
    · exact Or.inr (alts_matches (b :: rs) w r h hm)

theorem opt_matches {r : Re} {w : List Nat} (h : r.Matches w) : (Re.opt r).Matches w :=
  ⟨[w], by simp, by simp, by simp, by simpa using h⟩

theorem opt_nil (r : Re) : (Re.opt r).Matches [] := ⟨[], by simp, by simp, by simp, by simp⟩

theorem rep_matches {lo : Nat} {hi : Option Nat} {r : Re} {ws : List (List Nat)} (h1 : lo ≤ ws.length)
    (h2 : ∀ h, hi = some h → ws.length ≤ h) (h3 : ∀ w ∈ ws, r.Matches w) : (Re.rep lo hi r).Matches ws.flatten :=
  ⟨ws, rfl, h1, h2, h3⟩

section
variable {L : Limits} {ov : Cls → Option Re} {T : Node → Prop}

theorem howRe_matches (sub : Cls → Re) (n : Node) (kd : Kind) (hk : n.kind = kd)
    (hs : ∀ c d k ss, n = .comp c d k ss → (sub c).Matches (itemDecls n.write.body)) (h : How) :
    (howRe sub h kd).Matches (itemDecls (h.write n.write)) := by
  cases h with
  | element =>
    simp [howRe, Re.Matches, How.write, itemDecls, write_element_kind, hk]
  | body =>
    cases n with
    | leaf t h d => simp only [Node.kind] at hk; subst hk; simp [howRe, Re.Matches, How.write, Node.write, itemDecls]
    | comp c d k ss => simp only [Node.kind] at hk; subst hk; simpa [howRe, How.write] using hs c d k ss rfl
  | bodyIf =>
    cases n with
    | leaf t h d => simp only [Node.kind] at hk; subst hk; cases h <;> simp [howRe, Re.Matches, How.write, Node.write, itemDecls]
    | comp c d k ss =>
      simp only [Node.kind] at hk; subst hk
      simp only [howRe, How.write]
      by_cases hh : (Node.write (.comp c d k ss)).has = true
      · rw [if_pos hh]; exact opt_matches (hs c d k ss rfl)
      · rw [if_neg hh]; exact opt_nil _

theorem itemDecls_flatMap {α : Type} (l : List α) (f : α → List Item) :
    itemDecls (l.flatMap f) = (l.map fun a => itemDecls (f a)).flatten := by
  induction l with
  | nil => rfl
  | cons a as ih =>
    simp only [List.flatMap_cons, List.map_cons, List.flatten_cons, ← ih]
    simp [itemDecls]

theorem getElem?_same_length {α β : Type} {l : List α} {l' : List β} (h : l'.length = l.length) {i : Nat} {a : α} (ha : l[i]? = some a) :
    ∃ b, l'[i]? = some b := by
  have : i < l.length := (List.getElem?_eq_some_iff.mp ha).1
  exact ⟨l'[i]'(by omega), List.getElem?_eq_getElem (by omega)⟩

theorem hasAlways_true {c : Cls} (h : hasAlways L c = true) {k : Nat} {ss : List Slot} (hs : Shape L c k ss) :
    hasContents c.info k (writeSlots ss) = true := by
  obtain ⟨x, hx, he⟩ := List.any_eq_true.mp h
  refine List.any_eq_true.mpr ⟨x, hx, List.all_eq_true.mpr fun a ha => ?_⟩
  have hsure := List.all_eq_true.mp he a ha
  cases a with
  | flag i => simp [HasAtom.sure] at hsure
  | kid i => simp [HasAtom.sure] at hsure
  | choice i => simp [HasAtom.sure] at hsure
  | size i =>
    simp only [HasAtom.sure, isSetB, Bool.and_eq_true, Nat.ble_eq] at hsure
    cases hm : c.info.members[i]? with
    | none => rw [hm] at hsure; simp at hsure
    | some m =>
      obtain ⟨sl, hsl⟩ := getElem?_same_length hs.length hm
      have hok := (hs.slots i m sl hm hsl).2
      rw [hm] at hsure
      obtain ⟨kd, mu⟩ := m
      cases mu with
      | one => simp at hsure
      | opt => simp at hsure
      | set sc =>
        simp only at hok
        simp only [HasAtom.eval, writeSlots_get, hsl, Option.map_some, Option.getD_some, writeSlot_kids]
        cases hk : sl.kids with
        | nil => rw [hk] at hok; simp at hok; omega
        | cons a as => simp

theorem stmt_matches (hT : Tree L ov T) {c : Cls} {d : Str} {k : Nat} {ss : List Slot} (hn : T (.comp c d k ss)) (sub : Cls → Re)
    (hs : ∀ c' d' k' ss', T (.comp c' d' k' ss') → (sub c').Matches (itemDecls (Node.write (.comp c' d' k' ss')).body))
    (has : Bool) (hsure : hasAlways L c = true → has = true) (s : Stmt) (k' : Nat) (hk' : c.info.choices ≠ 0 → k' = k)
    (h0 : c.info.choices = 0 → s.conds.all Cond.guard = true) :
    (stmtRe L c k' sub s).Matches (itemDecls (s.write k has (writeSlots ss))) := by
  have hsh := hT.shape hn
  unfold stmtRe
  by_cases hd : s.conds.any (Cond.differs k') = true
  · rw [if_pos hd]
    have hc : c.info.choices ≠ 0 := fun h => by
      obtain ⟨x, hx, hxd⟩ := List.any_eq_true.mp hd
      have := List.all_eq_true.mp (h0 h) x hx
      cases x <;> simp [Cond.differs, Cond.guard] at hxd this
    have := hk' hc
    subst this
    have : ¬ (s.conds.all (Cond.eval k' has (writeSlots ss)) = true) := by
      rw [List.all_eq_true]
      intro hall
      obtain ⟨x, hx, hxd⟩ := List.any_eq_true.mp hd
      have := hall x hx
      cases x with
      | flag i => simp [Cond.differs] at hxd
      | self => simp [Cond.differs] at hxd
      | choice j =>
        simp only [Cond.differs, Bool.not_eq_true'] at hxd
        simp only [Cond.eval, beq_iff_eq] at this
        subst this
        simp at hxd
    unfold Stmt.write
    rw [if_neg this]
    simp [itemDecls, Re.Matches]
  · rw [if_neg hd]
    cases hm : c.info.members[s.slot]? with
    | none => simp [Re.Matches]
    | some m =>
      obtain ⟨sl, hsl⟩ := getElem?_same_length hsh.length hm
      have hok := hsh.slots s.slot m sl hm hsl
      have hmem : sl ∈ ss := List.mem_of_getElem? hsl
      have hw : ((writeSlots ss)[s.slot]?.map (·.kids)).getD [] = sl.kids.map Node.write := by
        rw [writeSlots_get, hsl]; simp [writeSlot_kids]
      have hbody : (multRe L c s.slot m.mult (howRe sub s.how m.kind)).Matches
          (itemDecls ((sl.kids.map Node.write).flatMap fun w => s.how.write w)) := by
        have hk1 : ∀ n ∈ sl.kids, (howRe sub s.how m.kind).Matches (itemDecls (s.how.write n.write)) := by
          intro n hn'
          refine howRe_matches sub n m.kind (hok.1 n hn') ?_ s.how
          rintro c' d' k' ss' rfl
          exact hs c' d' k' ss' (hT.kids hn sl hmem _ hn')
        rw [itemDecls_flatMap, List.map_map]
        have h2 := hok.2
        cases hmu : m.mult with
        | set sc =>
          rw [hmu] at h2
          simp only [multRe]
          refine rep_matches ?_ ?_ ?_
          · simpa using h2.1
          · simpa using h2.2
          · intro w hw'
            obtain ⟨n, hn', rfl⟩ := List.mem_map.mp hw'
            exact hk1 n hn'
        | one =>
          rw [hmu] at h2
          obtain ⟨n, hn'⟩ := List.length_eq_one_iff.mp h2
          rw [hn']
          simpa [multRe] using hk1 n (by simp [hn'])
        | opt =>
          rw [hmu] at h2
          obtain ⟨n, hn'⟩ := List.length_eq_one_iff.mp h2
          rw [hn']
          simpa [multRe] using hk1 n (by simp [hn'])
      show (guardRe (s.conds.any (Cond.open (hasAlways L c))) _).Matches _
      unfold Stmt.write
      rw [hw]
      by_cases hc : s.conds.all (Cond.eval k has (writeSlots ss)) = true
      · rw [if_pos hc]
        unfold guardRe
        split
        · exact opt_matches hbody
        · exact hbody
      · rw [if_neg hc]
        have hg : s.conds.any (Cond.open (hasAlways L c)) = true := by
          have hc' : s.conds.all (Cond.eval k has (writeSlots ss)) = false := Bool.eq_false_iff.mpr hc
          obtain ⟨x, hx, hxe⟩ := List.all_eq_false.mp hc'
          refine List.any_eq_true.mpr ⟨x, hx, ?_⟩
          cases x with
          | flag i => rfl
          | self =>
            simp only [Cond.eval, Bool.not_eq_true] at hxe
            simp only [Cond.open, Bool.not_eq_true']
            rw [← Bool.not_eq_true]
            intro h
            rw [hsure h] at hxe
            cases hxe
          | choice j =>
            exfalso
            apply hd
            refine List.any_eq_true.mpr ⟨_, hx, ?_⟩
            by_cases hz : c.info.choices = 0
            · have := List.all_eq_true.mp (h0 hz) _ hx
              simp [Cond.guard] at this
            · have hkk := hk' hz
              subst hkk
              simp only [Cond.eval, beq_iff_eq] at hxe
              simp only [Cond.differs, Bool.not_eq_true']
              rw [← Bool.not_eq_true, Nat.beq_eq]
              exact hxe
        rw [hg]
        simp only [guardRe, if_true]
        simpa [itemDecls] using opt_nil _

/-- Without choices there are no conditions on them. -/
theorem no_choice (c : Cls) (h : c.info.choices = 0) : ∀ s ∈ c.info.stmts, s.conds.all Cond.guard = true := by
  have : allCls.all (fun c => !Nat.beq c.info.choices 0 || c.info.stmts.all fun s => s.conds.all Cond.guard) = true := by decide +kernel
  have := List.all_eq_true.mp this c (mem_allCls c)
  simp only [h, Bool.or_eq_true, Bool.not_eq_true'] at this
  rcases this with h | h
  · simp at h
  · exact List.all_eq_true.mp h

theorem classRe_matches (hT : Tree L ov T) : ∀ (f : Nat) (c : Cls) (d : Str) (k : Nat) (ss : List Slot), T (.comp c d k ss) →
    (classRe L ov f c).Matches (itemDecls (Node.write (.comp c d k ss)).body)
  | 0, _, _, _, _, _ => by simp [classRe, Re.Matches]
  | f + 1, c, d, k, ss, hn => by
    simp only [classRe]
    cases ho : ov c with
    | some r => exact hT.over ho hn
    | none =>
      simp only [Option.getD_none]
      have hseq : ∀ k', (c.info.choices ≠ 0 → k' = k) →
          (choiceRe L c (classRe L ov f) k').Matches (itemDecls (Node.write (.comp c d k ss)).body) := by
        intro k' hk'
        simp only [Node.write, assemble]
        rw [itemDecls_flatMap]
        refine seqs_matches _ _ (by simp) ?_
        intro i r w hr hw
        rw [List.getElem?_map] at hr hw
        cases hs : c.info.stmts[i]? with
        | none => rw [hs] at hr; simp at hr
        | some s =>
          rw [hs] at hr hw
          simp only [Option.map_some, Option.some.injEq] at hr hw
          subst hr; subst hw
          exact stmt_matches hT hn _ (fun c' d' k' ss' h' => classRe_matches hT f c' d' k' ss' h') _
            (fun h => hasAlways_true h (hT.shape hn)) s k' hk'
            (fun hz => no_choice c hz s (List.mem_of_getElem? hs))
      unfold choicesRe
      by_cases hz : c.info.choices = 0
      · rw [if_pos (by rw [hz]; rfl)]
        exact hseq 0 (fun h => absurd hz h)
      · rw [if_neg (by rw [Nat.beq_eq]; exact hz)]
        rcases (hT.shape hn).choice with h | ⟨h1, h2⟩
        · exact absurd h hz
        · refine alts_matches _ _ (choiceRe L c (classRe L ov f) k) ?_ (hseq k (fun _ => rfl))
          exact List.mem_map_of_mem (List.mem_filter.mpr ⟨List.mem_range.mpr h1, h2⟩)

/-- The items written inside the element. -/
def Written.children (w : Written) : List Item := if w.has then w.body else []

theorem elementRe_matches (hT : Tree L ov T) (c : Cls) (d : Str) (k : Nat) (ss : List Slot) (hn : T (.comp c d k ss)) :
    (elementRe L ov c).Matches (itemDecls (Node.write (.comp c d k ss)).children) := by
  have h := classRe_matches hT 8 c d k ss hn
  unfold elementRe Written.children
  by_cases ha : hasAlways L c = true
  · rw [if_pos ha]
    have : (Node.write (.comp c d k ss)).has = true := hasAlways_true ha (hT.shape hn)
    rw [if_pos this]; exact h
  · rw [if_neg ha]
    by_cases hh : (Node.write (.comp c d k ss)).has = true
    · rw [if_pos hh]; exact Or.inr h
    · rw [if_neg hh]; exact Or.inl rfl

theorem write_xml (c : Cls) (d : Str) (k : Nat) (ss : List Slot) :
    (Node.comp c d k ss).xml = .elem c.info.name d ((Node.write (.comp c d k ss)).children.map (·.xml)) := by
  simp only [Node.xml, Node.write, assemble, Written.children]
  split <;> simp_all

end
end Mx.Content
