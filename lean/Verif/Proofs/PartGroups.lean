import Verif.Spec.PartGroups
import Verif.Proofs.Notations
import Verif.Props.StringProps
import Verif.Props.EnumProps

/-
Proofs about part groups.
-/
namespace Mx
open Mx.Spec

theorem ofChildren_children (pl : PartList) : PartList.ofChildren pl.children = some pl := by
  obtain ⟨groups, id, entries⟩ := pl
  induction groups with
  | nil => rfl
  | cons g gs ih =>
    show (PartList.ofChildren (PartList.children ⟨gs, id, entries⟩)).map _ = _
    rw [ih]
    rfl

/-- The start element of a group whose bracket type is a value. -/
def startXml (g : PartGroupData) : PartGroupXml :=
  { isStart := true, number := groupNumberText g.number, name := if g.name.length > 0 then some g.name else none, symbol := g.bracket.bind groupSymbol }

theorem makeStart_some {g : PartGroupData} (h : g.bracket ≠ none) : makePartGroupStart g = some (startXml g) := by
  unfold makePartGroupStart startXml
  cases hb : g.bracket with
  | none => exact absurd hb h
  | some b => rfl

theorem starts_some {l : List PartGroupData} (h : ∀ g ∈ l, g.bracket ≠ none) : l.mapM makePartGroupStart = some (l.map startXml) := by
  induction l with
  | nil => rfl
  | cons g l ih =>
    rw [List.mapM_cons, makeStart_some (h g List.mem_cons_self), ih (fun x hx => h x (List.mem_cons_of_mem _ hx))]
    rfl

/-- The children that are written for part number `i`. -/
def segment (σ : StdSort) (groups : List PartGroupData) (i : Nat) (id : Str) : List (Convert.Entry PartGroupXml) :=
  (groupsStarting groups i).map (fun g => .partGroup (startXml g)) ++ [.scorePart id] ++ stopEntries σ groups i

/-- The children that are written for the parts from number `i` on. -/
def segments (σ : StdSort) (groups : List PartGroupData) : Nat → List Str → List (Convert.Entry PartGroupXml)
  | _, [] => []
  | i, id :: ids => segment σ groups i id ++ segments σ groups (i + 1) ids

theorem starting_bracket {groups : List PartGroupData} (h : ∀ g ∈ groups, g.bracket ≠ none) (i : Int) : ∀ g ∈ groupsStarting groups i, g.bracket ≠ none :=
  fun g hg => h g (List.mem_of_mem_filter hg)

theorem writeParts_later (σ : StdSort) {groups : List PartGroupData} (h : ∀ g ∈ groups, g.bracket ≠ none) (ids : List Str) :
    ∀ (i : Nat) (pl : PartList), ∃ pl', writeParts σ groups (i + 1) ids pl = some pl' ∧ pl'.children = pl.children ++ segments σ groups (i + 1) ids := by
  induction ids with
  | nil => exact fun i pl => ⟨pl, rfl, (List.append_nil _).symm⟩
  | cons id ids ih =>
    intro i pl
    have e : addScorePart σ groups (i + 1) id pl = some { pl with entries := pl.entries ++ segment σ groups (i + 1) id } := by
      unfold addScorePart
      rw [starts_some (starting_bracket h _), Option.map_some, if_neg (Nat.succ_ne_zero i)]
      simp [segment, List.append_assoc, List.map_map, Function.comp_def]
    obtain ⟨pl', h1, h2⟩ := ih (i + 1) { pl with entries := pl.entries ++ segment σ groups (i + 1) id }
    refine ⟨pl', ?_, ?_⟩
    · rw [writeParts, e]; exact h1
    · rw [h2, segments]
      simp [PartList.children, List.append_assoc]

theorem writePartList_children (σ : StdSort) {groups : List PartGroupData} (h : ∀ g ∈ groups, g.bracket ≠ none) {ids : List Str} (hi : ids ≠ []) :
    ∃ pl, writePartList σ groups ids = some pl ∧ pl.children = segments σ groups 0 ids := by
  cases ids with
  | nil => exact absurd rfl hi
  | cons id ids =>
    have e : addScorePart σ groups 0 id .new = some ⟨(groupsStarting groups 0).map startXml, id, stopEntries σ groups 0⟩ := by
      unfold addScorePart
      have := starts_some (starting_bracket h 0)
      rw [show ((0 : Nat) : Int) = 0 from rfl, this, Option.map_some, if_pos rfl]
      rfl
    obtain ⟨pl', h1, h2⟩ := writeParts_later σ h ids 0 ⟨(groupsStarting groups 0).map startXml, id, stopEntries σ groups 0⟩
    refine ⟨pl', ?_, ?_⟩
    · rw [writePartList, writeParts, e]; exact h1
    · rw [h2, segments]
      simp [segment, PartList.children, List.append_assoc, List.map_map, Function.comp_def]

/-! ### Reading -/

theorem number_parsed {g : PartGroupXml} {n : Int} (hg : g.number = groupNumberText n) (h1 : -1 ≤ n) (h2 : InInt n) : parsePartGroupNumber g = .ok n := by
  unfold parsePartGroupNumber
  rw [hg, groupNumberText]
  by_cases h : n ≥ 0
  · rw [if_pos h, xsToken, reduce_of_normalised (showInt_normalised n)]
    show (match stringToInt (showInt n) (-1) with | none => _ | some (true, n) => _ | some (false, _) => _) = _
    have : stringToInt (showInt n) (-1) = some (true, n) := by
      unfold stringToInt
      rw [atoi_showInt n h2, Option.map_some, if_pos rfl]
    rw [this]
  · rw [if_neg h]
    have : n = -1 := by omega
    rw [this]

/-- A group on the stack of the reader. -/
def openGroup (g : PartGroupData) : PartGroupData := { keptGroup g with last := -1 }

theorem started_open {g : PartGroupData} (h : g.bracket ≠ none) : startedGroup g.first g.number (startXml g) = openGroup g := by
  have hn : ((if g.name.length > 0 then some g.name else none) : Option Str).getD [] = g.name := by
    cases g.name with
    | nil => rfl
    | cons c s => rfl
  have hb : ((g.bracket.bind groupSymbol).map MapName.bracketMap.toApi) = if g.bracket = some .unspecified then none else g.bracket := by
    cases hb : g.bracket with
    | none => exact absurd hb h
    | some b => cases b <;> decide
  unfold startedGroup openGroup keptGroup startXml
  simp only [hn, hb, Option.getD_none]

theorem foldlM_append_ok {α β : Type} {f : β → α → Res β} {l l' : List α} {b b' : β} (h : l.foldlM f b = .ok b') : (l ++ l').foldlM f b = l'.foldlM f b' := by
  rw [List.foldlM_append, h]
  rfl

theorem starts_read (partwise : List Str) {l : List PartGroupData} {i : Int} (h : ∀ g ∈ l, g.first = i ∧ g.bracket ≠ none ∧ -1 ≤ g.number ∧ InInt g.number) :
    ∀ (r : PartListReader), r.index = i → (l.map (fun g => (.partGroup (startXml g) : Convert.Entry PartGroupXml))).foldlM (handleEntry partwise) r =
      .ok { r with stack := (l.map openGroup).reverse ++ r.stack } := by
  induction l with
  | nil => intro r _; rfl
  | cons g l ih =>
    intro r hr
    obtain ⟨h1, h2, h3, h4⟩ := h g List.mem_cons_self
    have e : handleEntry partwise r (.partGroup (startXml g)) = .ok { r with stack := openGroup g :: r.stack } := by
      show handlePartGroup (startXml g) r = _
      unfold handlePartGroup
      rw [if_pos (show (startXml g).isStart = true from rfl), number_parsed (n := g.number) rfl h3 h4, hr, ← h1, ← started_open h2]
      rfl
    rw [List.map_cons, List.foldlM_cons, e]
    show List.foldlM _ _ _ = _
    refine (ih (fun x hx => h x (List.mem_cons_of_mem _ hx)) { r with stack := openGroup g :: r.stack } hr).trans ?_
    simp [List.append_assoc]

theorem eraseP_perm {stack rest : List PartGroupData} {g : PartGroupData} (hp : stack.Perm (g :: rest)) (hr : ∀ x ∈ rest, x.number ≠ g.number) :
    stack.find? (fun x => x.number = g.number) = some g ∧ (stack.eraseP (fun x => x.number = g.number)).Perm rest := by
  have hg : g ∈ stack := hp.mem_iff.mpr List.mem_cons_self
  have hu : ∀ x ∈ stack, x.number = g.number → x = g := by
    intro x hx e
    rcases List.mem_cons.mp (hp.mem_iff.mp hx) with e' | hx'
    · exact e'
    · exact absurd e (hr x hx')
  have hf : stack.find? (fun x => x.number = g.number) = some g := by
    cases hfx : stack.find? (fun x => decide (x.number = g.number)) with
    | none => exact absurd (by simp) (List.find?_eq_none.mp hfx g hg)
    | some x =>
      have h1 := List.find?_some (p := fun x : PartGroupData => decide (x.number = g.number)) hfx
      rw [hu x (List.mem_of_find?_eq_some hfx) (of_decide_eq_true h1)]
  refine ⟨hf, ?_⟩
  obtain ⟨a, l1, l2, h1, h2, h3, h4⟩ := List.exists_of_eraseP (p := fun x : PartGroupData => decide (x.number = g.number)) hg (by simp)
  have ha : a = g := hu a (by rw [h3]; simp) (of_decide_eq_true h2)
  rw [h4]
  refine List.Perm.cons_inv (a := g) ?_
  refine List.Perm.trans ?_ hp
  rw [h3, ha]
  exact List.perm_middle.symm

theorem stops_read (partwise : List Str) {l : List PartGroupData} {i : Int} (hi : 0 ≤ i) (h : ∀ g ∈ l, g.last = i ∧ -1 ≤ g.number ∧ InInt g.number) :
    ∀ (r : PartListReader) (rest : List PartGroupData), r.index = i + 1 → r.stack.Perm (l.map openGroup ++ rest) →
      (l.map openGroup ++ rest).Pairwise (fun a b => a.number ≠ b.number) →
      ∃ r', (l.map (fun g => (.partGroup (makePartGroupStop g) : Convert.Entry PartGroupXml))).foldlM (handleEntry partwise) r = .ok r' ∧
        r'.index = i + 1 ∧ r'.parts = r.parts ∧ r'.stack.Perm rest ∧ r'.out = r.out ++ l.map keptGroup := by
  induction l with
  | nil => intro r rest hr hp _; exact ⟨r, rfl, hr, rfl, hp, (List.append_nil _).symm⟩
  | cons g l ih =>
    intro r rest hr hp hd
    obtain ⟨h1, h3, h4⟩ := h g List.mem_cons_self
    rw [List.map_cons, List.cons_append] at hp hd
    obtain ⟨hd1, hd2⟩ := List.pairwise_cons.mp hd
    obtain ⟨e1, e2⟩ := eraseP_perm hp (fun x hx => (hd1 x hx).symm)
    have hne : r.stack ≠ [] := by
      intro e
      rw [e] at hp
      exact absurd hp.length_eq (by simp)
    have hk : { openGroup g with last := if r.index > 0 then r.index - 1 else r.index } = keptGroup g := by
      rw [hr, if_pos (by omega)]
      unfold openGroup keptGroup
      simp only [h1]
      congr 1
      omega
    have e : handleEntry partwise r (.partGroup (makePartGroupStop g)) =
        .ok { r with stack := r.stack.eraseP (fun x => x.number = (openGroup g).number), out := r.out ++ [keptGroup g] } := by
      show handlePartGroup (makePartGroupStop g) r = _
      unfold handlePartGroup
      rw [if_neg (show ¬ ((makePartGroupStop g).isStart = true) from Bool.false_ne_true), if_neg hne, number_parsed (n := g.number) rfl h3 h4]
      show Except.ok (stopGroup g.number r) = _
      unfold stopGroup popGroup
      have e1' : r.stack.find? (fun x => x.number = g.number) = some (openGroup g) := e1
      rw [e1']
      show Except.ok { r with stack := _, out := r.out ++ [{ openGroup g with last := _ }] } = _
      rw [hk]
      rfl
    obtain ⟨r', k1, k2, k3, k4, k5⟩ := ih (fun x hx => h x (List.mem_cons_of_mem _ hx))
      { r with stack := r.stack.eraseP (fun x => x.number = (openGroup g).number), out := r.out ++ [keptGroup g] } rest hr e2 hd2
    refine ⟨r', ?_, k2, k3, k4, ?_⟩
    · rw [List.map_cons, List.foldlM_cons, e]
      exact k1
    · rw [k5]
      simp [List.append_assoc]

theorem filter_split {α : Type} (l : List α) (p q s : α → Bool) (h : ∀ x ∈ l, s x = (p x || q x) ∧ (p x && q x) = false) :
    (l.filter s).Perm (l.filter p ++ l.filter q) := by
  induction l with
  | nil => exact List.Perm.refl _
  | cons x l ih =>
    have ih := ih (fun y hy => h y (List.mem_cons_of_mem _ hy))
    obtain ⟨h1, h2⟩ := h x List.mem_cons_self
    cases hp : p x <;> cases hq : q x <;> rw [hp, hq] at h1 h2
    · rw [List.filter_cons_of_neg (by rw [h1]; decide), List.filter_cons_of_neg (by rw [hp]; decide), List.filter_cons_of_neg (by rw [hq]; decide)]
      exact ih
    · rw [List.filter_cons_of_pos (by rw [h1]; decide), List.filter_cons_of_neg (by rw [hp]; decide), List.filter_cons_of_pos (by rw [hq])]
      exact (ih.cons x).trans List.perm_middle.symm
    · rw [List.filter_cons_of_pos (by rw [h1]; decide), List.filter_cons_of_pos (by rw [hp]), List.filter_cons_of_neg (by rw [hq]; decide)]
      exact ih.cons x
    · cases h2

/-- State of the reader between two parts: the groups that are open, the groups that are complete. -/
structure Between (groups : List PartGroupData) (k : Nat) (parts : List Str) (r : PartListReader) : Prop where
  index : r.index = k
  parts : r.parts = parts
  stack : r.stack.Perm ((groups.filter (fun g : PartGroupData => decide (g.first < (k : Int) ∧ (k : Int) ≤ g.last))).map openGroup)
  out : r.out.Perm ((groups.filter (fun g : PartGroupData => decide (g.last < (k : Int)))).map keptGroup)

theorem segment_read (σ : StdSort) {groups : List PartGroupData} {n : Nat} (h : GroupsFit n groups) {partwise : List Str} {k : Nat} {id : Str} (hid : id ∈ partwise)
    {parts : List Str} {r : PartListReader} (hr : Between groups k parts r) :
    ∃ r', (segment σ groups k id).foldlM (handleEntry partwise) r = .ok r' ∧ Between groups (k + 1) (parts ++ [id]) r' := by
  have s1 := starts_read partwise (l := groupsStarting groups k) (i := k) (fun g hg => by
    obtain ⟨h1, h2⟩ := List.mem_filter.mp hg
    exact ⟨of_decide_eq_true h2, h.bracket g h1, h.numbers g h1⟩) r hr.index
  -- the stack after the starts
  let active := groups.filter (fun g : PartGroupData => decide (g.first ≤ (k : Int) ∧ (k : Int) ≤ g.last))
  let rest := groups.filter (fun g : PartGroupData => decide (g.first < (k : Int) + 1 ∧ (k : Int) + 1 ≤ g.last))
  have p1 : active.Perm (groups.filter (fun g : PartGroupData => decide (g.first = (k : Int))) ++ groups.filter (fun g : PartGroupData => decide (g.first < (k : Int) ∧ (k : Int) ≤ g.last))) := by
    refine filter_split _ _ _ _ (fun g hg => ?_)
    obtain ⟨_, h2, _⟩ := h.range g hg
    constructor
    · rw [← Bool.decide_or]; congr 1; apply propext; constructor <;> intro _ <;> omega
    · rw [← Bool.decide_and]; apply decide_eq_false; omega
  have p2 : active.Perm (groups.filter (fun g : PartGroupData => decide (g.last = (k : Int))) ++ rest) := by
    refine filter_split _ _ _ _ (fun g hg => ?_)
    obtain ⟨_, h2, _⟩ := h.range g hg
    constructor
    · rw [← Bool.decide_or]; congr 1; apply propext; constructor <;> intro _ <;> omega
    · rw [← Bool.decide_and]; apply decide_eq_false; omega
  have p3 : (groups.filter (fun g : PartGroupData => decide (g.last < (k : Int) + 1))).Perm (groups.filter (fun g : PartGroupData => decide (g.last < (k : Int))) ++ groups.filter (fun g : PartGroupData => decide (g.last = (k : Int)))) := by
    refine filter_split _ _ _ _ (fun g hg => ?_)
    constructor
    · rw [← Bool.decide_or]; congr 1; apply propext; constructor <;> intro _ <;> omega
    · rw [← Bool.decide_and]; apply decide_eq_false; omega
  let stops := σ.sort (fun g => - g.number) (groupsStopping groups k)
  have p4 : stops.Perm (groups.filter (fun g : PartGroupData => decide (g.last = (k : Int)))) := σ.perm _ _
  have p5 : active.Perm (stops ++ rest) := p2.trans (p4.symm.append_right rest)
  have hstack : ((groupsStarting groups k).map openGroup).reverse ++ r.stack |>.Perm (stops.map openGroup ++ rest.map openGroup) := by
    rw [← List.map_append]
    refine List.Perm.trans ?_ (p5.map openGroup)
    refine List.Perm.trans ?_ (p1.map openGroup).symm
    rw [List.map_append]
    exact (List.reverse_perm _).append hr.stack
  have hdist : (stops.map openGroup ++ rest.map openGroup).Pairwise (fun a b => a.number ≠ b.number) := by
    rw [← List.map_append, List.pairwise_map]
    refine (p5.pairwise_iff (R := fun a b => (openGroup a).number ≠ (openGroup b).number) (fun hab => Ne.symm hab)).mp ?_
    refine List.Pairwise.imp_of_mem ?_ (h.distinct.filter _)
    intro a b ha hb hab
    have ha' := of_decide_eq_true (List.mem_filter.mp ha).2
    have hb' := of_decide_eq_true (List.mem_filter.mp hb).2
    exact hab ⟨by omega, by omega⟩
  obtain ⟨r', k1, k2, k3, k4, k5⟩ := stops_read partwise (l := stops) (i := k) (by omega) (fun g hg => by
      obtain ⟨h1, h2⟩ := List.mem_filter.mp (p4.mem_iff.mp hg)
      exact ⟨of_decide_eq_true h2, h.numbers g h1⟩)
    (handleScorePart partwise id { r with stack := ((groupsStarting groups k).map openGroup).reverse ++ r.stack }) (rest.map openGroup)
    (by show r.index + 1 = _; rw [hr.index]) hstack hdist
  refine ⟨r', ?_, ?_, ?_, ?_, ?_⟩
  · unfold segment
    rw [List.append_assoc, foldlM_append_ok s1]
    rw [List.singleton_append, List.foldlM_cons]
    exact k1
  · rw [k2]; push_cast; rfl
  · rw [k3, handleScorePart, if_pos hid, hr.parts]
  · push_cast; exact k4
  · rw [k5]
    push_cast
    refine List.Perm.trans ?_ (p3.map keptGroup).symm
    rw [List.map_append]
    exact hr.out.append (p4.map keptGroup)

theorem segments_read (σ : StdSort) {groups : List PartGroupData} {n : Nat} (h : GroupsFit n groups) {partwise : List Str} (ids : List Str) :
    ∀ (k : Nat) (parts : List Str) (r : PartListReader), (∀ id ∈ ids, id ∈ partwise) → Between groups k parts r →
    ∃ r', (segments σ groups k ids).foldlM (handleEntry partwise) r = .ok r' ∧ Between groups (k + ids.length) (parts ++ ids) r' := by
  induction ids with
  | nil => intro k parts r _ hr; exact ⟨r, rfl, by simpa using hr⟩
  | cons id ids ih =>
    intro k parts r hm hr
    obtain ⟨r1, h1, h2⟩ := segment_read σ h (hm id List.mem_cons_self) hr
    obtain ⟨r2, h3, h4⟩ := ih (k + 1) (parts ++ [id]) r1 (fun x hx => hm x (List.mem_cons_of_mem _ hx)) h2
    refine ⟨r2, ?_, ?_⟩
    · rw [segments, foldlM_append_ok h1]; exact h3
    · have e1 : k + (id :: ids).length = k + 1 + ids.length := by rw [List.length_cons]; omega
      have e2 : parts ++ id :: ids = parts ++ [id] ++ ids := by simp
      rw [e1, e2]; exact h4

theorem between_start {n : Nat} {groups : List PartGroupData} (h : GroupsFit n groups) : Between groups 0 [] {} := by
  refine ⟨rfl, rfl, ?_, ?_⟩
  · have : groups.filter (fun g : PartGroupData => decide (g.first < ((0 : Nat) : Int) ∧ ((0 : Nat) : Int) ≤ g.last)) = [] := by
      refine List.filter_eq_nil_iff.mpr (fun g hg => ?_)
      obtain ⟨h1, _, _⟩ := h.range g hg
      simp only [decide_eq_true_eq]
      omega
    rw [this]; exact List.Perm.refl _
  · have : groups.filter (fun g : PartGroupData => decide (g.last < ((0 : Nat) : Int))) = [] := by
      refine List.filter_eq_nil_iff.mpr (fun g hg => ?_)
      obtain ⟨h1, h2, _⟩ := h.range g hg
      simp only [decide_eq_true_eq]
      omega
    rw [this]; exact List.Perm.refl _

theorem groupLess_order {a b : PartGroupData} (h : groupLess b a = false) (hd : a.first = b.first → a.number ≠ b.number) : GroupOrder a b := by
  unfold groupLess at h
  unfold GroupOrder
  split at h
  · cases h
  · rename_i h1
    split at h
    · left; assumption
    · split at h
      · cases h
      · rename_i h2 h3
        have e : a.first = b.first := by omega
        have := hd e
        right; omega

theorem parts_back (σ : StdSort) (τ : GroupSort) {groups : List PartGroupData} {ids : List Str} (h : GroupsFit ids.length groups) (hi : ids ≠ []) :
    ∃ out, partsBack σ τ groups ids = some (.ok (out, ids)) ∧ out.Perm (groups.map keptGroup) ∧ out.Pairwise GroupOrder := by
  obtain ⟨pl, h1, h2⟩ := writePartList_children σ h.bracket hi
  obtain ⟨r, h3, h4⟩ := segments_read σ h ids 0 [] {} (fun _ hx => hx) (between_start h)
  have hout : r.out.Perm (groups.map keptGroup) := by
    refine h4.out.trans ?_
    rw [List.filter_eq_self.mpr]
    intro g hg
    obtain ⟨_, _, h5⟩ := h.range g hg
    exact decide_eq_true (by rw [Nat.zero_add]; exact h5)
  have hperm : (τ.sort r.out).Perm (groups.map keptGroup) := (τ.perm _).trans hout
  refine ⟨τ.sort r.out, ?_, hperm, ?_⟩
  · rw [partsBack, h1]
    show (PartList.ofChildren pl.children).map _ = _
    rw [ofChildren_children, Option.map_some, reconcileParts, h2, h3]
    show some (Except.ok (τ.sort r.out, r.parts)) = _
    rw [h4.parts]
    rfl
  · have hd : (τ.sort r.out).Pairwise (fun a b => a.first = b.first → a.number ≠ b.number) := by
      refine (hperm.pairwise_iff (R := fun a b : PartGroupData => a.first = b.first → a.number ≠ b.number) (fun hab e => Ne.symm (hab e.symm))).mpr ?_
      rw [List.pairwise_map]
      refine List.Pairwise.imp_of_mem ?_ h.distinct
      intro a b ha hb hab e
      have e' : a.first = b.first := e
      obtain ⟨_, a2, _⟩ := h.range a ha
      obtain ⟨_, b2, _⟩ := h.range b hb
      exact hab ⟨by omega, by omega⟩
    exact ((τ.sorted r.out).and hd).imp (fun hab => groupLess_order hab.1 hab.2)

end Mx
