import Verif.Spec.GroupsSaid
import Verif.Proofs.PartGroups

namespace Mx
open Mx.Spec

/-- What a group of the API says. -/
def saidOf (g : PartGroupData) : GroupSaid :=
  { first := g.first.toNat, last := g.last.toNat, number := groupNumberText g.number, name := g.name, symbol := g.bracket.map MapName.bracketMap.toCore }

/-- A number of a group that the program writes and reads. -/
def NumberFits (n : Int) : Prop := -1 ≤ n ∧ InInt n

theorem number_read {g : PartGroupXml} (h : GroupNumberKept g.number) : ∃ n, NumberFits n ∧ parsePartGroupNumber g = .ok n ∧ groupNumberText n = g.number := by
  rcases h with h | ⟨n, hn, h⟩
  · refine ⟨-1, ⟨by omega, by decide⟩, ?_, ?_⟩
    · unfold parsePartGroupNumber; rw [h]
    · rw [h]; decide
  · have hf : NumberFits (n : Int) := ⟨by omega, by unfold InInt INT_MIN INT_MAX; omega⟩
    have ht : groupNumberText (n : Int) = g.number := by
      rw [groupNumberText, if_pos (by omega), xsToken, reduce_of_normalised (showInt_normalised _), h]
    exact ⟨n, hf, number_parsed ht.symm hf.1 hf.2, ht⟩

theorem text_injective {a b : Int} (ha : NumberFits a) (hb : NumberFits b) (h : groupNumberText a = groupNumberText b) : a = b := by
  have h1 := number_parsed (g := { isStart := true, number := groupNumberText a }) rfl ha.1 ha.2
  have h2 := number_parsed (g := { isStart := true, number := groupNumberText a }) h hb.1 hb.2
  rw [h1] at h2
  exact Except.ok.inj h2

theorem symbol_back (s : Core.GroupSymbolValue) : MapName.bracketMap.toCore (MapName.bracketMap.toApi s : Api.BracketType) = s := by
  cases s <;> decide +kernel

theorem symbol_said (s : Core.GroupSymbolValue) : (MapName.bracketMap.toApi s : Api.BracketType) ≠ .unspecified := by
  cases s <;> decide +kernel

/-- A group on the stack while reading. -/
structure StackFits (parts : Nat) (g : PartGroupData) : Prop where
  first : 0 ≤ g.first ∧ g.first ≤ parts
  number : NumberFits g.number
  bracket : g.bracket ≠ none ∧ g.bracket ≠ some .unspecified

/-- A group that has been read. -/
structure OutFits (parts : Nat) (g : PartGroupData) : Prop where
  range : 0 ≤ g.first ∧ g.first ≤ g.last ∧ g.last < parts
  number : NumberFits g.number
  bracket : g.bracket ≠ none ∧ g.bracket ≠ some .unspecified

theorem OutFits.more {k l : Nat} {g : PartGroupData} (h : OutFits k g) (hk : k ≤ l) : OutFits l g := ⟨⟨h.range.1, h.range.2.1, by have := h.range.2.2; omega⟩, h.number, h.bracket⟩
theorem StackFits.more {k l : Nat} {g : PartGroupData} (h : StackFits k g) (hk : k ≤ l) : StackFits l g := ⟨⟨h.first.1, by have := h.first.2; omega⟩, h.number, h.bracket⟩

/-- What the groups on the stack will say. -/
def pending (stack : List PartGroupData) (parts : Nat) (cs : List (Convert.Entry PartGroupXml)) : List GroupSaid :=
  stack.filterMap (fun g => (endOf (groupNumberText g.number) parts cs).map (fun l => { saidOf g with last := l }))

/-- The key of a group on the stack. -/
def keyOf (g : PartGroupData) : Option Str × Nat := (groupNumberText g.number, g.first.toNat)

theorem read_said (partwise : List Str) (cs : List (Convert.Entry PartGroupXml)) :
    ∀ (parts : Nat) (r : PartListReader), r.index = parts → GroupsInOrder (r.stack.map keyOf) parts cs → (∀ g ∈ r.stack, StackFits parts g) →
    r.stack.Pairwise (fun a b => a.number ≠ b.number) → (∀ id ∈ scorePartIds cs, id ∈ partwise) → (∀ g ∈ r.out, OutFits parts g) →
    ∃ r', cs.foldlM (handleEntry partwise) r = .ok r' ∧ r'.parts = r.parts ++ scorePartIds cs ∧ (∀ g ∈ r'.out, OutFits (parts + (scorePartIds cs).length) g) ∧
      (r'.out.map saidOf).Perm (r.out.map saidOf ++ (pending r.stack parts cs ++ groupsSaidFrom parts cs)) := by
  induction cs with
  | nil =>
    intro parts r _ _ _ _ _ hout
    refine ⟨r, rfl, (List.append_nil _).symm, hout, ?_⟩
    have : pending r.stack parts [] = [] := by
      unfold pending
      rw [List.filterMap_eq_nil_iff]
      intro g _
      rfl
    rw [this]
    simp [groupsSaidFrom]
  | cons c cs ih =>
    intro parts r hr ho hst hd hp hout
    cases c with
    | scorePart id =>
      obtain ⟨r', h1, h2, h3, h4⟩ := ih (parts + 1) (handleScorePart partwise id r) (by show r.index + 1 = _; rw [hr]; push_cast; rfl) ho
        (fun g hg => (hst g hg).more (by omega)) hd (fun x hx => hp x (List.mem_cons_of_mem _ hx)) (fun g hg => (hout g hg).more (by omega))
      refine ⟨r', ?_, ?_, ?_, h4⟩
      · rw [List.foldlM_cons]; exact h1
      · rw [h2, handleScorePart, if_pos (hp id List.mem_cons_self)]
        simp [scorePartIds]
      · intro g hg
        exact (h3 g hg).more (by simp only [scorePartIds, List.length_cons]; omega)
    | partGroup g =>
      obtain ⟨hn, ho⟩ := ho
      obtain ⟨n, n1, n2, n3⟩ := number_read hn
      rcases ho with ⟨hs, hsym, hfresh, ho⟩ | ⟨hs, hopen, ho⟩
      · -- a start
        obtain ⟨s, hsym⟩ := Option.ne_none_iff_exists'.mp hsym
        have e : handleEntry partwise r (.partGroup g) = .ok { r with stack := startedGroup r.index n g :: r.stack } := by
          show handlePartGroup g r = _
          unfold handlePartGroup
          rw [if_pos hs, n2]
          rfl
        have hk : keyOf (startedGroup r.index n g) = (g.number, parts) := by
          unfold keyOf startedGroup
          rw [n3, hr]
          rfl
        obtain ⟨r', h1, h2, h3, h4⟩ := ih parts { r with stack := startedGroup r.index n g :: r.stack } hr
          (by show GroupsInOrder (keyOf (startedGroup r.index n g) :: r.stack.map keyOf) parts cs; rw [hk]; exact ho)
          (fun x hx => by
            rcases List.mem_cons.mp hx with e | hx
            · subst e
              refine ⟨⟨?_, ?_⟩, n1, ?_⟩
              · show 0 ≤ r.index; rw [hr]; omega
              · show r.index ≤ _; rw [hr]
              · show g.symbol.map _ ≠ none ∧ g.symbol.map _ ≠ _
                rw [hsym]
                exact ⟨by simp, by simpa using symbol_said s⟩
            · exact hst x hx)
          (List.pairwise_cons.mpr ⟨fun x hx e => by
            have : x.number = n := e.symm
            exact hfresh (keyOf x) (List.mem_map_of_mem hx) (by rw [← n3, ← this]; rfl), hd⟩) hp hout
        refine ⟨r', ?_, h2, h3, h4.trans ?_⟩
        · rw [List.foldlM_cons, e]; exact h1
        · refine List.Perm.append_left _ ?_
          have e1 : pending r.stack parts (.partGroup g :: cs) = pending r.stack parts cs := by
            unfold pending
            refine List.filterMap_congr (fun x _ => ?_)
            rw [endOf, if_neg (by rw [hs]; simp)]
          have e2 : pending (startedGroup r.index n g :: r.stack) parts cs = (match endOf g.number parts cs with | some last => [{ first := parts, last := last, number := g.number, name := g.name.getD [], symbol := g.symbol }] | none => []) ++ pending r.stack parts cs := by
            unfold pending
            rw [List.filterMap_cons]
            have : groupNumberText (startedGroup r.index n g).number = g.number := n3
            rw [this]
            cases endOf g.number parts cs with
            | none => rfl
            | some last =>
              have : ({ saidOf (startedGroup r.index n g) with last := last } : GroupSaid) = { first := parts, last := last, number := g.number, name := g.name.getD [], symbol := g.symbol } := by
                unfold saidOf startedGroup
                simp only [hr, n3, hsym, Option.map_some, symbol_back, Int.toNat_natCast]
              rw [Option.map_some, this]
              rfl
          rw [e1, e2, groupsSaidFrom, if_pos hs, List.append_assoc]
          exact (List.perm_append_comm_assoc _ _ _)
      · -- a stop
        obtain ⟨o, ho1, ho2, ho3⟩ := hopen
        obtain ⟨x, hx, rfl⟩ := List.mem_map.mp ho1
        have hxn : x.number = n := text_injective (hst x hx).number n1 (by rw [n3]; exact ho2)
        obtain ⟨l1, l2, hl⟩ := List.append_of_mem hx
        have hp1 : r.stack.Perm (x :: (l1 ++ l2)) := by rw [hl]; exact List.perm_middle
        have hd1 := (hp1.pairwise_iff (R := fun a b : PartGroupData => a.number ≠ b.number) (fun h => Ne.symm h)).mp hd
        obtain ⟨hd2, _⟩ := List.pairwise_cons.mp hd1
        obtain ⟨e1, _⟩ := eraseP_perm hp1 (fun y hy => (hd2 y hy).symm)
        have hne : r.stack ≠ [] := by rintro e; rw [e] at hx; cases hx
        have hx0 := (hst x hx)
        have hparts : 0 < parts := by omega
        have her : r.stack.eraseP (fun y => y.number = n) = r.stack.filter (fun y => y.number ≠ n) := by
          rw [hl]
          rw [List.eraseP_append_right _ (fun y hy => by
              have := hd2 y (List.mem_append_left _ hy)
              simp only [decide_eq_true_eq]; rw [← hxn]; exact this.symm),
            List.eraseP_cons_of_pos (by simpa using hxn), List.filter_append, List.filter_cons_of_neg (by simpa using hxn)]
          rw [List.filter_eq_self.mpr (fun y hy => by
              have := hd2 y (List.mem_append_left _ hy)
              simp only [ne_eq, decide_not, Bool.not_eq_true', decide_eq_false_iff_not]; rw [← hxn]; exact this.symm),
            List.filter_eq_self.mpr (fun y hy => by
              have := hd2 y (List.mem_append_right _ hy)
              simp only [ne_eq, decide_not, Bool.not_eq_true', decide_eq_false_iff_not]; rw [← hxn]; exact this.symm)]
        let x' : PartGroupData := { x with last := (parts : Int) - 1 }
        have e : handleEntry partwise r (.partGroup g) = .ok { r with stack := r.stack.filter (fun y => y.number ≠ n), out := r.out ++ [x'] } := by
          show handlePartGroup g r = _
          unfold handlePartGroup
          rw [if_neg (by rw [hs]; decide), if_neg hne, n2]
          show Except.ok (stopGroup n r) = _
          unfold stopGroup popGroup
          rw [hxn] at e1
          rw [e1]
          show Except.ok { r with stack := _, out := r.out ++ [{ x with last := _ }] } = _
          rw [if_pos (by omega), hr, her]
        have hsub : (r.stack.filter (fun y => y.number ≠ n)).map keyOf = (r.stack.map keyOf).filter (fun o => o.1 ≠ g.number) := by
          rw [List.filter_map]
          congr 1
          refine List.filter_congr (fun y hy => ?_)
          simp only [Function.comp_def, ne_eq, decide_not]
          congr 1
          refine decide_eq_decide.mpr ⟨fun e => ?_, fun e => ?_⟩
          · show groupNumberText y.number = _
            rw [e, n3]
          · exact text_injective (hst y hy).number n1 (by rw [n3]; exact e)
        obtain ⟨r', h1, h2, h3, h4⟩ := ih parts { r with stack := r.stack.filter (fun y => y.number ≠ n), out := r.out ++ [x'] } hr
          (by rw [hsub]; exact ho) (fun y hy => hst y (List.mem_of_mem_filter hy)) (hd.filter _) hp
          (fun y hy => by
            rcases List.mem_append.mp hy with hy | hy
            · exact hout y hy
            · rw [List.mem_singleton.mp hy]
              have h5 := hx0.first
              have h6 : x.first.toNat < parts := ho3
              exact ⟨⟨h5.1, by show x.first ≤ (parts : Int) - 1; omega, by show (parts : Int) - 1 < parts; omega⟩, hx0.number, hx0.bracket⟩)
        refine ⟨r', ?_, h2, h3, h4.trans ?_⟩
        · rw [List.foldlM_cons, e]; exact h1
        · have e3 : groupsSaidFrom parts (.partGroup g :: cs) = groupsSaidFrom parts cs := by
            rw [groupsSaidFrom, if_neg (by rw [hs]; decide)]
            rfl
          have e4 : ∀ y ∈ l1 ++ l2, y.number ≠ n := fun y hy => by rw [← hxn]; exact (hd2 y hy).symm
          have e5 : r.stack.filter (fun y => y.number ≠ n) = l1 ++ l2 := by
            rw [hl, List.filter_append, List.filter_cons_of_neg (by simpa using hxn),
              List.filter_eq_self.mpr (fun y hy => by simpa using e4 y (List.mem_append_left _ hy)),
              List.filter_eq_self.mpr (fun y hy => by simpa using e4 y (List.mem_append_right _ hy))]
          have e6 : (pending r.stack parts (.partGroup g :: cs)).Perm (saidOf x' :: pending (l1 ++ l2) parts cs) := by
            refine (hp1.filterMap _).trans ?_
            rw [List.filterMap_cons]
            have : endOf (groupNumberText x.number) parts (.partGroup g :: cs) = some (parts - 1) := by
              rw [endOf, if_pos ⟨hs, by rw [hxn, n3]⟩]
            rw [this, Option.map_some]
            have h7 : ({ saidOf x with last := parts - 1 } : GroupSaid) = saidOf x' := by
              unfold saidOf x'
              simp only
              congr 1
              omega
            rw [h7]
            refine List.Perm.cons _ ?_
            unfold pending
            rw [List.filterMap_congr (g := fun y => (endOf (groupNumberText y.number) parts cs).map (fun l => { saidOf y with last := l }))]
            intro y hy
            have hy' : y ∈ r.stack := by
              rw [hl]
              rcases List.mem_append.mp hy with h | h
              · exact List.mem_append_left _ h
              · exact List.mem_append_right _ (List.mem_cons_of_mem _ h)
            rw [endOf, if_neg]
            rintro ⟨_, h8⟩
            exact e4 y hy (text_injective (hst y hy').number n1 (by rw [n3, h8]))
          show ((r.out ++ [x']).map saidOf ++ (pending (r.stack.filter (fun y => y.number ≠ n)) parts cs ++ groupsSaidFrom parts cs)).Perm _
          rw [e5, e3, List.map_append, List.append_assoc]
          refine List.Perm.append_left _ ?_
          rw [← List.append_assoc]
          exact (e6.symm.append_right _)

/-! ### The groups that are said fit together -/

theorem end_later {number : Option Str} {cs : List (Convert.Entry PartGroupXml)} : ∀ {parts last : Nat}, endOf number parts cs = some last → parts ≤ last + 1 := by
  induction cs with
  | nil => intro parts last h; cases h
  | cons c cs ih =>
    intro parts last h
    cases c with
    | scorePart id => have := ih (parts := parts + 1) h; omega
    | partGroup g =>
      rw [endOf] at h
      split at h
      · cases h; omega
      · exact ih h

theorem said_first (cs : List (Convert.Entry PartGroupXml)) : ∀ (parts : Nat), ∀ s ∈ groupsSaidFrom parts cs, parts ≤ s.first := by
  induction cs with
  | nil => intro parts s hs; cases hs
  | cons c cs ih =>
    intro parts s hs
    cases c with
    | scorePart id => have := ih (parts + 1) s hs; omega
    | partGroup g =>
      rw [groupsSaidFrom] at hs
      rcases List.mem_append.mp hs with hs | hs
      · split at hs
        · split at hs
          · rw [List.mem_singleton.mp hs]
          · cases hs
        · cases hs
      · exact ih parts s hs

/-- A group that starts while another with its number is open starts behind its end. -/
theorem said_behind (cs : List (Convert.Entry PartGroupXml)) : ∀ (opened : List (Option Str × Nat)) (parts : Nat) (o : Option Str × Nat), GroupsInOrder opened parts cs → o ∈ opened →
    ∀ last, endOf o.1 parts cs = some last → ∀ s ∈ groupsSaidFrom parts cs, s.number = o.1 → last < s.first := by
  induction cs with
  | nil => intro opened parts o _ _ last h; cases h
  | cons c cs ih =>
    intro opened parts o ho hm last he s hs hn
    cases c with
    | scorePart id => exact ih opened (parts + 1) o ho hm last he s hs hn
    | partGroup g =>
      obtain ⟨_, ho⟩ := ho
      rcases ho with ⟨h1, _, hfresh, ho⟩ | ⟨h1, hopen, ho⟩
      · rw [endOf, if_neg (by rw [h1]; simp)] at he
        rw [groupsSaidFrom, if_pos h1] at hs
        rcases List.mem_append.mp hs with hs | hs
        · split at hs
          · rw [List.mem_singleton.mp hs] at hn
            exact absurd hn.symm (hfresh o hm)
          · cases hs
        · exact ih _ parts o ho (List.mem_cons_of_mem _ hm) last he s hs hn
      · rw [groupsSaidFrom, if_neg (by rw [h1]; decide)] at hs
        by_cases e : g.number = o.1
        · rw [endOf, if_pos ⟨h1, e⟩] at he
          have := said_first cs parts s hs
          obtain ⟨_, _, _, h2⟩ := hopen
          cases he
          omega
        · rw [endOf, if_neg (fun h => e h.2)] at he
          exact ih _ parts o ho (List.mem_filter.mpr ⟨hm, by simpa using fun h => e h.symm⟩) last he s hs hn

theorem said_distinct (cs : List (Convert.Entry PartGroupXml)) : ∀ (opened : List (Option Str × Nat)) (parts : Nat), GroupsInOrder opened parts cs →
    (groupsSaidFrom parts cs).Pairwise (fun a b => a.first ≤ b.last → b.first ≤ a.last → a.number ≠ b.number) := by
  induction cs with
  | nil => intro _ _ _; exact List.Pairwise.nil
  | cons c cs ih =>
    intro opened parts ho
    cases c with
    | scorePart id => exact ih opened (parts + 1) ho
    | partGroup g =>
      obtain ⟨_, ho⟩ := ho
      rcases ho with ⟨h1, _, hfresh, ho⟩ | ⟨h1, hopen, ho⟩
      · rw [groupsSaidFrom, if_pos h1]
        cases he : endOf g.number parts cs with
        | none => exact ih _ parts ho
        | some last =>
          refine List.pairwise_cons.mpr ⟨fun s hs _ h2 e => ?_, ih _ parts ho⟩
          have := said_behind cs _ parts (g.number, parts) ho List.mem_cons_self last he s hs e.symm
          have h2 : s.first ≤ last := h2
          omega
      · rw [groupsSaidFrom, if_neg (by rw [h1]; decide)]
        exact ih _ parts ho

/-! ### What is written is in order -/

theorem order_congr (cs : List (Convert.Entry PartGroupXml)) : ∀ {o o' : List (Option Str × Nat)} {parts : Nat}, (∀ x, x ∈ o ↔ x ∈ o') → GroupsInOrder o parts cs → GroupsInOrder o' parts cs := by
  induction cs with
  | nil => intro _ _ _ _ _; trivial
  | cons c cs ih =>
    intro o o' parts he h
    cases c with
    | scorePart id => exact ih he h
    | partGroup g =>
      obtain ⟨hn, h⟩ := h
      refine ⟨hn, ?_⟩
      rcases h with ⟨h1, h2, h3, h4⟩ | ⟨h1, ⟨x, hx, h2⟩, h4⟩
      · exact .inl ⟨h1, h2, fun x hx => h3 x ((he x).mpr hx), ih (fun x => by rw [List.mem_cons, List.mem_cons, he x]) h4⟩
      · exact .inr ⟨h1, ⟨x, (he x).mp hx, h2⟩, ih (fun x => by rw [List.mem_filter, List.mem_filter, he x]) h4⟩

theorem number_text {n : Int} (h : NumberFits n) : GroupNumberKept (groupNumberText n) := by
  unfold groupNumberText
  by_cases hn : n ≥ 0
  · rw [if_pos hn, xsToken, reduce_of_normalised (showInt_normalised _)]
    have := h.2
    unfold InInt INT_MIN INT_MAX at this
    exact .inr ⟨n.toNat, by omega, by rw [show ((n.toNat : Nat) : Int) = n by omega]⟩
  · rw [if_neg hn]; exact .inl rfl

theorem starts_order {l : List PartGroupData} {parts : Nat} {cs : List (Convert.Entry PartGroupXml)} (hl : ∀ g ∈ l, g.first = parts ∧ NumberFits g.number ∧ (startXml g).symbol ≠ none) :
    ∀ {o : List (Option Str × Nat)}, (∀ g ∈ l, ∀ x ∈ o, x.1 ≠ groupNumberText g.number) → l.Pairwise (fun a b => a.number ≠ b.number) →
    GroupsInOrder (l.map keyOf ++ o) parts cs → GroupsInOrder o parts (l.map (fun g => .partGroup (startXml g)) ++ cs) := by
  induction l with
  | nil => intro o _ _ h; exact h
  | cons g l ih =>
    intro o hf hd h
    obtain ⟨h1, h2, h3⟩ := hl g List.mem_cons_self
    obtain ⟨d1, d2⟩ := List.pairwise_cons.mp hd
    have hk : keyOf g = ((startXml g).number, parts) := by
      unfold keyOf startXml
      rw [h1]
      rfl
    refine ⟨number_text h2, .inl ⟨rfl, h3, fun x hx => hf g List.mem_cons_self x hx, ?_⟩⟩
    refine ih (fun x hx => hl x (List.mem_cons_of_mem _ hx)) (fun x hx y hy => ?_) d2 (order_congr cs (fun x => ?_) h)
    · rcases List.mem_cons.mp hy with e | hy
      · subst e
        intro e
        exact d1 x hx (text_injective h2 (hl x (List.mem_cons_of_mem _ hx)).2.1 e)
      · exact hf x (List.mem_cons_of_mem _ hx) y hy
    · rw [← hk]
      simp only [List.map_cons, List.cons_append, List.mem_cons, List.mem_append]
      tauto

theorem stops_order {l : List PartGroupData} {parts : Nat} {cs : List (Convert.Entry PartGroupXml)} (hl : ∀ g ∈ l, NumberFits g.number ∧ g.first.toNat < parts) :
    ∀ {o : List (Option Str × Nat)}, (∀ g ∈ l, keyOf g ∈ o) → l.Pairwise (fun a b => a.number ≠ b.number) →
    GroupsInOrder (o.filter (fun x => ∀ g ∈ l, x.1 ≠ groupNumberText g.number)) parts cs → GroupsInOrder o parts (l.map (fun g => .partGroup (makePartGroupStop g)) ++ cs) := by
  induction l with
  | nil => intro o _ _ h; simpa using h
  | cons g l ih =>
    intro o hm hd h
    obtain ⟨d1, d2⟩ := List.pairwise_cons.mp hd
    obtain ⟨h1, h2⟩ := hl g List.mem_cons_self
    refine ⟨number_text h1, .inr ⟨rfl, ⟨keyOf g, hm g List.mem_cons_self, rfl, h2⟩, ?_⟩⟩
    refine ih (fun x hx => hl x (List.mem_cons_of_mem _ hx)) (fun x hx => List.mem_filter.mpr ⟨hm x (List.mem_cons_of_mem _ hx), ?_⟩) d2 (order_congr cs (fun x => ?_) h)
    · refine decide_eq_true (fun e => ?_)
      exact d1 x hx (text_injective (hl x (List.mem_cons_of_mem _ hx)).1 h1 e).symm
    · simp only [List.mem_filter, decide_eq_true_eq, List.forall_mem_cons]
      show _ ↔ (x ∈ o ∧ x.1 ≠ groupNumberText g.number) ∧ _
      tauto

theorem segments_order (σ : StdSort) {groups : List PartGroupData} {n : Nat} (h : GroupsFit n groups) (hb : ∀ g ∈ groups, g.bracket ≠ some .unspecified) (ids : List Str) :
    ∀ (k : Nat), GroupsInOrder ((groups.filter (fun g : PartGroupData => decide (g.first < (k : Int) ∧ (k : Int) ≤ g.last))).map keyOf) k (segments σ groups k ids) := by
  induction ids with
  | nil => intro k; trivial
  | cons id ids ih =>
    intro k
    have hu : ∀ a ∈ groups, ∀ b ∈ groups, Overlap a b → a.number = b.number → a = b := by
      have hp := h.distinct
      intro a ha b hb ho hab
      by_contra hne
      haveI : Std.Symm (fun g h : PartGroupData => Overlap g h → g.number ≠ h.number) := ⟨fun x y hxy ho e => hxy ⟨ho.2, ho.1⟩ e.symm⟩
      have := hp.forall ha hb hne
      exact this ho hab
    have hpw : ∀ (p : PartGroupData → Bool), (∀ g ∈ groups, p g = true → g.first ≤ (k : Int) ∧ (k : Int) ≤ g.last) → (groups.filter p).Pairwise (fun a b => a.number ≠ b.number) := by
      intro p hp
      refine List.Pairwise.imp_of_mem ?_ (h.distinct.filter _)
      intro a b ha hb' hab
      obtain ⟨ha1, ha2⟩ := List.mem_filter.mp ha
      obtain ⟨hb1, hb2⟩ := List.mem_filter.mp hb'
      have h1 := hp a ha1 ha2
      have h2 := hp b hb1 hb2
      exact hab ⟨by omega, by omega⟩
    rw [segments, segment, List.append_assoc, List.append_assoc]
    refine starts_order (l := groupsStarting groups k) (fun g hg => ?_) (fun g hg x hx e => ?_) ?_ ?_
    · obtain ⟨h1, h2⟩ := List.mem_filter.mp hg
      refine ⟨of_decide_eq_true h2, h.numbers g h1, ?_⟩
      show g.bracket.bind groupSymbol ≠ none
      obtain ⟨b, hb'⟩ := Option.ne_none_iff_exists'.mp (h.bracket g h1)
      have := hb g h1
      rw [hb'] at this ⊢
      unfold groupSymbol
      rw [Option.bind_some, if_pos (fun e => this (by rw [e]))]
      exact Option.some_ne_none _
    · obtain ⟨h1, h2⟩ := List.mem_filter.mp hg
      obtain ⟨y, hy, rfl⟩ := List.mem_map.mp hx
      obtain ⟨hy1, hy2⟩ := List.mem_filter.mp hy
      have hy2 := of_decide_eq_true hy2
      have h2 := of_decide_eq_true h2
      have hn : y.number = g.number := text_injective (h.numbers y hy1) (h.numbers g h1) e
      have hr := h.range g h1
      have := hu y hy1 g h1 ⟨by omega, by omega⟩ hn
      subst this
      omega
    · refine hpw _ (fun g hg hp => ?_)
      have := of_decide_eq_true hp
      have hr := h.range g hg
      omega
    · rw [List.singleton_append]
      show GroupsInOrder _ (k + 1) _
      have p4 : (σ.sort (fun g => - g.number) (groupsStopping groups k)).Perm (groupsStopping groups k) := σ.perm _ _
      refine stops_order (l := σ.sort (fun g => - g.number) (groupsStopping groups k)) (fun g hg => ?_) (fun g hg => ?_) ?_ ?_
      · obtain ⟨h1, h2⟩ := List.mem_filter.mp (p4.mem_iff.mp hg)
        have h2 := of_decide_eq_true h2
        have hr := h.range g h1
        exact ⟨h.numbers g h1, by omega⟩
      · obtain ⟨h1, h2⟩ := List.mem_filter.mp (p4.mem_iff.mp hg)
        have h2 := of_decide_eq_true h2
        have hr := h.range g h1
        by_cases e : g.first = k
        · exact List.mem_append_left _ (List.mem_map_of_mem (List.mem_filter.mpr ⟨h1, decide_eq_true e⟩))
        · exact List.mem_append_right _ (List.mem_map_of_mem (List.mem_filter.mpr ⟨h1, decide_eq_true ⟨by omega, by omega⟩⟩))
      · refine (p4.pairwise_iff (R := fun a b : PartGroupData => a.number ≠ b.number) (fun h => Ne.symm h)).mpr ?_
        refine hpw _ (fun g hg hp => ?_)
        have := of_decide_eq_true hp
        have hr := h.range g hg
        omega
      · refine order_congr _ (fun x => ?_) (ih (k + 1))
        rw [List.mem_filter]
        constructor
        · intro hx
          obtain ⟨y, hy, rfl⟩ := List.mem_map.mp hx
          obtain ⟨hy1, hy2⟩ := List.mem_filter.mp hy
          have hy2 := of_decide_eq_true hy2
          push_cast at hy2
          refine ⟨?_, decide_eq_true (fun g hg e => ?_)⟩
          · by_cases e : y.first = k
            · exact List.mem_append_left _ (List.mem_map_of_mem (List.mem_filter.mpr ⟨hy1, decide_eq_true e⟩))
            · exact List.mem_append_right _ (List.mem_map_of_mem (List.mem_filter.mpr ⟨hy1, decide_eq_true ⟨by omega, by omega⟩⟩))
          · obtain ⟨h1, h2⟩ := List.mem_filter.mp (p4.mem_iff.mp hg)
            have h2 := of_decide_eq_true h2
            have hr := h.range g h1
            have := hu y hy1 g h1 ⟨by omega, by omega⟩ (text_injective (h.numbers y hy1) (h.numbers g h1) e)
            subst this
            omega
        · rintro ⟨hx, hf⟩
          have hf := of_decide_eq_true hf
          have : ∃ y ∈ groups, keyOf y = x ∧ y.first ≤ (k : Int) ∧ (k : Int) ≤ y.last := by
            rcases List.mem_append.mp hx with hx | hx
            · obtain ⟨y, hy, e⟩ := List.mem_map.mp hx
              obtain ⟨hy1, hy2⟩ := List.mem_filter.mp hy
              have hy2 := of_decide_eq_true hy2
              have hr := h.range y hy1
              exact ⟨y, hy1, e, by omega, by omega⟩
            · obtain ⟨y, hy, e⟩ := List.mem_map.mp hx
              obtain ⟨hy1, hy2⟩ := List.mem_filter.mp hy
              have hy2 := of_decide_eq_true hy2
              exact ⟨y, hy1, e, by omega, by omega⟩
          obtain ⟨y, hy, rfl, y1, y2⟩ := this
          have hlast : y.last ≠ k := by
            intro e
            exact hf y (p4.mem_iff.mpr (List.mem_filter.mpr ⟨hy, decide_eq_true e⟩)) rfl
          exact List.mem_map_of_mem (List.mem_filter.mpr ⟨hy, decide_eq_true ⟨by push_cast; omega, by push_cast; omega⟩⟩)

theorem segments_ids (σ : StdSort) (groups : List PartGroupData) (ids : List Str) : ∀ k, scorePartIds (segments σ groups k ids) = ids := by
  have happ : ∀ (a b : List (Convert.Entry PartGroupXml)), scorePartIds (a ++ b) = scorePartIds a ++ scorePartIds b := by
    intro a b
    induction a with
    | nil => rfl
    | cons c a ih => cases c <;> simp [scorePartIds, ih]
  have hg : ∀ (l : List PartGroupData) (f : PartGroupData → PartGroupXml), scorePartIds (l.map (fun g => .partGroup (f g))) = [] := by
    intro l f
    induction l with
    | nil => rfl
    | cons g l ih => exact ih
  induction ids with
  | nil => intro k; rfl
  | cons id ids ih =>
    intro k
    rw [segments, segment, happ, happ, happ, hg, stopEntries, hg, ih]
    rfl

/-! ### Once through the program -/

theorem ofChildren_some {cs : List (Convert.Entry PartGroupXml)} (h : scorePartIds cs ≠ []) : ∃ pl, PartList.ofChildren cs = some pl ∧ pl.children = cs := by
  induction cs with
  | nil => exact absurd rfl h
  | cons c cs ih =>
    cases c with
    | scorePart id => exact ⟨_, rfl, rfl⟩
    | partGroup g =>
      obtain ⟨pl, h1, h2⟩ := ih h
      exact ⟨{ pl with groups := g :: pl.groups }, by rw [PartList.ofChildren, h1]; rfl, by rw [← h2]; rfl⟩

theorem saidOf_kept {g : PartGroupData} (h : g.bracket ≠ some .unspecified) : saidOf (keptGroup g) = saidOf g := by
  unfold saidOf keptGroup
  simp only [if_neg h]

theorem part_list_through (σ : StdSort) (τ : GroupSort) {cs : List (Convert.Entry PartGroupXml)} (h : PartListKept cs) :
    ∃ ds, partListThrough σ τ cs = some ds ∧ PartListKept ds ∧ scorePartIds ds = scorePartIds cs ∧ (groupsSaid ds).Perm (groupsSaid cs) := by
  obtain ⟨pl, h1, h2⟩ := ofChildren_some h.parts
  obtain ⟨r, r1, r2, r3, r4⟩ := read_said (scorePartIds cs) cs 0 {} rfl h.groups (fun g hg => by cases hg) List.Pairwise.nil (fun _ hx => hx) (fun g hg => by cases hg)
  have r4 : (r.out.map saidOf).Perm (groupsSaid cs) := r4
  have r2 : r.parts = scorePartIds cs := r2
  rw [Nat.zero_add] at r3
  have hs : (τ.sort r.out).Perm r.out := τ.perm _
  have r3' : ∀ g ∈ τ.sort r.out, OutFits (scorePartIds cs).length g := fun g hg => r3 g (hs.mem_iff.mp hg)
  have hfit : GroupsFit (scorePartIds cs).length (τ.sort r.out) := by
    refine ⟨fun g hg => (r3' g hg).range, fun g hg => (r3' g hg).number, fun g hg => (r3' g hg).bracket.1, ?_⟩
    have hp := ((hs.map saidOf).trans r4).symm
    have := (hp.pairwise_iff (R := fun a b : GroupSaid => a.first ≤ b.last → b.first ≤ a.last → a.number ≠ b.number) (fun hab h1 h2 e => hab h2 h1 e.symm)).mp (said_distinct cs [] 0 h.groups)
    rw [List.pairwise_map] at this
    refine List.Pairwise.imp_of_mem ?_ this
    intro a b ha hb hab ho e
    have h5 := (r3' a ha).range
    have h6 := (r3' b hb).range
    obtain ⟨o1, o2⟩ := ho
    exact hab (by show a.first.toNat ≤ b.last.toNat; omega) (by show b.first.toNat ≤ a.last.toNat; omega) (by show groupNumberText _ = groupNumberText _; rw [e])
  have hb : ∀ g ∈ τ.sort r.out, g.bracket ≠ some .unspecified := fun g hg => (r3' g hg).bracket.2
  obtain ⟨pl', w1, w2⟩ := writePartList_children σ hfit.bracket h.parts
  have hord : GroupsInOrder [] 0 (segments σ (τ.sort r.out) 0 (scorePartIds cs)) := by
    have := segments_order σ hfit hb (scorePartIds cs) 0
    rwa [show (τ.sort r.out).filter (fun g : PartGroupData => decide (g.first < ((0 : Nat) : Int) ∧ ((0 : Nat) : Int) ≤ g.last)) = [] from
      List.filter_eq_nil_iff.mpr (fun g hg => by
        have := (hfit.range g hg).1
        simp only [decide_eq_true_eq]
        omega)] at this
  have hids : scorePartIds (segments σ (τ.sort r.out) 0 (scorePartIds cs)) = scorePartIds cs := segments_ids _ _ _ 0
  refine ⟨segments σ (τ.sort r.out) 0 (scorePartIds cs), ?_, ⟨by rw [hids]; exact h.parts, hord⟩, hids, ?_⟩
  · rw [partListThrough, h1, Option.bind_some, reconcileParts, h2, r1]
    show (writePartList σ (τ.sort r.out) r.parts).map _ = _
    rw [r2, w1, Option.map_some, w2]
  · -- read what was written again, in two ways
    obtain ⟨s, s1, s2⟩ := segments_read σ hfit (scorePartIds cs) 0 [] {} (fun _ hx => hx) (between_start hfit)
    obtain ⟨t, t1, _, _, t4⟩ := read_said (scorePartIds cs) (segments σ (τ.sort r.out) 0 (scorePartIds cs)) 0 {} rfl hord (fun g hg => by cases hg) List.Pairwise.nil
      (fun x hx => by rw [hids] at hx; exact hx) (fun g hg => by cases hg)
    rw [s1] at t1
    cases t1
    have t4 : (s.out.map saidOf).Perm (groupsSaid (segments σ (τ.sort r.out) 0 (scorePartIds cs))) := t4
    refine t4.symm.trans ?_
    have h7 : s.out.Perm ((τ.sort r.out).map keptGroup) := by
      refine s2.out.trans ?_
      rw [List.filter_eq_self.mpr]
      intro g hg
      exact decide_eq_true (by rw [Nat.zero_add]; exact (hfit.range g hg).2.2)
    refine (h7.map saidOf).trans ?_
    rw [List.map_map, List.map_congr_left (f := saidOf ∘ keptGroup) (g := saidOf) (fun g hg => saidOf_kept (hb g hg))]
    exact (hs.map saidOf).trans r4

end Mx
