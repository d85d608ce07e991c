import Verif.Proofs.ContentCareful

/-
What is written is what ought to be written.
-/
open Mx.Spec
namespace Mx.Content

/-- Bounds that hold after every history of calls and after reading. -/
def wide : Limits where
  lo := reachable.lo
  hi c i := match c with
    | .GraceNoteGroup => reachable.hi c i
    | .NormalNoteGroup => reachable.hi c i
    | _ => none
  choice _ _ := true

theorem wide_hi {c : Cls} {i h : Nat} (e : wide.hi c i = some h) : reachable.hi c i = some h := by
  simp only [wide] at e
  split at e
  · exact e
  · exact e
  · cases e

inductive Wide : Node → Prop where
  | leaf (t : Nat) (h : Bool) (d : Str) : t ∈ leafNames → Wide (.leaf t h d)
  | comp (c : Cls) (d : Str) (k : Nat) (ss : List Slot) : Shape wide c k ss → (∀ s ∈ ss, ∀ n ∈ s.kids, Wide n) → Wide (.comp c d k ss)

theorem slot_widen {c : Cls} {i : Nat} {m : Member} {s : Slot} (h : SlotOk reachable c i m s) : SlotOk wide c i m s := by
  refine ⟨h.1, ?_⟩
  have h2 := h.2
  cases hm : m.mult with
  | one => rw [hm] at h2; exact h2
  | opt => rw [hm] at h2; exact h2
  | set sc => rw [hm] at h2; exact ⟨h2.1, fun x hx => h2.2 x (wide_hi hx)⟩

theorem ok_wide {n : Node} (h : Ok n) : Wide n := by
  induction h with
  | leaf t h d ht => exact .leaf t h d ht
  | comp c d k ss hs _ ih => exact .comp c d k ss ⟨hs.length, fun i m s hm hs' => slot_widen (hs.slots i m s hm hs'), hs.choice⟩ ih

theorem built_wide {n : Node} (h : Built n) : Wide n := ok_wide (built_ok h)

theorem wholeSlots_get : ∀ (ss : List Slot) (i : Nat), (wholeSlots ss)[i]? = ss[i]?.map wholeSlot
  | [], i => by simp [wholeSlots]
  | s :: ss, 0 => by simp [wholeSlots]
  | s :: ss, i + 1 => by simp [wholeSlots, wholeSlots_get ss i]

theorem wholeList_eq : ∀ ks : List Node, wholeList ks = ks.map whole
  | [] => rfl
  | k :: ks => by simp [wholeList, wholeList_eq ks]

/-- The conditions of a statement other than `hasContents()`. -/
def Cond.plain : Cond → Bool
  | .self => false
  | _ => true

def Stmt.plain (s : Stmt) : List Cond := s.conds.filter Cond.plain

def flagOk (m : Option Member) (i : Nat) : List Cond → Bool
  | [] => match m with | some ⟨_, .opt⟩ => false | some _ => true | none => false
  | .choice _ :: cs => flagOk m i cs
  | .self :: cs => flagOk m i cs
  | .flag j :: cs => (match m with | some ⟨_, .opt⟩ => Nat.beq i j | _ => false) && cs.all fun | .flag _ => false | _ => true

def HasAtom.follows (c : Cls) (s : Stmt) : HasAtom → Bool
  | .flag i => s.conds.any (fun | .flag j => Nat.beq i j | _ => false)
  | .size i => Nat.beq i s.slot || (isSetB c i && Nat.ble 1 (wide.lo c i))
  | .choice k => s.conds.any (fun | .choice j => Nat.beq k j | _ => false)
  | .kid i => Nat.beq i s.slot && match s.how with
    | .element => (match c.info.members[s.slot]? with | some ⟨.leaf _ true, _⟩ => true | _ => false)
    | _ => true

/-- If the statement writes anything then `hasContents()` is true. -/
def stmtSure (c : Cls) (s : Stmt) : Bool :=
  hasAlways wide c || c.info.has.any fun conj => conj.all (HasAtom.follows c s)

/-- The classes whose `hasContents()` says false of contents that are written (no other class asks them). -/
def looseB : Cls → Bool | .LyricTextChoice => true | .PartGroupOrScorePart => true | _ => false

def Kind.loose : Kind → Bool
  | .comp c => looseB c
  | _ => false

/-- Groups are written by their contents. If `hasContents()` of the group matters it is none of the loose ones. -/
def howOk (c : Cls) (s : Stmt) : Bool :=
  match s.how, c.info.members[s.slot]? with
  | .element, some m => m.kind.named
  | .body, some m => !m.kind.named && (!m.kind.loose || hasAlways wide c)
  | .bodyIf, some m => !m.kind.named && !m.kind.loose
  | _, none => false

def isSoundB : Cls → Bool | .Sound => true | _ => false

def noSelf (s : Stmt) : Bool := s.conds.all Cond.plain

def wholeOk (c : Cls) (s : Stmt) : Bool :=
  howOk c s && (isSoundB c || flagOk c.info.members[s.slot]? s.slot s.conds && (stmtSure c s || looseB c && noSelf s))

theorem whole_table (c : Cls) : ∀ s ∈ c.info.stmts, wholeOk c s = true := by
  have h : allCls.all (fun c => c.info.stmts.all (wholeOk c)) = true := by decide +kernel
  exact List.all_eq_true.mp (List.all_eq_true.mp h c (mem_allCls c))


section
variable {c : Cls} {k : Nat} {ss : List Slot}

theorem slot_at (hsh : Shape wide c k ss) {s : Stmt} (hs : s ∈ c.info.stmts) :
    ∃ m sl, c.info.members[s.slot]? = some m ∧ ss[s.slot]? = some sl ∧ SlotOk wide c s.slot m sl := by
  have h := whole_table c s hs
  simp only [wholeOk, Bool.and_eq_true] at h
  have h1 := h.1
  cases hm : c.info.members[s.slot]? with
  | none => unfold howOk at h1; rw [hm] at h1; split at h1 <;> simp_all
  | some m =>
    obtain ⟨sl, hsl⟩ := getElem?_same_length hsh.length hm
    exact ⟨m, sl, rfl, hsl, hsh.slots _ m sl hm hsl⟩

theorem follows_eval (hsh : Shape wide c k ss) {s : Stmt} {m : Member} {sl : Slot}
    (hm : c.info.members[s.slot]? = some m) (hsl : ss[s.slot]? = some sl)
    (hk : ∀ n ∈ sl.kids, n.kind = m.kind)
    (hconds : s.conds.all (fun cd => !cd.plain || Cond.eval k false (writeSlots ss) cd) = true)
    (hne : ∃ n ∈ sl.kids, s.how = .element ∨ n.write.has = true) {a : HasAtom} (ha : HasAtom.follows c s a = true) :
    HasAtom.eval k (writeSlots ss) a = true := by
  have hc := List.all_eq_true.mp hconds
  obtain ⟨n, hn, hw⟩ := hne
  cases a with
  | flag i =>
    simp only [HasAtom.follows, List.any_eq_true] at ha
    obtain ⟨cd, hcd, h⟩ := ha
    cases cd with
    | flag j =>
      have e : i = j := Nat.eq_of_beq_eq_true h
      subst e
      simpa [Cond.plain, Cond.eval, HasAtom.eval] using hc _ hcd
    | choice _ => cases h
    | self => cases h
  | choice i =>
    simp only [HasAtom.follows, List.any_eq_true] at ha
    obtain ⟨cd, hcd, h⟩ := ha
    cases cd with
    | choice j =>
      have e : i = j := Nat.eq_of_beq_eq_true h
      subst e
      simpa [Cond.plain, Cond.eval, HasAtom.eval] using hc _ hcd
    | flag _ => cases h
    | self => cases h
  | size i =>
    simp only [HasAtom.follows, Bool.or_eq_true, Bool.and_eq_true] at ha
    rcases ha with h | ⟨h1, h2⟩
    · have e := Nat.eq_of_beq_eq_true h
      subst e
      simp only [HasAtom.eval, writeSlots_get, hsl, Option.map_some, Option.getD_some, writeSlot_kids]
      cases hks : sl.kids with
      | nil => rw [hks] at hn; simp at hn
      | cons => simp
    · unfold isSetB at h1
      split at h1
      · rename_i kd sc hmi
        obtain ⟨si, hsi⟩ := getElem?_same_length hsh.length hmi
        have h3 := hsh.slots i _ si hmi hsi
        have h4 := h3.2.1
        have h5 := Nat.le_trans (Nat.le_of_ble_eq_true h2) h4
        simp only [HasAtom.eval, writeSlots_get, hsi, Option.map_some, Option.getD_some, writeSlot_kids]
        cases hks : si.kids with
        | nil => rw [hks] at h5; simp at h5
        | cons => simp
      · cases h1
  | kid i =>
    simp only [HasAtom.follows, Bool.and_eq_true] at ha
    have e := Nat.eq_of_beq_eq_true ha.1
    subst e
    simp only [HasAtom.eval, writeSlots_get, hsl, Option.map_some, Option.getD_some, writeSlot_kids, List.any_eq_true]
    refine ⟨n.write, List.mem_map.mpr ⟨n, hn, rfl⟩, ?_⟩
    rcases hw with hw | hw
    · have h2 := ha.2
      rw [hw, hm] at h2
      have hkn := hk n hn
      cases n with
      | comp c' d' k' s' =>
        have : m = ⟨.comp c', m.mult⟩ := by cases m; simp only [Node.kind] at hkn; rw [hkn]
        rw [this] at h2; cases h2
      | leaf t h d =>
        have : m = ⟨.leaf t h, m.mult⟩ := by cases m; simp only [Node.kind] at hkn; rw [hkn]
        rw [this] at h2
        cases h with
        | true => rfl
        | false => cases h2
    · exact hw

end

theorem nat_beq (k j : Nat) : (k == j) = Nat.beq k j := by
  by_cases h : k = j
  · subst h; simp
  · rw [beq_eq_false_iff_ne.mpr h]
    cases hb : Nat.beq k j with
    | false => rfl
    | true => exact absurd (Nat.eq_of_beq_eq_true hb) h

theorem choice_eval (k j : Nat) (ws : List WrittenSlot) : (!(Cond.choice j).plain || Cond.eval k false ws (.choice j)) = Nat.beq k j := by
  simp [Cond.plain, Cond.eval, nat_beq]

theorem no_flags (k : Nat) (ws : List WrittenSlot) : ∀ cs : List Cond, (cs.all fun | .flag _ => false | _ => true) = true →
    cs.all (fun cd => !cd.plain || Cond.eval k false ws cd) = cs.all fun | .choice j => Nat.beq k j | _ => true
  | [], _ => rfl
  | .choice j :: cs, h => by
    simp only [List.all_cons, Bool.true_and] at h ⊢
    rw [no_flags k ws cs h, choice_eval]
  | .self :: cs, h => by
    simp only [List.all_cons, Bool.true_and] at h ⊢
    rw [no_flags k ws cs h]
    rfl
  | .flag j :: cs, h => by simp at h

theorem conds_whole (k : Nat) (ws : List WrittenSlot) (m : Option Member) (i : Nat) (on : Bool)
    (hon : (ws[i]?.map (·.on)).getD false = on) : ∀ cs : List Cond, flagOk m i cs = true →
    cs.all (fun cd => !cd.plain || Cond.eval k false ws cd) = ((cs.all fun | .choice j => Nat.beq k j | _ => true) && inUse m on)
  | [], h => by
    unfold flagOk at h
    unfold inUse
    simp only [List.all_nil, Bool.true_and]
    split at h
    · cases h
    · rename_i m' hx
      split
      · rename_i hy
        cases hy
        exact absurd rfl (hx _)
      · rfl
      · rename_i hy; cases hy
    · cases h
  | .choice j :: cs, h => by
    simp only [List.all_cons]
    rw [conds_whole k ws m i on hon cs h, Bool.and_assoc, choice_eval]
  | .self :: cs, h => by
    simp only [List.all_cons]
    rw [conds_whole k ws m i on hon cs h]
    rfl
  | .flag j :: cs, h => by
    simp only [flagOk, Bool.and_eq_true] at h
    simp only [List.all_cons, Bool.true_and]
    rw [no_flags k ws cs h.2, Bool.and_comm]
    congr 1
    have h1 := h.1
    split at h1
    · have e := Nat.eq_of_beq_eq_true h1
      subst e
      simp only [Cond.plain, Cond.eval, Bool.not_true, Bool.false_or, hon, inUse]
    · cases h1

theorem conds_true (k : Nat) (ws : List WrittenSlot) (cs : List Cond) :
    cs.all (Cond.eval k true ws) = cs.all (fun cd => !cd.plain || Cond.eval k false ws cd) := by
  congr 1
  funext cd
  cases cd <;> simp [Cond.eval, Cond.plain]

theorem conds_noSelf (k : Nat) (ws : List WrittenSlot) (cs : List Cond) (h : cs.all Cond.plain = true) :
    cs.all (Cond.eval k false ws) = cs.all (fun cd => !cd.plain || Cond.eval k false ws cd) := by
  induction cs with
  | nil => rfl
  | cons cd cs ih =>
    simp only [List.all_cons, Bool.and_eq_true] at h ⊢
    rw [ih h.2, h.1]
    simp

theorem conds_self (k : Nat) (ws : List WrittenSlot) (cs : List Cond) (h : cs.all Cond.plain = false) :
    cs.all (Cond.eval k false ws) = false := by
  rw [List.all_eq_false] at h ⊢
  obtain ⟨cd, h1, h2⟩ := h
  refine ⟨cd, h1, ?_⟩
  cases cd <;> simp_all [Cond.plain, Cond.eval]

/-- What is known of the members of an object. -/
def WholeAt (n : Node) : Prop :=
  (n.kind.named = true → n.write.element.xml = (whole n).element) ∧
  (n.kind.named = false → n.write.body.map (·.xml) = (whole n).kids) ∧
  (n.kind.named = false → n.kind.loose = false → (whole n).kids ≠ [] → n.write.has = true)

def stmtWhole (s : Stmt) (w : Whole) : List Xml := match s.how with | .element => [w.element] | _ => w.kids

theorem kid_whole {c : Cls} {s : Stmt} {m : Member} (hm : c.info.members[s.slot]? = some m) (hok : howOk c s = true) {n : Node}
    (hk : n.kind = m.kind) (h : WholeAt n) : (s.how.write n.write).map (·.xml) = stmtWhole s (whole n) := by
  unfold howOk at hok
  rw [hm] at hok
  unfold stmtWhole
  cases hh : s.how with
  | element =>
    rw [hh] at hok
    simp only [How.write, List.map_cons, List.map_nil]
    rw [h.1 (by rw [hk]; exact hok)]
  | body =>
    rw [hh] at hok
    simp only [Bool.and_eq_true, Bool.not_eq_true'] at hok
    simp only [How.write]
    exact h.2.1 (by rw [hk]; exact hok.1)
  | bodyIf =>
    rw [hh] at hok
    simp only [Bool.and_eq_true, Bool.not_eq_true'] at hok
    have h1 := h.2.1 (by rw [hk]; exact hok.1)
    have h2 := h.2.2 (by rw [hk]; exact hok.1) (by rw [hk]; exact hok.2)
    simp only [How.write]
    by_cases hb : n.write.has = true
    · rw [if_pos hb]; exact h1
    · rw [if_neg hb]
      by_cases he : (whole n).kids = []
      · rw [he]; rfl
      · exact absurd (h2 he) hb

theorem flatMap_whole {c : Cls} {s : Stmt} {m : Member} (hm : c.info.members[s.slot]? = some m) (hok : howOk c s = true) :
    ∀ (ks : List Node), (∀ n ∈ ks, n.kind = m.kind ∧ WholeAt n) →
    ((ks.map Node.write).flatMap fun w => s.how.write w).map (·.xml) = (ks.map whole).flatMap (stmtWhole s)
  | [], _ => rfl
  | n :: ks, h => by
    simp only [List.map_cons, List.flatMap_cons, List.map_append]
    rw [flatMap_whole hm hok ks (fun x hx => h x (by simp [hx])), kid_whole hm hok (h n (by simp)).1 (h n (by simp)).2]

theorem wholeKids_eq (c : Cls) (k : Nat) (slots : List (Bool × List Whole)) :
    wholeKids c k slots = c.info.stmts.flatMap fun s =>
      match slots[s.slot]? with
      | none => []
      | some (on, ws) => if inChoice k s && inUse (c.info.members[s.slot]?) on then ws.flatMap (stmtWhole s) else [] := rfl

section
variable {c : Cls} {k : Nat} {ss : List Slot}

theorem stmt_has (hc : isSoundB c = false) (hsh : Shape wide c k ss) (hkids : ∀ s ∈ ss, ∀ n ∈ s.kids, WholeAt n) {s : Stmt} (hs : s ∈ c.info.stmts)
    (hsure : stmtSure c s = true) {m : Member} {sl : Slot} (hm : c.info.members[s.slot]? = some m) (hsl : ss[s.slot]? = some sl)
    (hc' : (inChoice k s && inUse (c.info.members[s.slot]?) sl.on) = true) (hne : (sl.kids.map whole).flatMap (stmtWhole s) ≠ []) :
    hasContents c.info k (writeSlots ss) = true := by
  have htab := whole_table c s hs
  simp only [wholeOk, Bool.and_eq_true, hc, Bool.false_or] at htab
  unfold stmtSure at hsure
  rw [Bool.or_eq_true] at hsure
  rcases hsure with h | h
  · exact hasAlways_true h hsh
  by_cases hal : hasAlways wide c = true
  · exact hasAlways_true hal hsh
  obtain ⟨conj, hconj, hall⟩ := List.any_eq_true.mp h
  unfold hasContents
  refine List.any_eq_true.mpr ⟨conj, hconj, List.all_eq_true.mpr ?_⟩
  intro a ha
  have hslot := hsh.slots _ m sl hm hsl
  refine follows_eval hsh hm hsl hslot.1 ?_ ?_ (List.all_eq_true.mp hall a ha)
  · have hon : ((writeSlots ss)[s.slot]?.map (·.on)).getD false = sl.on := by
      rw [writeSlots_get, hsl]
      simp [writeSlot_on]
    rw [conds_whole k _ _ s.slot sl.on hon s.conds htab.2.1]
    exact hc'
  · obtain ⟨x, hx⟩ := List.exists_mem_of_ne_nil _ hne
    obtain ⟨w, hw, hxw⟩ := List.mem_flatMap.mp hx
    obtain ⟨n, hn, rfl⟩ := List.mem_map.mp hw
    refine ⟨n, hn, ?_⟩
    have hW := hkids sl (List.mem_of_getElem? hsl) n hn
    have hkn := hslot.1 n hn
    have hok := htab.1
    unfold howOk at hok
    rw [hm] at hok
    have hnek : s.how ≠ .element → (whole n).kids ≠ [] := by
      intro h1 h2
      unfold stmtWhole at hxw
      cases hh : s.how with
      | element => exact h1 hh
      | body => rw [hh] at hxw; simp [h2] at hxw
      | bodyIf => rw [hh] at hxw; simp [h2] at hxw
    cases hh : s.how with
    | element => exact .inl rfl
    | body =>
      right
      rw [hh] at hok
      simp only [Bool.and_eq_true, Bool.not_eq_true', Bool.or_eq_true] at hok
      rcases hok.2 with h | h
      · exact hW.2.2 (by rw [hkn]; exact hok.1) (by rw [hkn]; exact h) (hnek (by rw [hh]; intro h; cases h))
      · exact absurd h hal
    | bodyIf =>
      right
      rw [hh] at hok
      simp only [Bool.and_eq_true, Bool.not_eq_true'] at hok
      exact hW.2.2 (by rw [hkn]; exact hok.1) (by rw [hkn]; exact hok.2) (hnek (by rw [hh]; intro h; cases h))

/-- The piece of `wholeKids` of one statement. -/
def wholeStmt (c : Cls) (k : Nat) (slots : List (Bool × List Whole)) (s : Stmt) : List Xml :=
  match slots[s.slot]? with
  | none => []
  | some (on, ws) => if inChoice k s && inUse (c.info.members[s.slot]?) on then ws.flatMap (stmtWhole s) else []

theorem wholeStmt_at {s : Stmt} {sl : Slot} (hsl : ss[s.slot]? = some sl) : wholeStmt c k (wholeSlots ss) s =
    if inChoice k s && inUse (c.info.members[s.slot]?) sl.on then (sl.kids.map whole).flatMap (stmtWhole s) else [] := by
  unfold wholeStmt
  rw [wholeSlots_get, hsl]
  cases sl with
  | mk on ks => simp only [Option.map_some, wholeSlot, wholeList_eq, Slot.on, kids_mk]; rfl

theorem stmt_whole (hc : isSoundB c = false) (hsh : Shape wide c k ss) (hkids : ∀ s ∈ ss, ∀ n ∈ s.kids, WholeAt n) {s : Stmt} (hs : s ∈ c.info.stmts) :
    (Stmt.write k (hasContents c.info k (writeSlots ss)) (writeSlots ss) s).map (·.xml) = wholeStmt c k (wholeSlots ss) s := by
  obtain ⟨m, sl, hm, hsl, hslot⟩ := slot_at hsh hs
  have htab := whole_table c s hs
  simp only [wholeOk, Bool.and_eq_true, hc, Bool.false_or] at htab
  rw [wholeStmt_at hsl]
  have hon : ((writeSlots ss)[s.slot]?.map (·.on)).getD false = sl.on := by
    rw [writeSlots_get, hsl]
    simp [writeSlot_on]
  have hconds := conds_whole k _ _ s.slot sl.on hon s.conds htab.2.1
  have hfm := flatMap_whole hm htab.1 sl.kids (fun n hn => ⟨hslot.1 n hn, hkids sl (List.mem_of_getElem? hsl) n hn⟩)
  have hsame : s.conds.all (Cond.eval k (hasContents c.info k (writeSlots ss)) (writeSlots ss)) =
      s.conds.all (fun cd => !cd.plain || Cond.eval k false (writeSlots ss) cd) →
      (Stmt.write k (hasContents c.info k (writeSlots ss)) (writeSlots ss) s).map (·.xml) =
      if inChoice k s && inUse (c.info.members[s.slot]?) sl.on then (sl.kids.map whole).flatMap (stmtWhole s) else [] := by
    intro he
    unfold Stmt.write
    rw [he, hconds, writeSlots_get, hsl, ← hfm]
    simp only [Option.map_some, Option.getD_some, writeSlot_kids]
    show List.map _ (if (inChoice k s && inUse c.info.members[s.slot]? sl.on) = true then _ else _) = _
    by_cases hb : (inChoice k s && inUse c.info.members[s.slot]? sl.on) = true
    · rw [if_pos hb, if_pos hb]
    · rw [if_neg hb, if_neg hb]; rfl
  by_cases hhas : hasContents c.info k (writeSlots ss) = true
  · apply hsame
    rw [hhas]
    exact conds_true k _ _
  · have hf : hasContents c.info k (writeSlots ss) = false := by simpa using hhas
    by_cases hself : s.conds.all Cond.plain = true
    · apply hsame
      rw [hf]
      exact conds_noSelf k _ _ hself
    · have hself' : s.conds.all Cond.plain = false := by simpa using hself
      have hl : Stmt.write k (hasContents c.info k (writeSlots ss)) (writeSlots ss) s = [] := by
        unfold Stmt.write
        rw [hf, conds_self k _ _ hself']
        rfl
      rw [hl]
      have hsure : stmtSure c s = true := by
        have h := htab.2.2
        rw [Bool.or_eq_true] at h
        rcases h with h | h
        · exact h
        · simp only [Bool.and_eq_true, noSelf] at h
          exact absurd h.2 hself
      by_cases hb : (inChoice k s && inUse c.info.members[s.slot]? sl.on) = true
      · rw [if_pos hb]
        by_cases hne : (sl.kids.map whole).flatMap (stmtWhole s) = []
        · rw [hne]; rfl
        · exact absurd (stmt_has hc hsh hkids hs hsure hm hsl hb hne) hhas
      · rw [if_neg hb]; rfl

theorem map_flatMap_congr {α β γ : Type} {l : List α} {f : α → List β} {g : β → γ} {h : α → List γ} (e : ∀ a ∈ l, (f a).map g = h a) :
    (l.flatMap f).map g = l.flatMap h := by
  induction l with
  | nil => rfl
  | cons a l ih => simp only [List.flatMap_cons, List.map_append]; rw [e a (by simp), ih (fun b hb => e b (by simp [hb]))]

theorem body_whole (d : Str) (hc : isSoundB c = false) (hsh : Shape wide c k ss) (hkids : ∀ s ∈ ss, ∀ n ∈ s.kids, WholeAt n) :
    (Node.write (.comp c d k ss)).body.map (·.xml) = wholeKids c k (wholeSlots ss) := by
  show (c.info.stmts.flatMap _).map _ = _
  exact map_flatMap_congr fun s hs => stmt_whole hc hsh hkids hs

theorem has_whole (hc : isSoundB c = false) (hl : looseB c = false) (hsh : Shape wide c k ss) (hkids : ∀ s ∈ ss, ∀ n ∈ s.kids, WholeAt n)
    (hne : wholeKids c k (wholeSlots ss) ≠ []) : hasContents c.info k (writeSlots ss) = true := by
  obtain ⟨x, hx⟩ := List.exists_mem_of_ne_nil _ hne
  rw [wholeKids_eq] at hx
  obtain ⟨s, hs, hxs⟩ := List.mem_flatMap.mp hx
  obtain ⟨m, sl, hm, hsl, hslot⟩ := slot_at hsh hs
  have hxs' : x ∈ wholeStmt c k (wholeSlots ss) s := hxs
  rw [wholeStmt_at hsl] at hxs'
  have htab := whole_table c s hs
  simp only [wholeOk, Bool.and_eq_true, hc, Bool.false_or, hl, Bool.false_and, Bool.or_false] at htab
  by_cases hb : (inChoice k s && inUse c.info.members[s.slot]? sl.on) = true
  · rw [if_pos hb] at hxs'
    exact stmt_has hc hsh hkids hs htab.2.2 hm hsl hb (List.ne_nil_of_mem hxs')
  · rw [if_neg hb] at hxs'
    simp at hxs'

end

theorem sound_whole {d : Str} {k : Nat} {ss : List Slot} (hsh : Shape wide .Sound k ss)
    (hkids : ∀ s ∈ ss, ∀ n ∈ s.kids, WholeAt n)
    (hs : HasFlag (.comp .Sound d k ss) 1 ∨ ¬ HasFlag (.comp .Sound d k ss) 0 ∧ ¬ HasFlag (.comp .Sound d k ss) 2) :
    (Node.write (.comp .Sound d k ss)).element.xml = (whole (.comp .Sound d k ss)).element := by
  obtain ⟨b0, n0, h0, k0⟩ := slot_one hsh (i := 0) (m := ⟨.leaf (nm! "midi-device") true, .opt⟩) rfl (fun _ h => by cases h)
  obtain ⟨b1, n1, h1, k1⟩ := slot_one hsh (i := 1) (m := ⟨.comp .MidiInstrument, .opt⟩) rfl (fun _ h => by cases h)
  obtain ⟨b2, n2, h2, k2⟩ := slot_one hsh (i := 2) (m := ⟨.comp .Play, .opt⟩) rfl (fun _ h => by cases h)
  have e0 := (hkids _ (List.mem_of_getElem? h0) n0 (by simp [Slot.kids])).1 (by rw [k0]; decide)
  have e1 := (hkids _ (List.mem_of_getElem? h1) n1 (by simp [Slot.kids])).1 (by rw [k1]; decide)
  have e2 := (hkids _ (List.mem_of_getElem? h2) n2 (by simp [Slot.kids])).1 (by rw [k2]; decide)
  have hst : Cls.Sound.info.stmts = [⟨[.flag 0], 0, .element⟩, ⟨[], 1, .element⟩, ⟨[.flag 2], 2, .element⟩] := rfl
  have hmm : Cls.Sound.info.members = [⟨.leaf (nm! "midi-device") true, .opt⟩, ⟨.comp .MidiInstrument, .opt⟩, ⟨.comp .Play, .opt⟩] := rfl
  have hh : Cls.Sound.info.has = [[.flag 0], [.flag 1], [.flag 2]] := rfl
  have hfl : b1 = true ∨ b0 = false ∧ b2 = false := by
    rcases hs with ⟨s, hs1, hs2⟩ | ⟨hs0, hs2⟩
    · left
      rw [h1] at hs1
      cases hs1
      exact hs2
    · right
      constructor
      · cases b0 with
        | false => rfl
        | true => exact absurd ⟨_, h0, rfl⟩ hs0
      · cases b2 with
        | false => rfl
        | true => exact absurd ⟨_, h2, rfl⟩ hs2
  simp only [Node.write, assemble, whole, wholeKids_eq, hst, hmm, hh, hasContents, HasAtom.eval, List.any_cons, List.any_nil, List.all_cons, List.all_nil, Stmt.write,
    writeSlots_get, wholeSlots_get, h0, h1, h2, Option.map_some, Option.getD_some, writeSlot, wholeSlot, writeKids, wholeList, Cond.eval,
    List.flatMap_cons, List.flatMap_nil, How.write, stmtWhole, inChoice, inUse, List.getElem?_cons_zero, List.getElem?_cons_succ]
  rcases hfl with rfl | ⟨rfl, rfl⟩
  · cases b0 <;> cases b2 <;> simp [e0, e1, e2]
  · cases b1 <;> simp [e1]

theorem write_whole (n : Node) (hn : Wide n) (hsc : SoundCareful n) : WholeAt n := by
  match n, hn, hsc with
  | .leaf t h d, _, _ =>
    refine ⟨fun _ => rfl, fun _ => rfl, fun _ _ h => ?_⟩
    exact absurd rfl h
  | .comp c d k ss, hn, hsc =>
    have hkids : ∀ s ∈ ss, ∀ m ∈ s.kids, WholeAt m := by
      intro s hs m hm
      have hlt := sizeOf_kid (c := c) (d := d) (k := k) hs hm
      have h1 : Wide m := by cases hn with | comp _ _ _ _ _ hk => exact hk s hs m hm
      have h2 : SoundCareful m := by cases hsc with | comp _ _ _ _ _ hk => exact hk s hs m hm
      exact write_whole m h1 h2
    have hsh : Shape wide c k ss := by cases hn with | comp _ _ _ _ h _ => exact h
    by_cases hc : isSoundB c = true
    · have e : c = .Sound := by cases c <;> first | rfl | (cases hc; done)
      subst e
      have hnm : (Node.comp Cls.Sound d k ss).kind.named = true := by show Kind.named (.comp .Sound) = true; decide
      refine ⟨fun _ => ?_, fun h => ?_, fun h => ?_⟩
      · cases hsc with
        | comp _ _ _ _ hs _ => exact sound_whole hsh hkids (hs rfl)
      · rw [hnm] at h; cases h
      · rw [hnm] at h; cases h
    · have hc' : isSoundB c = false := by simpa using hc
      refine ⟨fun hnm => ?_, fun _ => body_whole d hc' hsh hkids, fun _ hl hne => has_whole hc' hl hsh hkids hne⟩
      have hl : looseB c = false := by
        cases c <;> first | rfl | (exact absurd hnm (by show ¬ Kind.named (.comp _) = true; decide))
      have hb := body_whole d hc' hsh hkids
      show Xml.elem _ _ _ = Xml.elem _ _ _
      congr 1
      by_cases hhas : hasContents c.info k (writeSlots ss) = true
      · rw [if_pos hhas]; exact hb
      · rw [if_neg hhas]
        by_cases he : wholeKids c k (wholeSlots ss) = []
        · exact he.symm
        · exact absurd (has_whole hc' hl hsh hkids he) hhas
termination_by sizeOf n
decreasing_by exact hlt

end Mx.Content
