import Verif.Proofs.ContentChecks

/-
Objects built by a program keep the bounds, and their elements are valid.
-/
open Mx.Spec
namespace Mx.Content

theorem kids_mk (b : Bool) (ks : List Node) : (Slot.mk b ks).kids = ks := rfl

/-! ## Objects built by a program -/

inductive Ok : Node → Prop where
  | leaf (t : Nat) (h : Bool) (d : Str) : t ∈ leafNames → Ok (.leaf t h d)
  | comp (c : Cls) (d : Str) (k : Nat) (ss : List Slot) : Shape reachable c k ss → (∀ s ∈ ss, ∀ n ∈ s.kids, Ok n) → Ok (.comp c d k ss)

theorem changeSlot_get (ss : List Slot) (i j : Nat) (f : Slot → Slot) :
    (changeSlot ss i f)[j]? = if i = j then ss[j]?.map f else ss[j]? := by
  unfold changeSlot
  cases h : ss[i]? with
  | none =>
    by_cases hij : i = j
    · subst hij; simp [h]
    · simp [hij]
  | some s =>
    by_cases hij : i = j
    · subst hij
      have hi : i < ss.length := (List.getElem?_eq_some_iff.mp h).1
      simp [List.getElem?_set, hi]
      rw [List.getElem?_eq_getElem hi] at h
      simp only [Option.some.injEq] at h
      rw [h]
    · simp [List.getElem?_set, hij]

theorem changeSlot_length (ss : List Slot) (i : Nat) (f : Slot → Slot) : (changeSlot ss i f).length = ss.length := by
  unfold changeSlot; split <;> simp

theorem shape_change {L : Limits} {c : Cls} {k : Nat} {ss : List Slot} (h : Shape L c k ss) (i : Nat) (f : Slot → Slot)
    (hf : ∀ m s, c.info.members[i]? = some m → ss[i]? = some s → SlotOk L c i m (f s)) : Shape L c k (changeSlot ss i f) := by
  refine ⟨by rw [changeSlot_length]; exact h.length, ?_, h.choice⟩
  intro j m s hm hs
  rw [changeSlot_get] at hs
  by_cases hij : i = j
  · subst hij
    rw [if_pos rfl] at hs
    cases h' : ss[i]? with
    | none => rw [h'] at hs; simp at hs
    | some s' =>
      rw [h'] at hs
      simp only [Option.map_some, Option.some.injEq] at hs
      subst hs
      exact hf m s' hm h'
  · rw [if_neg hij] at hs
    exact h.slots j m s hm hs

theorem kids_change {P : Node → Prop} {ss : List Slot} (h : ∀ s ∈ ss, ∀ n ∈ s.kids, P n) (i : Nat) (f : Slot → Slot)
    (hf : ∀ s, ss[i]? = some s → ∀ n ∈ (f s).kids, P n) : ∀ s ∈ changeSlot ss i f, ∀ n ∈ s.kids, P n := by
  intro s hs n hn
  obtain ⟨j, hj⟩ := List.mem_iff_getElem?.mp hs
  rw [changeSlot_get] at hj
  by_cases hij : i = j
  · subst hij
    rw [if_pos rfl] at hj
    cases h' : ss[i]? with
    | none => rw [h'] at hj; simp at hj
    | some s' =>
      rw [h'] at hj
      simp only [Option.map_some, Option.some.injEq] at hj
      subst hj
      exact hf s' h' n hn
  · rw [if_neg hij] at hj
    exact h s (List.mem_of_getElem? hj) n hn

theorem memberSet_eq {c : Cls} {i : Nat} {m : Member} {s : SetCode} (h : c.info.members[i]? = some m) (hs : m.mult = .set s) :
    memberSet c i = s := by
  obtain ⟨kd, mu⟩ := m
  simp only at hs
  subst hs
  simp only [memberSet, h]

theorem lo_le_start (c : Cls) (i : Nat) : reachable.lo c i ≤ (memberSet c i).start := Nat.min_le_left _ _
theorem lo_le_least (c : Cls) (i : Nat) : reachable.lo c i ≤ (memberSet c i).least :=
  Nat.le_trans (Nat.min_le_right _ _) (Nat.min_le_left _ _)
theorem lo_le_clear (c : Cls) (i : Nat) : reachable.lo c i ≤ (memberSet c i).clear :=
  Nat.le_trans (Nat.min_le_right _ _) (Nat.min_le_right _ _)

/-- No vector starts with more objects than it may get later. -/
theorem start_le_most (c : Cls) (i : Nat) (h : Nat) (hh : (memberSet c i).most = some h) :
    (memberSet c i).start ≤ h ∧ (memberSet c i).clear ≤ h := by
  have hc : allCls.all (fun c => c.info.members.all fun m => match m.mult with
      | .set s => (match s.most with | none => true | some h => Nat.ble s.start h && Nat.ble s.clear h)
      | _ => true) = true := by decide +kernel
  have hc := List.all_eq_true.mp hc c (mem_allCls c)
  cases hm : c.info.members[i]? with
  | none => simp [memberSet, hm] at hh
  | some m =>
    have := List.all_eq_true.mp hc m (List.mem_of_getElem? hm)
    obtain ⟨kd, mu⟩ := m
    cases mu with
    | one => simp [memberSet, hm] at hh
    | opt => simp [memberSet, hm] at hh
    | set s =>
      have he := memberSet_eq hm rfl
      rw [he] at hh ⊢
      simp only [hh, Bool.and_eq_true, Nat.ble_eq] at this
      exact this

theorem fits_kind {c : Cls} {i : Nat} {n : Node} {m : Member} (h : Fits c i n) (hm : c.info.members[i]? = some m) : n.kind = m.kind := by
  obtain ⟨m', h1, h2⟩ := h
  rw [hm] at h1
  cases h1
  exact h2

theorem isSet_mult {c : Cls} {i : Nat} {m : Member} (h : isSet c i) (hm : c.info.members[i]? = some m) :
    m.mult = .set (memberSet c i) := by
  obtain ⟨m', s, h1, h2⟩ := h
  rw [hm] at h1
  cases h1
  rw [memberSet_eq hm h2]; exact h2

theorem mem_set_of {α : Type} {l : List α} {j : Nat} {a x : α} (h : x ∈ l.set j a) : x ∈ l ∨ x = a :=
  List.mem_or_eq_of_mem_set h

theorem built_ok {n : Node} (h : Built n) : Ok n := by
  induction h with
  | leaf t h d ht => exact .leaf t h d ht
  | make c d k ss hk hf _ ih =>
    refine .comp c d k ss ⟨hf.1, ?_, ?_⟩ ih
    · intro i m s hm hs
      obtain ⟨h1, h2⟩ := hf.2 i m s hm hs
      refine ⟨h2, ?_⟩
      obtain ⟨kd, mu⟩ := m
      cases mu with
      | one => exact h1
      | opt => exact h1
      | set sc =>
        have he := memberSet_eq hm rfl
        simp only [Mult.start] at h1
        have h3 := lo_le_start c i
        rw [he] at h3
        refine ⟨by omega, ?_⟩
        intro x hx
        have := (start_le_most c i x hx).1
        rw [he] at this
        omega
    · rcases hk with hk | hk
      · exact .inl hk
      · exact .inr ⟨hk, rfl⟩
  | call op c d k ss _ ht _ ih iha =>
    cases ih with
    | comp _ _ _ _ hsh hkids =>
      cases op with
      | setData d' => exact .comp c d' k ss hsh hkids
      | setHas i b =>
        refine .comp c d k _ (shape_change hsh i _ ?_) (kids_change hkids i _ ?_)
        · intro m s hm hs
          exact hsh.slots i m s hm hs
        · intro s hs n hn
          exact hkids s (List.mem_of_getElem? hs) n hn
      | setChoice k' =>
        refine .comp c d k' ss ⟨hsh.length, hsh.slots, ?_⟩ hkids
        rcases ht with hk | hk
        · exact .inl hk
        · exact .inr ⟨hk, rfl⟩
      | setKid i n =>
        refine .comp c d k _ (shape_change hsh i _ ?_) (kids_change hkids i _ ?_)
        · intro m s hm hs
          refine ⟨?_, ?_⟩
          · intro x hx
            simp only [kids_mk, List.mem_singleton] at hx
            subst hx
            exact fits_kind ht.2 hm
          · cases hmu : m.mult with
            | one => rfl
            | opt => rfl
            | set sc => exact absurd ⟨m, sc, hm, hmu⟩ ht.1
        · intro s hs x hx
          simp only [kids_mk, List.mem_singleton] at hx
          subst hx
          exact iha _ (by simp [Op.args])
      | add i n =>
        refine .comp c d k _ (shape_change hsh i _ ?_) (kids_change hkids i _ ?_)
        · intro m s hm hs
          have hold := hsh.slots i m s hm hs
          have hmu := isSet_mult ht.1 hm
          have h2 := hold.2
          rw [hmu] at h2
          refine ⟨?_, ?_⟩
          · intro x hx
            simp only [kids_mk, SetCode.add] at hx
            have hcase : x ∈ s.kids ∨ x = n := by
              split at hx
              · simpa using hx
              · split at hx
                · simpa using hx
                · exact .inl hx
            rcases hcase with hx | rfl
            · exact hold.1 x hx
            · exact fits_kind ht.2 hm
          · rw [hmu]
            simp only [kids_mk, SetCode.add]
            cases hmo : (memberSet c i).most with
            | none =>
              simp only [List.length_append, List.length_singleton]
              refine ⟨by have := h2.1; omega, ?_⟩
              intro x hx
              have : (memberSet c i).most = some x := hx
              rw [hmo] at this; cases this
            | some mo =>
              simp only
              by_cases hl : s.kids.length < mo
              · rw [if_pos hl]
                simp only [List.length_append, List.length_singleton]
                refine ⟨by have := h2.1; omega, ?_⟩
                intro x hx
                have : (memberSet c i).most = some x := hx
                rw [hmo] at this; cases this
                omega
              · rw [if_neg hl]; exact h2
        · intro s hs x hx
          simp only [kids_mk, SetCode.add] at hx
          have hcase : x ∈ s.kids ∨ x = n := by
            split at hx
            · simpa using hx
            · split at hx
              · simpa using hx
              · exact .inl hx
          rcases hcase with hx | rfl
          · exact hkids s (List.mem_of_getElem? hs) x hx
          · exact iha _ (by simp [Op.args])
      | remove i j =>
        refine .comp c d k _ (shape_change hsh i _ ?_) (kids_change hkids i _ ?_)
        · intro m s hm hs
          have hold := hsh.slots i m s hm hs
          have hmu := isSet_mult ht hm
          have h2 := hold.2
          rw [hmu] at h2
          refine ⟨?_, ?_⟩
          · intro x hx
            simp only [kids_mk, SetCode.remove] at hx
            split at hx
            · exact hold.1 x (List.mem_of_mem_eraseIdx hx)
            · exact hold.1 x hx
          · rw [hmu]
            simp only [kids_mk, SetCode.remove]
            by_cases hr : j < s.kids.length ∧ (memberSet c i).least < s.kids.length
            · rw [if_pos hr, List.length_eraseIdx_of_lt hr.1]
              have := lo_le_least c i
              refine ⟨by omega, fun x hx => by have := h2.2 x hx; omega⟩
            · rw [if_neg hr]; exact h2
        · intro s hs x hx
          simp only [kids_mk, SetCode.remove] at hx
          refine hkids s (List.mem_of_getElem? hs) x ?_
          split at hx
          · exact List.mem_of_mem_eraseIdx hx
          · exact hx
      | clear i fresh =>
        refine .comp c d k _ (shape_change hsh i _ ?_) (kids_change hkids i _ ?_)
        · intro m s hm hs
          have hmu := isSet_mult ht.1 hm
          refine ⟨?_, ?_⟩
          · intro x hx
            exact fits_kind (ht.2.2 x (List.mem_of_mem_take hx)) hm
          · rw [hmu]
            simp only [kids_mk, List.length_take, ht.2.1, Nat.min_self]
            exact ⟨lo_le_clear c i, fun x hx => (start_le_most c i x hx).2⟩
        · intro s hs x hx
          exact iha _ (List.mem_of_mem_take hx)
      | change i j n =>
        refine .comp c d k _ (shape_change hsh i _ ?_) (kids_change hkids i _ ?_)
        · intro m s hm hs
          have hold := hsh.slots i m s hm hs
          refine ⟨?_, ?_⟩
          · intro x hx
            rcases mem_set_of hx with hx | rfl
            · exact hold.1 x hx
            · exact fits_kind ht hm
          · have h2 := hold.2
            simp only [kids_mk, List.length_set]
            exact h2
        · intro s hs x hx
          rcases mem_set_of hx with hx | rfl
          · exact hkids s (List.mem_of_getElem? hs) x hx
          · exact iha _ (by simp [Op.args])

theorem ok_tree : Tree reachable noOver Ok where
  leaf h := by cases h; assumption
  kids h := by cases h; assumption
  shape h := by cases h; assumption
  over h := by simp [noOver] at h

/-! ## Validity -/

def Kind.named : Kind → Bool
  | .leaf _ _ => true
  | .comp c => !Nat.beq c.info.name 0

def elementOk (c : Cls) (s : Stmt) : Bool :=
  match s.how, c.info.members[s.slot]? with
  | .element, some m => m.kind.named
  | .element, none => false
  | _, _ => true

theorem element_named (c : Cls) : ∀ s ∈ c.info.stmts, elementOk c s = true := by
  have h : allCls.all (fun c => c.info.stmts.all (elementOk c)) = true := by decide +kernel
  exact List.all_eq_true.mp (List.all_eq_true.mp h c (mem_allCls c))

def isEps : Option Re → Bool
  | some .eps => true
  | _ => false

theorem isEps_eq {o : Option Re} (h : isEps o = true) : o = some .eps := by
  cases o with
  | none => cases h
  | some r => cases r <;> first | rfl | cases h

theorem leaf_schema {t : Nat} (h : t ∈ leafNames) : (t, Re.eps) ∈ Schema.decls ∧ Schema.declName t = t := by
  have hc : leafNames.all (fun t => isEps (schemaOf t) && Nat.beq (Schema.declName t) t) = true := by decide +kernel
  have := List.all_eq_true.mp hc t h
  simp only [Bool.and_eq_true] at this
  exact ⟨schemaOf_mem (isEps_eq this.1), Nat.eq_of_beq_eq_true this.2⟩

theorem class_declName (c : Cls) : Schema.declName (classDecl c) = c.info.name := by
  have h : allCls.all (fun c => Nat.beq (Schema.declName (classDecl c)) c.info.name) = true := by decide +kernel
  exact Nat.eq_of_beq_eq_true (List.all_eq_true.mp h c (mem_allCls c))

theorem check_class {L : Limits} {ov : Cls → Option Re} {c : Cls} (h : checkClass L ov c = true) (hn : c.info.name ≠ 0) :
    ∃ r, (classDecl c, r) ∈ Schema.decls ∧ ∀ w, (elementRe L ov c).Matches w → r.Matches w := by
  unfold checkClass at h
  rw [Bool.or_eq_true] at h
  rcases h with h | h
  · exact absurd (Nat.eq_of_beq_eq_true h) hn
  · cases hs : schemaOf (classDecl c) with
    | none => rw [hs] at h; cases h
    | some r =>
      rw [hs] at h
      exact ⟨r, schemaOf_mem hs, fun w hw => Re.included_sound h hw⟩

theorem mem_children {w : Written} {it : Item} (h : it ∈ w.children) : it ∈ w.body := by
  unfold Written.children at h
  split at h
  · exact h
  · simp at h

/-- An item of the contents is the element of a member or an item of the contents of a member. -/
theorem body_mem {L : Limits} {c : Cls} {d : Str} {k : Nat} {ss : List Slot} (hsh : Shape L c k ss) {it : Item}
    (h : it ∈ (Node.write (.comp c d k ss)).body) :
    ∃ s ∈ ss, ∃ n ∈ s.kids, (it = n.write.element ∧ n.kind.named = true) ∨ it ∈ n.write.body := by
  simp only [Node.write, assemble, List.mem_flatMap] at h
  obtain ⟨st, hst, hit⟩ := h
  unfold Stmt.write at hit
  split at hit
  · rw [writeSlots_get] at hit
    cases hs : ss[st.slot]? with
    | none => rw [hs] at hit; simp at hit
    | some sl =>
      rw [hs] at hit
      simp only [Option.map_some, Option.getD_some, writeSlot_kids, List.mem_flatMap, List.mem_map] at hit
      obtain ⟨w, ⟨n, hn, rfl⟩, hw⟩ := hit
      refine ⟨sl, List.mem_of_getElem? hs, n, hn, ?_⟩
      have he := element_named c st hst
      unfold elementOk at he
      cases hh : st.how with
      | element =>
        rw [hh] at hw he
        left
        simp only [How.write, List.mem_singleton] at hw
        refine ⟨hw, ?_⟩
        cases hm : c.info.members[st.slot]? with
        | none => rw [hm] at he; cases he
        | some m =>
          rw [hm] at he
          rw [(hsh.slots _ m sl hm hs).1 n hn]
          exact he
      | body => rw [hh] at hw; exact .inr hw
      | bodyIf =>
        rw [hh] at hw
        simp only [How.write] at hw
        split at hw
        · exact .inr hw
        · simp at hw
  · simp at hit

theorem sizeOf_kid {c : Cls} {d : Str} {k : Nat} {ss : List Slot} {s : Slot} {n : Node} (hs : s ∈ ss) (hn : n ∈ s.kids) :
    sizeOf n < sizeOf (Node.comp c d k ss) := by
  have h1 := List.sizeOf_lt_of_mem hs
  cases s with
  | mk b ks =>
    have h2 := List.sizeOf_lt_of_mem (show n ∈ ks from hn)
    simp at h1 ⊢
    omega

theorem zip_map_mem {α β γ : Type} {l : List α} {f : α → β} {g : α → γ} {p : β × γ} (h : p ∈ (l.map f).zip (l.map g)) :
    ∃ a ∈ l, p = (f a, g a) := by
  rw [List.zip_map'] at h
  obtain ⟨a, ha, rfl⟩ := List.mem_map.mp h
  exact ⟨a, ha, rfl⟩

theorem valid_tree {L : Limits} {ov : Cls → Option Re} {T : Node → Prop} (hT : Tree L ov T)
    (hc : ∀ c, checkClass L ov c = true) (n : Node) (hn : T n) :
    (n.kind.named = true → ValidFor (kindDecl n.kind) n.xml) ∧
      ∀ it ∈ n.write.body, ValidFor (kindDecl it.kind) it.xml := by
  match n, hn with
  | .leaf t h d, hn =>
    obtain ⟨h1, h2⟩ := leaf_schema (hT.leaf hn)
    refine ⟨fun _ => ?_, by simp [Node.write]⟩
    have := ValidFor.mk t d [] .eps [] h1 rfl rfl (by simp)
    rw [h2] at this
    simpa [Node.kind, kindDecl, Node.xml, Node.write] using this
  | .comp c d k ss, hn =>
    have hsh := hT.shape hn
    have hbody : ∀ it ∈ (Node.write (.comp c d k ss)).body, ValidFor (kindDecl it.kind) it.xml := by
      intro it hit
      obtain ⟨s, hs, m, hm, h⟩ := body_mem hsh hit
      have hlt := sizeOf_kid (c := c) (d := d) (k := k) hs hm
      have ih := valid_tree hT hc m (hT.kids hn s hs m hm)
      rcases h with ⟨rfl, hnm⟩ | h
      · rw [write_element_kind]
        exact ih.1 hnm
      · exact ih.2 it h
    refine ⟨fun hnm => ?_, hbody⟩
    have hname : c.info.name ≠ 0 := by
      intro h0
      simp [Node.kind, Kind.named, h0] at hnm
    obtain ⟨r, hr, hm⟩ := check_class (hc c) hname
    rw [write_xml, ← class_declName c]
    have hmatch := hm _ (elementRe_matches hT c d k ss hn)
    refine ValidFor.mk (classDecl c) d _ r _ hr ?_ hmatch ?_
    · simp [itemDecls]
    · intro p hp
      obtain ⟨it, hit, rfl⟩ := zip_map_mem hp
      exact hbody it (mem_children hit)
termination_by sizeOf n
decreasing_by exact hlt

end Mx.Content
