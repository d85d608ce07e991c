import Verif.Proofs.AttributeObjects
import Verif.Spec.AttributeLimits

/-
The tables of the attribute structs: consistency, agreement with the schema; how tags are read.
-/
open Spec
namespace Mx

theorem AttrStruct.wellFormed_all (s : AttrStruct) (h : s.isLink = false) : s.cls.wellFormed s.lost = true := by
  cases s <;> first | (exact absurd h (by decide)) | decide +kernel

/-! ### Tags -/

/-- `TagReads` without the condition that no name occurs twice. -/
inductive TagSplits : List Char → List (List Char × List Char) → Prop
  | nil : TagSplits [] []
  | cons {name raw value t attributes} : isAttributeName name → AttributeReads raw value → TagSplits t attributes →
      TagSplits (' ' :: (name ++ ['=', '"'] ++ raw ++ '"' :: t)) ((name, value) :: attributes)

theorem TagReads.splits {t a} (h : TagReads t a) : TagSplits t a ∧ (a.map Prod.fst).Nodup := by
  induction h with
  | nil => exact ⟨.nil, List.nodup_nil⟩
  | cons h1 h2 h3 _ ih => exact ⟨.cons h1 h2 ih.1, List.nodup_cons.mpr ⟨h3, ih.2⟩⟩

theorem name_no_eq {n : Str} (h : isAttributeName n = true) : '=' ∉ n := by
  cases n with
  | nil => cases h
  | cons c t =>
    rw [isAttributeName, Bool.and_eq_true] at h
    intro hm
    rcases List.mem_cons.mp hm with e | hm
    · have := of_decide_eq_true h.1
      rw [← e] at this
      exact absurd this (by decide)
    · have := of_decide_eq_true (List.all_eq_true.mp h.2 _ hm)
      exact absurd this (by decide)

theorem split_unique {c : Char} : ∀ {x y r s : Str}, c ∉ x → c ∉ y → x ++ c :: r = y ++ c :: s → x = y ∧ r = s := by
  intro x
  induction x with
  | nil =>
    intro y r s _ hy e
    cases y with
    | nil => exact ⟨rfl, by injection e⟩
    | cons d u => injection e with e1 e2; exact absurd (by rw [e1]; exact List.mem_cons_self) hy
  | cons a t ih =>
    intro y r s hx hy e
    cases y with
    | nil => injection e with e1 e2; exact absurd (by rw [← e1]; exact List.mem_cons_self) hx
    | cons d u =>
      injection e with e1 e2
      obtain ⟨h1, h2⟩ := ih (fun h => hx (List.mem_cons_of_mem _ h)) (fun h => hy (List.mem_cons_of_mem _ h)) e2
      exact ⟨by rw [e1, h1], h2⟩

theorem TagSplits.unique {t a b} (ha : TagSplits t a) (hb : TagSplits t b) : a = b := by
  induction ha generalizing b with
  | nil => cases hb; rfl
  | @cons name raw value t as h1 h2 _ ih =>
    generalize hx : ' ' :: (name ++ ['=', '"'] ++ raw ++ '"' :: t) = x at hb
    cases hb with
    | nil => cases hx
    | @cons name' raw' value' t' bs g1 g2 g3 =>
      injection hx with _ hx
      simp only [List.append_assoc, List.cons_append, List.nil_append] at hx
      obtain ⟨rfl, e⟩ := split_unique (name_no_eq h1) (name_no_eq g1) hx
      injection e with _ e
      obtain ⟨rfl, rfl⟩ := split_unique (attribute_chars h2).2 (attribute_chars g2).2 e
      rw [ih g3, AttributeReads.unique h2 g2]

theorem TagReads.unique {t a b} (ha : TagReads t a) (hb : TagReads t b) : a = b :=
  TagSplits.unique (TagReads.splits ha).1 (TagReads.splits hb).1

/-! ### Reading -/
namespace AttrClass

theorem readAll_append (c : AttrClass) (st : ReadState) (xs ys : List (Str × Str)) : c.readAll st (xs ++ ys) = (c.readAll st xs).bind (fun s => c.readAll s ys) := by
  induction xs generalizing st with
  | nil => rfl
  | cons a t ih =>
    show (c.readOne st a).bind (fun s => c.readAll s (t ++ ys)) = _
    show _ = ((c.readOne st a).bind (fun s => c.readAll s t)).bind _
    rw [Option.bind_assoc]
    congr 1
    funext s
    exact ih s

theorem read_unknown (c : AttrClass) (o : AttrObject) (xs ys : List (Str × Str)) (a : Str × Str) (h : c.lineFor a.1 = none) :
    c.read o (xs ++ a :: ys) = c.read o (xs ++ ys) := by
  unfold read
  rw [readAll_append, readAll_append]
  congr 2
  funext s
  show (c.readOne s a).bind _ = _
  rw [readOne, h]
  rfl

/-- The local flags come from attributes with lines for them. -/
theorem readAll_found (c : AttrClass) (as : List (Str × Str)) (st st' : ReadState) (h : c.readAll st as = some st') (i : Nat) (hi : i ∈ st'.found) :
    i ∈ st.found ∨ ∃ a ∈ as, ∃ l ∈ c.reads, l.name = a.1 ∧ l.flag = .found i := by
  induction as generalizing st with
  | nil => cases h; exact Or.inl hi
  | cons a t ih =>
    obtain ⟨s1, h1, h2⟩ := Option.bind_eq_some_iff.mp h
    rcases ih s1 h2 with h3 | ⟨b, hb, l, hl, e⟩
    · unfold readOne at h1
      cases hl : c.lineFor a.1 with
      | none => rw [hl] at h1; cases h1; exact Or.inl h3
      | some l =>
        rw [hl] at h1
        obtain ⟨s0, h4, rfl⟩ := Option.map_eq_some_iff.mp h1
        have hf : s0.found = st.found := by
          unfold ReadState.assign at h4
          cases hm : l.member with
          | none => rw [hm] at h4; cases h4; rfl
          | some j =>
            rw [hm] at h4
            dsimp only at h4
            split at h4
            · cases h4
            · split at h4
              · cases h4
              · cases h4; rfl
        have hn : l ∈ c.reads ∧ l.name = a.1 := ⟨List.mem_of_find?_eq_some hl, of_decide_eq_true (List.find?_some (p := fun l : AttrRead => decide (l.name = a.1)) hl)⟩
        cases hfl : l.flag with
        | has j => rw [hfl] at h3; exact Or.inl (hf ▸ h3)
        | found j =>
          rw [hfl] at h3
          rcases List.mem_cons.mp h3 with rfl | h3
          · exact Or.inr ⟨a, List.mem_cons_self, l, hn.1, hn.2, hfl⟩
          · exact Or.inl (hf ▸ h3)
    · exact Or.inr ⟨b, List.mem_cons_of_mem _ hb, l, hl, e⟩

/-- Every required attribute is checked, and its local flag is set by its own line only. -/
def checksRequired (c : AttrClass) : Bool :=
  c.writes.all (fun w => !c.required w.member || (c.checks.contains w.member && c.reads.all (fun l => !decide (l.flag = .found w.member) || decide (l.name = w.name))))

theorem read_missing (c : AttrClass) (hc : c.checksRequired = true) (w : AttrWrite) (hw : w ∈ c.writes) (hr : c.required w.member = true)
    (o : AttrObject) (as : List (Str × Str)) (hm : w.name ∉ as.map Prod.fst) (ok : Bool) (r : AttrObject) (h : c.read o as = some (ok, r)) : ok = false := by
  have h1 := List.all_eq_true.mp hc w hw
  rw [hr, Bool.not_true, Bool.false_or, Bool.and_eq_true] at h1
  obtain ⟨st, h2, h3⟩ := Option.map_eq_some_iff.mp h
  injection h3 with h3 _
  rw [← h3, Bool.and_eq_false_iff]
  right
  rw [List.all_eq_false]
  refine ⟨w.member, List.contains_iff_mem.mp h1.1, ?_⟩
  intro hcon
  rcases readAll_found c as _ st h2 w.member (List.contains_iff_mem.mp hcon) with h4 | ⟨a, ha, l, hl, e1, e2⟩
  · cases h4
  · have h5 := List.all_eq_true.mp h1.2 l hl
    rw [decide_eq_true e2, Bool.not_true, Bool.false_or] at h5
    exact hm (List.mem_map.mpr ⟨a, ha, by rw [← e1]; exact of_decide_eq_true h5⟩)

end AttrClass

theorem AttrStruct.checks_all (s : AttrStruct) (h : s.isLink = false) (hb : s ≠ .BracketAttributes) (hl : s ≠ .LyricLanguageAttributes) :
    s.cls.checksRequired = true := by
  cases s <;> first | (exact absurd h (by decide)) | (exact absurd rfl hb) | (exact absurd rfl hl) | decide +kernel

/-! ### The schema -/

/-- The entry of an element in the schema. -/
def schemaEntry (e : List Char) : List (List Char × List Spec.SchemaAttr) := Spec.schemaElements.filter (fun p => decide (p.1 = e))

def declaredOk (e : ElementClass) : Bool := e.declared.all (fun d =>
  (extraPrintObject.contains e.xmlName && decide (d.name = chars "print-object")) ||
  (schemaEntry e.xmlName).any (fun p => p.2.any (fun x => decide (x.name = d.name) && decide (x.type.type = d.type) && decide (x.required = d.required))))

def schemaOk (e : ElementClass) : Bool := (schemaEntry e.xmlName).all (fun p => p.2.all (fun x =>
  (missingAttributes.any (fun m => m.1.contains e.xmlName && m.2.contains x.name)) ||
  e.declared.any (fun d => decide (x.name = d.name) && decide (x.type.type = d.type) && decide (x.required = d.required))))

theorem declaredOk_all : elementClasses.all declaredOk = true := by decide +kernel
theorem schemaOk_all : elementClasses.all schemaOk = true := by decide +kernel

end Mx
