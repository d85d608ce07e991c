import Verif.Proofs.Attributes
import Verif.Model.AttributeTables

/-
Attribute structs: when the table of a struct passes `wellFormed`, its objects are written and read back.
-/
open Spec
namespace Mx

namespace AttrClass

/-- A required member. -/
def required (c : AttrClass) (i : Nat) : Bool := match c.members[i]? with
  | some m => m.required
  | none => false

/-- The class of a member. -/
def typeOf (c : AttrClass) (i : Nat) : Option AttrType := c.members[i]?.map (·.type)

/-- The line of `toStream` is undone by the line of `fromXElementImpl` for the name it writes. -/
def lineOk (c : AttrClass) (w : AttrWrite) : Bool :=
  decide (w.flag = w.member) && decide (w.member < c.members.length) && isAttributeName w.name &&
  match c.lineFor w.name with
  | none => false
  | some l => decide (l.member = some w.member) &&
      (decide (l.flag = .has w.member) || (decide (l.flag = .found w.member) && c.required w.member)) &&
      (!l.spacing || decide (c.typeOf w.member = some .commaInts))

/-- The lines of `toStream` apart from those of some members. -/
def kept (c : AttrClass) (absent : List Nat) : List AttrWrite := c.writes.filter (fun w => !absent.contains w.flag)

/-- The consistency of a table, apart from some members. -/
def wellFormed (c : AttrClass) (absent : List Nat) : Bool :=
  (c.kept absent).all c.lineOk &&
  decide ((c.kept absent).map (·.name)).Nodup &&
  decide ((c.kept absent).map (·.member)).Nodup &&
  (List.range c.members.length).all (fun i => absent.contains i || ((c.kept absent).map (·.member)).contains i) &&
  ((List.range c.members.length).all (fun i => absent.contains i || c.hasValues.contains i) || c.hasValues.any c.required) &&
  c.checks.all (fun i => c.required i && (c.kept absent).any (fun w => decide (w.member = i) &&
    match c.lineFor w.name with
    | none => false
    | some l => decide (l.flag = .found i)))

theorem flag_eq {o : AttrObject} {i : Nat} {f : AttrField} (h : o[i]? = some f) : o.flag i = f.present := by
  unfold AttrObject.flag; rw [h]

theorem raw_eq {o : AttrObject} {i : Nat} {f : AttrField} (h : o[i]? = some f) : o.raw i = f.value.raw := by
  unfold AttrObject.raw; rw [h]

theorem sameValue_spacing {t : AttrType} {a v v' : AttrValue} (ht : t = .commaInts) (h : Carried t v) (hs : SameValue v v') (b : Bool)
    (_ : a = v) : SameValue v (v'.setSpacing b) := by
  subst ht
  cases v <;> first | exact h.elim | skip
  cases v' <;> first | exact hs.elim | skip
  exact hs

/-- Some lines of `toStream`, all of them for present members, are read back. -/
theorem lines_back (c : AttrClass) (o : AttrObject) (absent : List Nat) (ho : WritableObject c absent o) (L : List AttrWrite) :
    (∀ w ∈ L, c.lineOk w = true) → (L.map (·.name)).Nodup → (L.map (·.member)).Nodup → (∀ w ∈ L, o.flag w.flag = true) →
    ∀ st : ReadState, st.success = true → st.obj.length = c.members.length →
      (∀ w ∈ L, ∀ m f, c.members[w.member]? = some m → st.obj[w.member]? = some f → Instance m.type f.value ∧ (m.required = true → f.present = true)) →
      ∃ attributes, TagReads (L.flatMap (fun w => streamAttribute w.name (o.raw w.member) true)) attributes ∧
        attributes.map Prod.fst = L.map (·.name) ∧
        ∃ st', c.readAll st attributes = some st' ∧ st'.success = true ∧ st'.obj.length = c.members.length ∧
          (∀ i, i ∉ L.map (·.member) → st'.obj[i]? = st.obj[i]?) ∧
          (∀ w ∈ L, ∃ f g, o[w.member]? = some f ∧ st'.obj[w.member]? = some g ∧ g.present = true ∧ SameValue f.value g.value) ∧
          (∀ i ∈ st.found, i ∈ st'.found) ∧
          (∀ w ∈ L, ∀ l, c.lineFor w.name = some l → l.flag = .found w.member → w.member ∈ st'.found) := by
  induction L with
  | nil =>
    intro _ _ _ _ st hs hl _
    exact ⟨[], .nil, rfl, st, rfl, hs, hl, fun _ _ => rfl, by simp, fun _ h => h, by simp⟩
  | cons w L ih =>
    intro hok hn hm hf st hs hl hi
    rw [List.map_cons, List.nodup_cons] at hn hm
    have hw := hok w (by simp)
    unfold lineOk at hw
    cases hline : c.lineFor w.name with
    | none => rw [hline] at hw; simp at hw
    | some l =>
      rw [hline] at hw
      simp only [Bool.and_eq_true, decide_eq_true_eq, Bool.or_eq_true] at hw
      obtain ⟨⟨⟨w1, w2⟩, w3⟩, ⟨w4, w5⟩, w6⟩ := hw
      have hfw := hf w (by simp)
      rw [w1] at hfw
      obtain ⟨m, hmem⟩ : ∃ m, c.members[w.member]? = some m := ⟨_, List.getElem?_eq_getElem w2⟩
      obtain ⟨f, hof⟩ : ∃ f, o[w.member]? = some f := ⟨_, List.getElem?_eq_getElem (by rw [ho.1]; exact w2)⟩
      obtain ⟨g, hsg⟩ : ∃ g, st.obj[w.member]? = some g := ⟨_, List.getElem?_eq_getElem (by rw [hl]; exact w2)⟩
      rw [flag_eq hof] at hfw
      have hcar := ((ho.2 _ m f hmem hof).2.1) hfw
      obtain ⟨hinst, hpres⟩ := hi w (by simp) m g hmem hsg
      obtain ⟨s, hread, v', hparse, hsame⟩ := value_back hcar hinst
      -- the value that is stored
      obtain ⟨v'', hv'', hsame'⟩ : ∃ v'', (if l.spacing then v'.setSpacing (s.contains ' ') else v') = v'' ∧ SameValue f.value v'' := by
        refine ⟨_, rfl, ?_⟩
        by_cases hsp : l.spacing = true
        · rw [if_pos hsp]
          have ht : m.type = .commaInts := by
            rcases w6 with w6 | w6
            · rw [hsp] at w6; cases w6
            · unfold typeOf at w6; rw [hmem] at w6; exact Option.some.inj w6
          exact sameValue_spacing ht hcar hsame _ rfl
        · rw [if_neg hsp]; exact hsame
      -- one step
      obtain ⟨st1, h1, h2, h3, h4, h5, h6, h7⟩ : ∃ st1 : ReadState, c.readOne st (w.name, s) = some st1 ∧ st1.success = true ∧
          st1.obj.length = c.members.length ∧ (∀ i, i ≠ w.member → st1.obj[i]? = st.obj[i]?) ∧
          st1.obj[w.member]? = some ⟨true, v''⟩ ∧ (∀ i ∈ st.found, i ∈ st1.found) ∧ (l.flag = .found w.member → w.member ∈ st1.found) := by
        have ha : st.assign l s = some { st with obj := st.obj.set w.member { g with value := v'' }, success := true } := by
          unfold ReadState.assign
          rw [w4]
          show (match st.obj[w.member]? with | none => none | some f => _) = _
          rw [hsg]
          show (match g.value.parse s with | none => none | some (ok, v) => _) = _
          rw [hparse]
          simp only [hv'', hs, Bool.and_true]
        have hr : c.readOne st (w.name, s) = some ((ReadState.mk (st.obj.set w.member { g with value := v'' }) st.found true).setFlag l.flag) := by
          unfold readOne
          show (match c.lineFor w.name with | none => some st | some l => (st.assign l s).map _) = _
          rw [hline]
          show (st.assign l s).map _ = _
          rw [ha]; rfl
        refine ⟨_, hr, ?_⟩
        rcases w5 with w5 | ⟨w5, w5'⟩
        · rw [w5]
          refine ⟨rfl, by simp [ReadState.setFlag, hl], ?_, ?_, fun i h => h, fun e => by cases e⟩
          · intro i hne
            simp only [ReadState.setFlag]
            rw [List.getElem?_modify_ne _ _ (Ne.symm hne), List.getElem?_set_ne (Ne.symm hne)]
          · simp only [ReadState.setFlag]
            rw [List.getElem?_modify_eq, List.getElem?_set_self (by rw [hl]; exact w2)]
            rfl
        · rw [w5]
          have hp : g.present = true := hpres (by unfold required at w5'; rw [hmem] at w5'; exact w5')
          refine ⟨rfl, by simp [ReadState.setFlag, hl], ?_, ?_, fun i h => List.mem_cons_of_mem _ h, fun _ => List.mem_cons_self ..⟩
          · intro i hne
            simp only [ReadState.setFlag]
            rw [List.getElem?_set_ne (Ne.symm hne)]
          · simp only [ReadState.setFlag]
            rw [List.getElem?_set_self (by rw [hl]; exact w2), hp]
      have hne : ∀ x ∈ L, x.member ≠ w.member := fun x hx e => hm.1 (e ▸ List.mem_map_of_mem (f := (·.member)) hx)
      obtain ⟨as, t1, t2, st', r1, r2, r3, r4, r5, r6, r7⟩ := ih (fun x hx => hok x (List.mem_cons_of_mem _ hx)) hn.2 hm.2
        (fun x hx => hf x (List.mem_cons_of_mem _ hx)) st1 h2 h3 (by
          intro x hx m f hm' hf'
          rw [h4 _ (hne x hx)] at hf'
          exact hi x (List.mem_cons_of_mem _ hx) m f hm' hf')
      refine ⟨(w.name, s) :: as, ?_, by simp [t2], st', ?_, r2, r3, ?_, ?_, fun i h => r6 i (h6 i h), ?_⟩
      · have : (w :: L).flatMap (fun w => streamAttribute w.name (o.raw w.member) true) =
            ' ' :: (w.name ++ ['=', '"'] ++ o.raw w.member ++ '"' :: L.flatMap (fun w => streamAttribute w.name (o.raw w.member) true)) := by
          rw [List.flatMap_cons, streamAttribute, if_pos rfl]; simp
        rw [this, raw_eq hof]
        exact .cons w3 hread (by rw [t2]; exact hn.1) t1
      · show (c.readOne st (w.name, s)).bind (fun st' => c.readAll st' as) = _
        rw [h1]; exact r1
      · intro i hni
        rw [List.map_cons, List.mem_cons, not_or] at hni
        rw [r4 i hni.2, h4 i hni.1]
      · intro x hx
        rcases List.mem_cons.mp hx with rfl | hx
        · exact ⟨f, ⟨true, v''⟩, hof, by rw [r4 _ hm.1, h5], rfl, hsame'⟩
        · exact r5 x hx
      · intro x hx l' hl' hfl
        rcases List.mem_cons.mp hx with rfl | hx
        · rw [hline] at hl'; cases hl'
          exact r6 _ (h7 hfl)
        · exact r7 x hx l' hl' hfl

/-- Objects of a consistent struct are written as well formed attributes, which are read back. -/
theorem object_back (c : AttrClass) (absent : List Nat) (hc : c.wellFormed absent = true) (o fresh : AttrObject) (ho : WritableObject c absent o)
    (hf : FreshObject c fresh) :
    ∃ attributes, TagReads (c.toStream o) attributes ∧ ∃ r, c.read fresh attributes = some (true, r) ∧ SameObject o r := by
  unfold wellFormed at hc
  simp only [Bool.and_eq_true] at hc
  obtain ⟨⟨⟨⟨⟨c1, c2⟩, c3⟩, c4⟩, c5⟩, c6⟩ := hc
  have c2 := of_decide_eq_true c2
  have c3 := of_decide_eq_true c3
  -- the lines that are written
  let L := (c.kept absent).filter (fun w => o.flag w.flag)
  have hsub : List.Sublist L (c.kept absent) := List.filter_sublist
  have hL : ∀ w ∈ L, w ∈ c.kept absent ∧ o.flag w.flag = true := fun w hw => by simpa [L] using List.mem_filter.mp hw
  have hok : ∀ w ∈ c.kept absent, c.lineOk w = true := fun w hw => List.all_eq_true.mp c1 w hw
  have hlt : ∀ w ∈ c.kept absent, w.flag = w.member ∧ w.member < c.members.length := by
    intro w hw
    have := hok w hw
    unfold lineOk at this
    simp only [Bool.and_eq_true, decide_eq_true_eq] at this
    exact this.1.1
  obtain ⟨as, t1, t2, st', r1, r2, r3, r4, r5, r6, r7⟩ := lines_back c o absent ho L (fun w hw => hok w (hL w hw).1)
    ((hsub.map _).nodup c2) ((hsub.map _).nodup c3) (fun w hw => (hL w hw).2) ⟨fresh, [], true⟩ rfl hf.1 (by
      intro w _ m f hm hf'
      obtain ⟨a, b⟩ := hf.2 _ m f hm hf'
      exact ⟨b, fun h => by rw [a, h]⟩)
  -- members that are not present
  have habs : ∀ i ∈ absent, o.flag i = false := by
    intro i hi
    cases hof : o[i]? with
    | none => unfold AttrObject.flag; rw [hof]
    | some f =>
      rw [flag_eq hof]
      obtain ⟨m, hm⟩ : ∃ m, c.members[i]? = some m :=
        ⟨_, List.getElem?_eq_getElem (by rw [← ho.1]; exact (List.getElem?_eq_some_iff.mp hof).1)⟩
      exact (ho.2 i m f hm hof).2.2 hi
  have hreq : ∀ i, c.required i = true → o.flag i = true := by
    intro i hi
    unfold required at hi
    cases hm : c.members[i]? with
    | none => rw [hm] at hi; cases hi
    | some m =>
      rw [hm] at hi
      obtain ⟨f, hof⟩ : ∃ f, o[i]? = some f :=
        ⟨_, List.getElem?_eq_getElem (by rw [ho.1]; exact (List.getElem?_eq_some_iff.mp hm).1)⟩
      rw [flag_eq hof]
      exact (ho.2 i m f hm hof).1 hi
  -- the text
  have htext : c.writes.flatMap (fun w => streamAttribute w.name (o.raw w.member) (o.flag w.flag)) =
      L.flatMap (fun w => streamAttribute w.name (o.raw w.member) true) := by
    have h1 : ∀ l : List AttrWrite, l.flatMap (fun w => streamAttribute w.name (o.raw w.member) (o.flag w.flag)) =
        ((l.filter (fun w => !absent.contains w.flag)).filter (fun w => o.flag w.flag)).flatMap (fun w => streamAttribute w.name (o.raw w.member) true) := by
      intro l
      induction l with
      | nil => rfl
      | cons w l ih =>
        rw [List.flatMap_cons, ih]
        by_cases hw : o.flag w.flag = true
        · have ha : absent.contains w.flag = false := by
            cases ha : absent.contains w.flag with
            | false => rfl
            | true => rw [habs _ (List.contains_iff_mem.mp ha)] at hw; cases hw
          rw [List.filter_cons_of_pos (by rw [ha]; rfl), List.filter_cons_of_pos (p := fun w : AttrWrite => o.flag w.flag) (a := w) hw, List.flatMap_cons, hw]
        · have hw' : o.flag w.flag = false := by simpa using hw
          rw [hw']
          by_cases ha : absent.contains w.flag = true
          · rw [List.filter_cons_of_neg (by rw [ha]; decide)]; rfl
          · rw [List.filter_cons_of_pos (by simpa using ha), List.filter_cons_of_neg (by rw [hw']; decide)]; rfl
    exact h1 c.writes
  have hstream : c.toStream o = L.flatMap (fun w => streamAttribute w.name (o.raw w.member) true) := by
    unfold toStream
    by_cases hv : c.hasValues.any o.flag = true
    · rw [if_pos hv]; exact htext
    · rw [if_neg hv]
      have hnil : L = [] := by
        rw [List.eq_nil_iff_forall_not_mem]
        intro w hw
        obtain ⟨hk, hfl⟩ := hL w hw
        obtain ⟨e, hlt'⟩ := hlt w hk
        apply hv
        rcases Bool.or_eq_true _ _ ▸ c5 with h5 | h5
        · have := List.all_eq_true.mp h5 w.flag (List.mem_range.mpr (e ▸ hlt'))
          rcases Bool.or_eq_true _ _ ▸ this with h | h
          · rw [habs _ (List.contains_iff_mem.mp h)] at hfl; cases hfl
          · exact List.any_eq_true.mpr ⟨w.flag, List.contains_iff_mem.mp h, hfl⟩
        · obtain ⟨i, hi, hr⟩ := List.any_eq_true.mp h5
          exact List.any_eq_true.mpr ⟨i, hi, hreq i hr⟩
      rw [hnil]; rfl
  refine ⟨as, by rw [hstream]; exact t1, st'.obj, ?_, by rw [ho.1, r3], ?_⟩
  · unfold read
    rw [r1]
    show some (st'.success && c.checks.all st'.found.contains, st'.obj) = _
    have : c.checks.all st'.found.contains = true := by
      rw [List.all_eq_true]
      intro i hi
      have := List.all_eq_true.mp c6 i hi
      rw [Bool.and_eq_true] at this
      obtain ⟨q1, q2⟩ := this
      obtain ⟨w, hw, q3⟩ := List.any_eq_true.mp q2
      rw [Bool.and_eq_true, decide_eq_true_eq] at q3
      obtain ⟨rfl, q4⟩ := q3
      cases hl : c.lineFor w.name with
      | none => rw [hl] at q4; cases q4
      | some l =>
        rw [hl] at q4
        refine List.contains_iff_mem.mpr (r7 w ?_ l hl (of_decide_eq_true q4))
        refine List.mem_filter.mpr ⟨hw, ?_⟩
        rw [(hlt w hw).1]
        exact hreq _ q1
    rw [r2, this]; rfl
  · intro i f g hfi hgi
    have hilt : i < c.members.length := by rw [← ho.1]; exact (List.getElem?_eq_some_iff.mp hfi).1
    obtain ⟨m, hm⟩ : ∃ m, c.members[i]? = some m := ⟨_, List.getElem?_eq_getElem hilt⟩
    by_cases hp : f.present = true
    · -- written
      have hna : i ∉ absent := by
        intro ha
        rw [(ho.2 i m f hm hfi).2.2 ha] at hp; cases hp
      have := List.all_eq_true.mp c4 i (List.mem_range.mpr hilt)
      rcases Bool.or_eq_true _ _ ▸ this with h | h
      · exact absurd (List.contains_iff_mem.mp h) hna
      · obtain ⟨w, hw, rfl⟩ := List.mem_map.mp (List.contains_iff_mem.mp h)
        have hwL : w ∈ L := List.mem_filter.mpr ⟨hw, by rw [(hlt w hw).1, flag_eq hfi]; exact hp⟩
        obtain ⟨f', g', e1, e2, e3, e4⟩ := r5 w hwL
        rw [hfi] at e1; cases e1
        rw [hgi] at e2; cases e2
        exact ⟨by rw [hp, e3], fun _ => e4⟩
    · have hp' : f.present = false := by simpa using hp
      refine ⟨?_, fun h => absurd h hp⟩
      have hnL : i ∉ L.map (·.member) := by
        intro h
        obtain ⟨w, hw, rfl⟩ := List.mem_map.mp h
        obtain ⟨hk, hfl⟩ := hL w hw
        rw [(hlt w hk).1, flag_eq hfi] at hfl
        exact hp hfl
      rw [r4 i hnL] at hgi
      rw [(hf.2 i m g hm hgi).1, hp']
      cases hr : m.required with
      | false => rfl
      | true => rw [(ho.2 i m f hm hfi).1 hr] at hp'; cases hp'

end AttrClass
end Mx
