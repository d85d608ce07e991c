import Verif.Proofs.AttributeTables
import Verif.Proofs.Attributes
import Verif.Proofs.AttributeErrors
import Verif.Props.ColorProps

/-!
# Properties C54, C55, C56: attributes of elements
Specification: `Verif/Spec/Attributes.lean` (tags, what is carried, sameness), `Verif/Spec/SchemaAttributes.lean` (the schema), `Verif/Spec/AttributeLimits.lean`
(the exceptions).
-/
open Spec
namespace Mx.Props
open Mx

/-! ### Objects for the examples -/

/-- Some object of a class. -/
def sample : AttrType → AttrValue
  | .enum n => .enum n StringEnum.fallback
  | .int k => .int (IntRange.default k)
  | .decimal k => .decimal ((DecimalRange.make k 0).getD decimalZero)
  | .color => .color ⟨255, 0, 0, 0, .RGB⟩
  | .fontSize => .fontSize (.css .medium)
  | .numberOrNormal => .numberOrNormal ⟨decimalZero, true⟩
  | .yesNoNumber => .yesNoNumber (.yesNo .yes)
  | .commaText => .commaText []
  | .commaInts => .commaInts ⟨[], false⟩
  | .string => .string []
  | .token => .token []
  | .id => .id (xsID [])
  | .distanceType => .distanceType (OpenValue.ofText (chars "beam"))
  | .lineWidthType => .lineWidthType (OpenValue.ofText (chars "beam"))

theorem sample_instance (t : AttrType) : Instance t (sample t) := by
  cases t with
  | enum n => exact rfl
  | int k => exact ⟨0, rfl⟩
  | decimal k =>
    have : ∃ d, DecimalRange.make k 0 = some d := by
      have := show (DecimalRange.make k 0).isSome = true by cases k <;> decide +kernel
      exact Option.isSome_iff_exists.mp this
    obtain ⟨d, hd⟩ := this
    exact ⟨0, d, [], hd, by rw [hd]; rfl⟩
  | numberOrNormal => exact ⟨0, decimalZero, [], by decide +kernel, rfl⟩
  | _ => trivial

/-- A freshly constructed object. -/
def freshObject (c : AttrClass) : AttrObject := c.members.map (fun m => ⟨m.required, sample m.type⟩)

/-- Fresh objects exist for every class. -/
theorem freshObject_fresh (c : AttrClass) : FreshObject c (freshObject c) := by
  refine ⟨List.length_map .., ?_⟩
  intro i m f hm hf
  unfold freshObject at hf
  rw [List.getElem?_map, hm] at hf
  cases hf
  exact ⟨rfl, sample_instance _⟩

/-! ### C54 -/

/-- **C54** (partial: the structs of links and the members in `lost` are left out) What an attribute struct writes into the tag of its element is read by XML, in exactly
one way, as a list of attributes; and reading that list into any fresh object succeeds and gives the same object: the same attributes present, with the same values. -/
theorem C54_round_trip_partial (s : AttrStruct) (hs : s.isLink = false) (o fresh : AttrObject) (ho : WritableObject s.cls s.lost o) (hf : FreshObject s.cls fresh) :
    ∃ attributes, TagReads (s.cls.toStream o) attributes ∧ (∀ other, TagReads (s.cls.toStream o) other → other = attributes) ∧
      ∃ r, s.cls.read fresh attributes = some (true, r) ∧ SameObject o r := by
  obtain ⟨attributes, h1, h2⟩ := AttrClass.object_back s.cls s.lost (s.wellFormed_all hs) o fresh ho hf
  exact ⟨attributes, h1, fun other h => TagReads.unique h h1, h2⟩

/-- **C54** (partial as above) At the level of elements: every element class but those of `link`, `opus`, `hole-closed` and `play` passes the attributes on. -/
theorem C54_elements_partial (e : ElementClass) (he : e ∈ elementClasses) (s : AttrStruct) (hs : e.attributes = some s) :
    e.readsAttributes = true ∨ e.xmlName = chars "hole-closed" ∨ e.xmlName = chars "play" := by
  have key : elementClasses.all (fun e => e.attributes.isNone || e.readsAttributes || decide (e.xmlName = chars "hole-closed") || decide (e.xmlName = chars "play")) = true := by
    decide +kernel
  have := List.all_eq_true.mp key e he
  rw [hs] at this
  simp only [Option.isNone_some, Bool.false_or, Bool.or_eq_true] at this
  rcases this with (h | h) | h
  · exact Or.inl h
  · exact Or.inr (Or.inl (of_decide_eq_true h))
  · exact Or.inr (Or.inr (of_decide_eq_true h))

/-- **C54** Attributes with other names do not matter for the result. -/
theorem C54_unknown_ignored (s : AttrStruct) (fresh : AttrObject) (before after : List (Str × Str)) (name value : Str)
    (h : ∀ l ∈ s.cls.reads, l.name ≠ name) : s.cls.read fresh (before ++ (name, value) :: after) = s.cls.read fresh (before ++ after) := by
  refine AttrClass.read_unknown _ _ _ _ (name, value) ?_
  exact List.find?_eq_none.mpr (fun l hl hc => h l hl (of_decide_eq_true hc))

/-- **C54** (partial: `BracketAttributes`, `LyricLanguageAttributes` and the structs of links are left out) When a required attribute is missing, reading fails. -/
theorem C54_required_partial (s : AttrStruct) (hs : s.isLink = false) (hb : s ≠ .BracketAttributes) (hl : s ≠ .LyricLanguageAttributes)
    (i : Nat) (m : AttrMember) (hm : s.cls.members[i]? = some m) (hr : m.required = true) (w : AttrWrite) (hw : w ∈ s.cls.writes) (hi : w.member = i)
    (fresh : AttrObject) (attributes : List (Str × Str)) (hn : ∀ value, (w.name, value) ∉ attributes) (ok : Bool) (r : AttrObject)
    (h : s.cls.read fresh attributes = some (ok, r)) : ok = false := by
  subst hi
  refine AttrClass.read_missing s.cls (s.checks_all hs hb hl) w hw ?_ fresh attributes ?_ ok r h
  · unfold AttrClass.required; rw [hm]; exact hr
  · intro hx
    obtain ⟨a, ha, e⟩ := List.mem_map.mp hx
    exact hn a.2 (by rw [← e]; exact ha)

-- A tie with a number, a placement and a Bézier handle: written, and read back.
def tie : AttrObject := ((((freshObject AttrTables.TiedAttributes).set 0 ⟨true, .enum .StartStopContinue .stop⟩).set 1 ⟨true, .int (IntRange.ofKind .NumberLevel 2)⟩).set 9
  ⟨true, .enum .AboveBelow .below⟩).set 13 ⟨true, .decimal ((DecimalRange.make .TenthsValue (-3/2)).getD decimalZero)⟩

example : AttrTables.TiedAttributes.toStream tie = chars " type=\"stop\" number=\"2\" placement=\"below\" bezier-x=\"-1.5\"" := by decide +kernel

theorem decimalOk_mk {k : DecimalKind} {v : ℚ} (h : (DecimalRange.make k v).isSome = true) (h1 : |k.minClamp (k.maxClamp v)| ≤ 9999999999999999999)
    (h2 : ∀ d, DecimalRange.make k v = some d → InRange k d.getValue) : DecimalOk k ((DecimalRange.make k v).getD decimalZero) := by
  obtain ⟨d, hd⟩ := Option.isSome_iff_exists.mp h
  refine ⟨v, by rw [hd]; rfl, h1, ?_⟩
  rw [hd]; exact h2 d hd

theorem tie_writable : WritableObject AttrTables.TiedAttributes [12, 15, 16] tie := by
  refine ⟨rfl, ?_⟩
  intro i m f hm hf
  have hx : tie[i]? = some f → AttrTables.TiedAttributes.members[i]? = some m → (m.required = true → f.present = true) ∧
      (f.present = true → Carried m.type f.value) ∧ (i ∈ [12, 15, 16] → f.present = false) := by
    clear hm hf
    match i with
    | 0 => rintro ⟨⟩ ⟨⟩; exact ⟨fun _ => rfl, fun _ => rfl, by decide⟩
    | 1 => rintro ⟨⟩ ⟨⟩; exact ⟨fun _ => rfl, fun _ => ⟨2, by decide, rfl⟩, by decide⟩
    | 9 => rintro ⟨⟩ ⟨⟩; exact ⟨fun _ => rfl, fun _ => rfl, by decide⟩
    | 13 =>
      rintro ⟨⟩ ⟨⟩
      exact ⟨fun _ => rfl, fun _ => decimalOk_mk (by decide +kernel) (by decide +kernel) (fun _ _ => trivial), by decide⟩
    | 2 | 3 | 4 | 5 | 6 | 7 | 8 | 10 | 11 | 12 | 14 | 15 | 16 | 17 =>
      rintro ⟨⟩ ⟨⟩
      exact ⟨fun h => (by cases h), fun h => (by cases h), fun _ => rfl⟩
    | n + 18 => intro h; cases h
  exact hx hf hm

example : ∃ attributes, TagReads (chars " type=\"stop\" number=\"2\" placement=\"below\" bezier-x=\"-1.5\"") attributes ∧
    ∃ r, AttrTables.TiedAttributes.read (freshObject AttrTables.TiedAttributes) attributes = some (true, r) ∧ SameObject tie r := by
  obtain ⟨a, h1, _, h2⟩ := C54_round_trip_partial .TiedAttributes rfl tie _ tie_writable (freshObject_fresh _)
  refine ⟨a, ?_, h2⟩
  have : AttrTables.TiedAttributes.toStream tie = chars " type=\"stop\" number=\"2\" placement=\"below\" bezier-x=\"-1.5\"" := by decide +kernel
  rw [← this]; exact h1

theorem tag_one {name raw value : Str} (hn : isAttributeName name = true) (hr : AttributeReads raw value) :
    TagReads (' ' :: (name ++ ['=', '"'] ++ raw ++ ['"'])) [(name, value)] := .cons hn hr (by simp) .nil

/-- **C54**, negative: the second Bézier handle of a tie is lost.  It is written as `bezier-x2` (the name in the schema), and the reader waits for `bezier-x-2`. -/
theorem C54_tie_loses_second_handle :
    let o := (freshObject AttrTables.TiedAttributes).set 15 ⟨true, .decimal ((DecimalRange.make .TenthsValue 7).getD decimalZero)⟩
    AttrTables.TiedAttributes.toStream o = chars " type=\"start\" bezier-x2=\"7\"" ∧
    ∃ r, AttrTables.TiedAttributes.read (freshObject AttrTables.TiedAttributes) [(chars "type", chars "start"), (chars "bezier-x2", chars "7")] = some (true, r) ∧
      r.flag 15 = false := by
  refine ⟨by decide +kernel, _, rfl, by decide +kernel⟩

/-- **C54**, negative: a `dash-length` in `EmptyLineAttributes` (e.g. of `scoop`) is written twice, so that the document is not well-formed. -/
theorem C54_dash_length_twice :
    let o := (freshObject AttrTables.EmptyLineAttributes).set 2 ⟨true, .decimal ((DecimalRange.make .TenthsValue 7).getD decimalZero)⟩
    AttrTables.EmptyLineAttributes.toStream o = chars " dash-length=\"7\" dash-length=\"7\"" ∧ ¬ ∃ attributes, TagReads (AttrTables.EmptyLineAttributes.toStream o) attributes := by
  intro o
  have h : AttrTables.EmptyLineAttributes.toStream o = chars " dash-length=\"7\" dash-length=\"7\"" := by decide +kernel
  refine ⟨h, ?_⟩
  rintro ⟨a, ha⟩
  rw [h] at ha
  obtain ⟨h1, h2⟩ := TagReads.splits ha
  have h7 : AttributeReads (chars "7") (chars "7") := attribute_self (by decide)
  have hn : isAttributeName (chars "dash-length") = true := by decide
  have h3 : TagSplits (chars " dash-length=\"7\" dash-length=\"7\"") [(chars "dash-length", chars "7"), (chars "dash-length", chars "7")] :=
    .cons hn h7 (.cons hn h7 .nil)
  rw [TagSplits.unique h1 h3] at h2
  exact absurd h2 (by decide)

/-- **C54**, negative: links and opus elements cannot be read back: `xlink:href` is written, and a missing `href` is an error.  Such a document cannot be opened. -/
theorem C54_links_fail :
    let o := (freshObject AttrTables.LinkAttributes).set 0 ⟨true, .string (chars "a.xml")⟩
    let o' := (freshObject AttrTables.OpusAttributes).set 0 ⟨true, .string (chars "a.xml")⟩
    TagReads (AttrTables.LinkAttributes.toStream o) [(chars "xlink:href", chars "a.xml")] ∧
    TagReads (AttrTables.OpusAttributes.toStream o') [(chars "xlink:href", chars "a.xml")] ∧
    (∃ r, AttrTables.LinkAttributes.read (freshObject AttrTables.LinkAttributes) [(chars "xlink:href", chars "a.xml")] = some (false, r)) ∧
    (∃ r, AttrTables.OpusAttributes.read (freshObject AttrTables.OpusAttributes) [(chars "xlink:href", chars "a.xml")] = some (false, r)) := by
  intro o o'
  have h1 : AttrTables.LinkAttributes.toStream o = chars " xlink:href=\"a.xml\"" := by decide +kernel
  have h2 : AttrTables.OpusAttributes.toStream o' = chars " xlink:href=\"a.xml\"" := by decide +kernel
  have h3 : TagReads (chars " xlink:href=\"a.xml\"") [(chars "xlink:href", chars "a.xml")] :=
    tag_one (name := chars "xlink:href") (raw := chars "a.xml") (by decide) (attribute_self (by decide))
  refine ⟨by rw [h1]; exact h3, by rw [h2]; exact h3, ⟨_, rfl⟩, ⟨_, rfl⟩⟩

/-- **C54**, negative: `hole-closed` and `play` write their attributes but never read them. -/
theorem C54_attributes_not_read :
    (∃ e ∈ elementClasses, e.xmlName = chars "hole-closed" ∧ e.attributes = some .HoleClosedAttributes ∧ e.readsAttributes = false) ∧
    (∃ e ∈ elementClasses, e.xmlName = chars "play" ∧ e.attributes = some .PlayAttributes ∧ e.readsAttributes = false) := by
  have key : ∀ (n : Str) (s : AttrStruct), elementClasses.any (fun e => decide (e.xmlName = n) && decide (e.attributes = some s) && !e.readsAttributes) = true →
      ∃ e ∈ elementClasses, e.xmlName = n ∧ e.attributes = some s ∧ e.readsAttributes = false := by
    intro n s h
    obtain ⟨e, he, hx⟩ := List.any_eq_true.mp h
    simp only [Bool.and_eq_true, decide_eq_true_eq, Bool.not_eq_true'] at hx
    exact ⟨e, he, hx.1.1, hx.1.2, hx.2⟩
  exact ⟨key _ _ (by decide +kernel), key _ _ (by decide +kernel)⟩

/-- **C54**, negative: a `bracket` without its two required attributes is accepted. -/
theorem C54_bracket_unchecked : ∃ r, AttrTables.BracketAttributes.read (freshObject AttrTables.BracketAttributes) [] = some (true, r) := ⟨_, rfl⟩

/-! ### C55 -/

/-- **C55** (partial: `print-object` on five elements is left out) Every attribute that an element class writes is an attribute of the element in the schema, has
the class for its type there, and is always written exactly if it is required there. -/
theorem C55_written_partial (e : ElementClass) (he : e ∈ elementClasses) (d : Declared) (hd : d ∈ e.declared)
    (hx : d.name ≠ chars "print-object" ∨ e.xmlName ∉ extraPrintObject) :
    ∃ x, Spec.HasAttribute e.xmlName x ∧ x.name = d.name ∧ x.type.type = d.type ∧ x.required = d.required := by
  have h := List.all_eq_true.mp (List.all_eq_true.mp declaredOk_all e he) d hd
  rcases Bool.or_eq_true _ _ ▸ h with h | h
  · rw [Bool.and_eq_true] at h
    rcases hx with hx | hx
    · exact absurd (of_decide_eq_true h.2) hx
    · exact absurd (List.contains_iff_mem.mp h.1) hx
  · obtain ⟨p, hp, h⟩ := List.any_eq_true.mp h
    obtain ⟨x, hx, h⟩ := List.any_eq_true.mp h
    obtain ⟨hp, hn⟩ := List.mem_filter.mp hp
    have hn := of_decide_eq_true hn
    simp only [Bool.and_eq_true, decide_eq_true_eq] at h
    exact ⟨x, ⟨p.2, by rw [← hn]; exact hp, hx⟩, h.1.1, h.1.2, h.2⟩

/-- **C55** (partial: the attributes in `missingAttributes` are left out) Every attribute of an element in the schema is an attribute of its class, of the right type,
and required alike. -/
theorem C55_covered_partial (e : ElementClass) (he : e ∈ elementClasses) (x : Spec.SchemaAttr) (hx : Spec.HasAttribute e.xmlName x)
    (hm : ¬ ∃ m ∈ missingAttributes, e.xmlName ∈ m.1 ∧ x.name ∈ m.2) : ∃ d ∈ e.declared, x.name = d.name ∧ x.type.type = d.type ∧ x.required = d.required := by
  obtain ⟨as, h1, h2⟩ := hx
  have h := List.all_eq_true.mp (List.all_eq_true.mp (List.all_eq_true.mp schemaOk_all e he) (e.xmlName, as)
    (List.mem_filter.mpr ⟨h1, decide_eq_true rfl⟩)) x h2
  rcases Bool.or_eq_true _ _ ▸ h with h | h
  · obtain ⟨m, hm1, h⟩ := List.any_eq_true.mp h
    rw [Bool.and_eq_true] at h
    exact absurd ⟨m, hm1, List.contains_iff_mem.mp h.1, List.contains_iff_mem.mp h.2⟩ hm
  · obtain ⟨d, hd, h⟩ := List.any_eq_true.mp h
    simp only [Bool.and_eq_true, decide_eq_true_eq] at h
    exact ⟨d, hd, h.1.1, h.1.2, h.2⟩

/-- **C55**, negative: the exceptions are real.  Each element listed has the attribute in the schema and its class does not read it, so that it is lost when a
document is read (C54_unknown_ignored). -/
theorem C55_missing_real : ∀ m ∈ missingAttributes, ∀ n ∈ m.1, ∀ a ∈ m.2, (∃ x, Spec.HasAttribute n x ∧ x.name = a) ∧
    ∃ e ∈ elementClasses, e.xmlName = n ∧ ∀ s, e.attributes = some s → ∀ l ∈ s.cls.reads, l.name ≠ a := by
  have key : missingAttributes.all (fun m => m.1.all (fun n => m.2.all (fun a =>
      Spec.schemaElements.any (fun p => decide (p.1 = n) && p.2.any (fun x => decide (x.name = a))) &&
      elementClasses.any (fun e => decide (e.xmlName = n) && (match e.attributes with | none => true | some s => s.cls.reads.all (fun l => !decide (l.name = a))))))) = true := by
    decide +kernel
  intro m hm n hn a ha
  have h := List.all_eq_true.mp (List.all_eq_true.mp (List.all_eq_true.mp key m hm) n hn) a ha
  rw [Bool.and_eq_true] at h
  obtain ⟨p, hp, h1⟩ := List.any_eq_true.mp h.1
  rw [Bool.and_eq_true] at h1
  obtain ⟨x, hx, h2⟩ := List.any_eq_true.mp h1.2
  obtain ⟨e, he, h3⟩ := List.any_eq_true.mp h.2
  rw [Bool.and_eq_true] at h3
  refine ⟨⟨x, ⟨p.2, by rw [← of_decide_eq_true h1.1]; exact hp, hx⟩, of_decide_eq_true h2⟩, e, he, of_decide_eq_true h3.1, ?_⟩
  intro s hs l hl hc
  have h4 := h3.2
  rw [hs] at h4
  have := List.all_eq_true.mp h4 l hl
  rw [decide_eq_true hc] at this
  cases this

/-- **C55**, negative: five elements can be written with an attribute that the schema forbids. -/
theorem C55_extra_real : ∀ n ∈ extraPrintObject, (∃ e ∈ elementClasses, e.xmlName = n ∧ ∃ d ∈ e.declared, d.name = chars "print-object") ∧
    ∀ x, Spec.HasAttribute n x → x.name ≠ chars "print-object" := by
  have key : extraPrintObject.all (fun n => elementClasses.any (fun e => decide (e.xmlName = n) && e.declared.any (fun d => decide (d.name = chars "print-object"))) &&
      Spec.schemaElements.all (fun p => !decide (p.1 = n) || p.2.all (fun x => !decide (x.name = chars "print-object")))) = true := by decide +kernel
  intro n hn
  have h := List.all_eq_true.mp key n hn
  rw [Bool.and_eq_true] at h
  obtain ⟨e, he, h1⟩ := List.any_eq_true.mp h.1
  rw [Bool.and_eq_true] at h1
  obtain ⟨d, hd, h2⟩ := List.any_eq_true.mp h1.2
  refine ⟨⟨e, he, of_decide_eq_true h1.1, d, hd, of_decide_eq_true h2⟩, ?_⟩
  rintro x ⟨as, ha, hx⟩ hc
  have h3 := List.all_eq_true.mp h.2 _ ha
  rw [decide_eq_true rfl, Bool.not_true, Bool.false_or] at h3
  have := List.all_eq_true.mp h3 x hx
  rw [decide_eq_true hc] at this
  cases this

-- Concrete cases: `slur` has its attributes, `accent` lacks `color`.
example : ∃ e ∈ elementClasses, e.xmlName = chars "slur" ∧ e.declared.length = 18 := by
  have : elementClasses.any (fun e => decide (e.xmlName = chars "slur") && decide (e.declared.length = 18)) = true := by decide +kernel
  obtain ⟨e, he, h⟩ := List.any_eq_true.mp this
  rw [Bool.and_eq_true] at h
  exact ⟨e, he, of_decide_eq_true h.1, of_decide_eq_true h.2⟩
example : ([chars "credit-words"], [chars "dir"]) ∈ missingAttributes := by decide +kernel

/-! ### C56 -/

/-- **C56** An attribute with an enumeration is accepted exactly if its value is one of the schema, and then it has that value. -/
theorem C56_enum_accepted (n : EnumName) (old : n.Carrier) (s : Str) :
    ∃ ok x, AttrValue.parse (.enum n old) s = some (ok, .enum n x) ∧ (ok = true ↔ (x, s) ∈ Spec.schemaRows n) ∧ ((∃ y, (y, s) ∈ Spec.schemaRows n) → ok = true) := by
  refine ⟨_, _, rfl, ?_, ?_⟩
  · rw [decide_eq_true_iff]; exact C23_written_text n _ s
  · rintro ⟨y, hy⟩
    rw [decide_eq_true_iff]
    have := (C23_written_text n y s).mpr hy
    rw [← this, C23_round_trip]

/-- **C56** (partial: see `C56_leading_zero_rejected`) An attribute with an integer is accepted exactly if its value is the canonical numeral of a number in the range. -/
theorem C56_int_accepted_partial (k : IntKind) (w : Int) (s : Str) (hw : InInt w) :
    ∃ ok r, AttrValue.parse (.int (IntRange.ofKind k w)) s = some (ok, .int r) ∧
      (ok = true ↔ ∃ v, (documentedRange k).1 ≤ v ∧ v ≤ (documentedRange k).2 ∧ InInt v ∧ s = showInt v ∧ r.value = v) := by
  refine ⟨_, _, rfl, ?_⟩
  rw [decide_eq_true_iff]
  have hr : ∃ u, InInt u ∧ ((IntRange.ofKind k w).parse s).2 = IntRange.ofKind k u := by
    rcases C17_int_parse (IntRange.ofKind k w) s with ⟨v, _, hv, e⟩ | ⟨_, e⟩
    · exact ⟨v, hv, by rw [e]; rfl⟩
    · exact ⟨w, hw, by rw [e]⟩
  have hk : InInt k.bounds.1 ∧ InInt k.bounds.2 := by cases k <;> decide
  have hd : k.bounds = documentedRange k := by cases k <;> rfl
  constructor
  · intro h
    obtain ⟨u, hu, e⟩ := hr
    have hb := C16_int_range_invariant k u []
    rw [e] at h ⊢
    refine ⟨(IntRange.ofKind k u).value, hb.1, hb.2, ?_, ?_, rfl⟩
    · rw [← hd] at hb
      exact ⟨le_trans hk.1.1 hb.1, le_trans hb.2 hk.2.2⟩
    · rw [← h]; rfl
  · rintro ⟨v, _, _, _, e, hv⟩
    show showInt ((IntRange.ofKind k w).parse s).2.value = s
    rw [hv, e]

/-- **C56** A value that is not accepted makes reading fail, wherever in the element it stands and whatever follows: an attribute with an enumeration whose value is not in
the schema, an attribute with an integer whose value is not the canonical numeral of a number in the range. -/
theorem C56_rejected_value_fails (s : AttrStruct) (fresh : AttrObject) (hf : FreshObject s.cls fresh) (l : AttrRead) (i : Nat) (m : AttrMember) (name value : Str)
    (hl : s.cls.lineFor name = some l) (hi : l.member = some i) (hm : s.cls.members[i]? = some m)
    (hv : (∃ n, m.type = .enum n ∧ ∀ x, (x, value) ∉ Spec.schemaRows n) ∨
      (∃ k, m.type = .int k ∧ ∀ v, (documentedRange k).1 ≤ v → v ≤ (documentedRange k).2 → value ≠ showInt v))
    (before after : List (Str × Str)) (ok : Bool) (r : AttrObject) (h : s.cls.read fresh (before ++ (name, value) :: after) = some (ok, r)) : ok = false := by
  obtain ⟨st, h2, h3⟩ := Option.map_eq_some_iff.mp h
  injection h3 with h3 _
  rw [← h3, Bool.and_eq_false_iff]
  left
  by_contra hs
  rw [Bool.not_eq_false] at hs
  obtain ⟨old, new, ht, hp⟩ := (AttrClass.readAll_success s.cls _ _ st (AttrClass.fresh_typed hf) h2 hs).2 (name, value)
    (List.mem_append_right _ (List.mem_cons_self ..)) l i m hl hi hm
  rcases hv with ⟨n, e, hv⟩ | ⟨k, e, hv⟩
  · rw [e] at ht
    cases old with
    | enum n' x =>
      cases ht
      obtain ⟨ok', y, h4, h5, _⟩ := C56_enum_accepted n x value
      rw [hp] at h4
      injection h4 with h4; injection h4 with h4 _
      exact hv y (h5.mp h4.symm)
    | _ => cases ht
  · rw [e] at ht
    cases old with
    | int r0 =>
      obtain ⟨w, hw, rfl⟩ := ht
      obtain ⟨ok', r', h4, h5⟩ := C56_int_accepted_partial k w value hw
      rw [hp] at h4
      injection h4 with h4; injection h4 with h4 _
      obtain ⟨v, g1, g2, _, g3, _⟩ := h5.mp h4.symm
      exact hv v g1 g2 g3
    | _ => cases ht

example : (AttrTables.SlurAttributes.read (freshObject AttrTables.SlurAttributes) [(chars "type", chars "begin"), (chars "number", chars "1")]).map Prod.fst = some false := by
  decide +kernel

/-- **C56**, negative: values that are valid in the schema but not in canonical form are rejected, and with them the whole document:
a `number="01"` (e.g. of a slur), a `font-size="12.0"`, a `color="#ff0000"` (the pattern of the schema does not allow small letters; a common form elsewhere). -/
theorem C56_valid_but_rejected :
    (IntegerText (chars "01") 1 ∧ ∃ r, AttrTables.SlurAttributes.read (freshObject AttrTables.SlurAttributes) [(chars "type", chars "start"), (chars "number", chars "01")] = some (false, r)) ∧
    (∃ v, AttrValue.parse (sample .fontSize) (chars "12.0") = some (false, v)) ∧ (∃ v, AttrValue.parse (sample .color) (chars "#ff0000") = some (false, v)) := by
  refine ⟨⟨⟨[], [], chars "01", [], rfl, by simp, by simp, by decide, by decide, Or.inr ⟨Or.inl rfl, rfl⟩⟩, ?_⟩, ?_, ?_⟩
  · have : (AttrTables.SlurAttributes.read (freshObject AttrTables.SlurAttributes) [(chars "type", chars "start"), (chars "number", chars "01")]).map Prod.fst = some false := by
      decide +kernel
    obtain ⟨p, h1, h2⟩ := Option.map_eq_some_iff.mp this
    exact ⟨p.2, by rw [h1, ← h2]⟩
  · have : (AttrValue.parse (sample .fontSize) (chars "12.0")).map Prod.fst = some false := by decide +kernel
    obtain ⟨p, h1, h2⟩ := Option.map_eq_some_iff.mp this
    exact ⟨p.2, by rw [h1, ← h2]⟩
  · have : (AttrValue.parse (sample .color) (chars "#ff0000")).map Prod.fst = some false := by decide +kernel
    obtain ⟨p, h1, h2⟩ := Option.map_eq_some_iff.mp this
    exact ⟨p.2, by rw [h1, ← h2]⟩

theorem hexByte_unique {s t : Str} {v : Nat} (hs : HexByte s v) (ht : HexByte t v) : s = t := by
  obtain ⟨a, b, rfl, ha, hb, e⟩ := hs
  obtain ⟨c, d, rfl, hc, hd, e'⟩ := ht
  obtain rfl : a = c := by omega
  obtain rfl : b = d := by omega
  rfl

theorem hexByte_lt {s : Str} {v : Nat} (h : HexByte s v) : v ≤ 255 := by
  obtain ⟨a, b, rfl, ha, hb, e⟩ := h
  omega

/-- **C56** An attribute with a colour is accepted exactly if it is `#` and six or eight upper case hexadecimal digits. -/
theorem C56_color_accepted (old : Color) (ho : ColorReachable old) (s : Str) :
    ∃ ok c, AttrValue.parse (.color old) s = some (ok, .color c) ∧ (ok = true ↔ (∃ R G B r g b, HexByte R r ∧ HexByte G g ∧ HexByte B b ∧ s = ['#'] ++ R ++ G ++ B) ∨
      (∃ A R G B a r g b, HexByte A a ∧ HexByte R r ∧ HexByte G g ∧ HexByte B b ∧ s = ['#'] ++ A ++ R ++ G ++ B)) := by
  refine ⟨_, _, rfl, ?_⟩
  rw [decide_eq_true_iff]
  obtain ⟨h1, h2, h3⟩ := C15_color_parse old s
  have text : ∀ c : Color, c.Inv → ∃ A R G B : Str, c.toStr = ['#'] ++ (if c.type = .ARGB then A else []) ++ R ++ G ++ B ∧
      HexByte A c.alpha.toNat ∧ HexByte R c.red.toNat ∧ HexByte G c.green.toNat ∧ HexByte B c.blue.toNat := by
    rintro c ⟨a, r, g, b, t⟩
    exact ⟨_, _, _, _, rfl, Color.hex2_isHexByte a.1 a.2, Color.hex2_isHexByte r.1 r.2, Color.hex2_isHexByte g.1 g.2, Color.hex2_isHexByte b.1 b.2⟩
  constructor
  · intro h
    by_contra hn
    rw [not_or] at hn
    rw [h3 hn.1 hn.2] at h
    obtain ⟨A, R, G, B, e, a, r, g, b⟩ := text old (colorReachable_inv ho)
    rw [h] at e
    cases ht : old.type with
    | RGB => rw [ht] at e; exact hn.1 ⟨R, G, B, _, _, _, r, g, b, by rw [e]; simp⟩
    | ARGB => rw [ht] at e; exact hn.2 ⟨A, R, G, B, _, _, _, _, a, r, g, b, by rw [e]; simp⟩
  · rintro (⟨R, G, B, r, g, b, hr, hg, hb, e⟩ | ⟨A, R, G, B, a, r, g, b, ha, hr, hg, hb, e⟩)
    · rw [h1 R G B r g b hr hg hb e]
      have := hexByte_lt hr; have := hexByte_lt hg; have := hexByte_lt hb
      obtain ⟨A', R', G', B', e', ha', hr', hg', hb'⟩ := text ⟨255, r, g, b, .RGB⟩ ⟨by dsimp only; omega, by dsimp only; omega, by dsimp only; omega, by dsimp only; omega, fun _ => rfl⟩
      rw [e', e, hexByte_unique hr hr', hexByte_unique hg hg', hexByte_unique hb hb']; rfl
    · rw [h2 A R G B a r g b ha hr hg hb e]
      have := hexByte_lt ha; have := hexByte_lt hr; have := hexByte_lt hg; have := hexByte_lt hb
      obtain ⟨A', R', G', B', e', ha', hr', hg', hb'⟩ := text ⟨a, r, g, b, .ARGB⟩ ⟨by dsimp only; omega, by dsimp only; omega, by dsimp only; omega, by dsimp only; omega, fun h => by cases h⟩
      rw [e', e, hexByte_unique ha ha', hexByte_unique hr hr', hexByte_unique hg hg', hexByte_unique hb hb']; rfl

-- Concrete cases.
example : ∃ v, AttrValue.parse (.enum .AboveBelow .above) (chars "below") = some (true, v) := ⟨_, rfl⟩
example : ∃ v, AttrValue.parse (.color ⟨255, 0, 0, 0, .RGB⟩) (chars "#4000FF00") = some (true, v) := ⟨_, rfl⟩
example : ∃ v, AttrValue.parse (.int (IntRange.ofKind .NumberLevel 1)) (chars "6") = some (true, v) ∧
    ∃ v, AttrValue.parse (.int (IntRange.ofKind .NumberLevel 1)) (chars "7") = some (false, v) := ⟨_, rfl, _, rfl⟩

end Mx.Props
