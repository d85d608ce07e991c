import Verif.Proofs.ContentSamples

/-
C63: the elements a program builds have the children the schema allows, in the order it demands.
C64: everything that is in use is written, and nothing else.
C65: the limits of the lists of objects.
-/
open Mx.Spec Mx.Content
namespace Mx.Props

theorem named_of {n : Node} (h : HasElement n) : n.kind.named = true := by
  cases n with
  | leaf => rfl
  | comp c d k ss =>
    cases hb : Nat.beq c.info.name 0 with
    | true => exact absurd (Nat.eq_of_beq_eq_true hb) h
    | false => simp [Node.kind, Kind.named, hb]

/-! ## C63 -/

/-- Whatever history of calls has led to an object: if its class is none of the five careless ones then the children of its element are allowed by the schema. -/
theorem C63_children_allowed {c : Cls} {d : Str} {k : Nat} {ss : List Slot} (hb : Built (.comp c d k ss)) (he : HasElement (.comp c d k ss))
    (hc : c ∉ Careless) : ChildrenAllowed (classDecl c) (Node.comp c d k ss).xml := by
  have hcheck : checkClass reachable noOver c = true := by
    have h := List.all_eq_true.mp check_reachable c (mem_allCls c)
    rw [Bool.or_eq_true] at h
    rcases h with h | h
    · exfalso
      apply hc
      cases c <;> first | (cases h; done) | (simp [Careless]; done)
    · exact h
  obtain ⟨r, hr, hm⟩ := check_class hcheck he
  rw [write_xml]
  refine ⟨r, _, hr, hm _ (elementRe_matches ok_tree c d k ss (built_ok hb)), ?_⟩
  rw [List.map_map, itemDecls, List.map_map]
  apply List.map_congr_left
  intro it hit
  exact item_name _ (built_ok hb) it (mem_children hit)

/-- The whole document is valid, as far as the names, the number and the order of the elements go, if the program keeps away from the traps of the five careless classes.
Partial: without the condition it is not (see `C63_careless`), and attributes, values and processing instructions are not in this theorem. -/
theorem C63_document_valid_partial {n : Node} (hb : Built n) (he : HasElement n) (hc : Careful n) : ValidFor (kindDecl n.kind) n.xml :=
  (valid_tree careful_tree (fun c => List.all_eq_true.mp check_careful c (mem_allCls c)) n ⟨built_ok hb, hc⟩).1 (named_of he)

/-- Each of the five classes does let a program build an object that is written against the schema. -/
theorem C63_careless : ∀ c ∈ Careless, ∃ n, Built n ∧ n.kind = .comp c ∧ ¬ ChildrenAllowed (classDecl c) n.xml := by
  intro c hc
  simp only [Careless, List.mem_cons, List.not_mem_nil, or_false] at hc
  rcases hc with rfl | rfl | rfl | rfl | rfl
  · refine ⟨(Op.remove 0 0).apply (fresh 12 (.comp .NoteheadText)), ?_, rfl, not_allowed (by decide +kernel)⟩
    exact built_call _ (built_fresh (by decide +kernel)) rfl ⟨_, _, rfl, rfl⟩ (by simp [Op.args])
  · refine ⟨(Op.change 0 0 ((Op.remove 0 0).apply (fresh 12 (.comp .TimeChoice)))).apply (fresh 12 (.comp .Time)), ?_, rfl, not_allowed (by decide +kernel)⟩
    refine built_call _ (built_fresh (by decide +kernel)) rfl ⟨_, rfl, rfl⟩ ?_
    intro x hx
    simp only [Op.args, List.mem_singleton] at hx
    subst hx
    exact built_call _ (built_fresh (by decide +kernel)) rfl ⟨_, _, rfl, rfl⟩ (by simp [Op.args])
  · refine ⟨(Op.clear 0 []).apply (fresh 12 (.comp .TimewiseMeasure)), ?_, rfl, not_allowed (by decide +kernel)⟩
    exact built_call _ (built_fresh (by decide +kernel)) rfl ⟨⟨_, _, rfl, rfl⟩, rfl, by simp⟩ (by simp [Op.args])
  · refine ⟨(Op.add 1 (.leaf (nm! "accidental-mark") true [])).apply (fresh 12 (.comp .Ornaments)), ?_, rfl, not_allowed (by decide +kernel)⟩
    refine built_call _ (built_fresh (by decide +kernel)) rfl ⟨⟨_, _, rfl, rfl⟩, ⟨_, rfl, rfl⟩⟩ ?_
    intro x hx
    simp only [Op.args, List.mem_singleton] at hx
    subst hx
    exact freshB_built _ (by decide +kernel)
  · refine ⟨(Op.change 0 0 ((Op.setChoice 9).apply (fresh 12 (.comp .PercussionChoice)))).apply (fresh 12 (.comp .Percussion)), ?_, rfl,
      not_allowed (by decide +kernel)⟩
    refine built_call _ (built_fresh (by decide +kernel)) rfl ⟨_, rfl, rfl⟩ ?_
    intro x hx
    simp only [Op.args, List.mem_singleton] at hx
    subst hx
    exact built_call _ (built_fresh (by decide +kernel)) rfl (.inr (by decide)) (by simp [Op.args])

/-- A time signature group with an `interchangeable`. -/
def interchangeableGroup : Node := (Op.setHas 2 true).apply (fresh 12 (.comp .TimeSignatureGroup))

/-- A `time` of two groups of which the first has an `interchangeable`. -/
def interchangeableFirst : Node :=
  (Op.change 0 0 ((Op.add 0 (fresh 12 (.comp .TimeSignatureGroup))).apply
    ((Op.change 0 0 interchangeableGroup).apply (fresh 12 (.comp .TimeChoice))))).apply (fresh 12 (.comp .Time))

theorem built_group : Built interchangeableGroup := built_call _ (built_fresh (by decide +kernel)) rfl trivial (by simp [Op.args])

/-- In `time`, an `interchangeable` can come before another `beats`, although the schema has it last. -/
theorem C63_time_interchangeable : Built interchangeableFirst ∧ interchangeableFirst.kind = .comp .Time ∧
    ¬ ChildrenAllowed (nm! "time") interchangeableFirst.xml := by
  refine ⟨?_, rfl, not_allowed (by decide +kernel)⟩
  refine built_call _ (built_fresh (by decide +kernel)) rfl ⟨_, rfl, rfl⟩ ?_
  intro x hx
  simp only [Op.args, List.mem_singleton] at hx
  subst hx
  refine built_call _ ?_ (c := .TimeChoice) rfl ⟨⟨_, _, rfl, rfl⟩, ⟨_, rfl, rfl⟩⟩ ?_
  · refine built_call _ (built_fresh (by decide +kernel)) rfl ⟨_, rfl, rfl⟩ ?_
    intro x hx
    simp only [Op.args, List.mem_singleton] at hx
    subst hx
    exact built_group
  · intro x hx
    simp only [Op.args, List.mem_singleton] at hx
    subst hx
    exact built_fresh (by decide +kernel)

/-- A score of one part and two measures, of which the first has a note; the score has a movement title. -/
def smallNote : Node := (Op.setChoice 0).apply (fresh 12 (.comp .MusicDataChoice))

/-- The music of the measure: one note. -/
def smallMusic : Node := (Op.add 0 smallNote).apply (fresh 12 (.comp .MusicDataGroup))

def smallMeasure : Node := (Op.change 0 0 smallMusic).apply (fresh 12 (.comp .PartwiseMeasure))

def smallPart : Node := (Op.add 0 (fresh 12 (.comp .PartwiseMeasure))).apply ((Op.change 0 0 smallMeasure).apply (fresh 12 (.comp .PartwisePart)))

def smallScore : Node := (Op.change 1 0 smallPart).apply (fresh 12 (.comp .ScorePartwise))

theorem built_one {op : Op} {n x : Node} (hn : Built n) {c : Cls} (hk : n.kind = .comp c) (ht : op.Typed c) (ha : op.args = [x]) (hx : Built x) : Built (op.apply n) :=
  built_call op hn hk ht (by rw [ha]; simpa using hx)

theorem smallScore_built : Built smallScore := by
  have h1 : Built smallNote := built_call _ (built_fresh (by decide +kernel)) (c := .MusicDataChoice) rfl (.inr (by decide)) (by simp [Op.args])
  have h2 : Built smallMusic := built_one (built_fresh (by decide +kernel)) (c := .MusicDataGroup) rfl ⟨⟨_, _, rfl, rfl⟩, ⟨_, rfl, rfl⟩⟩ rfl h1
  have h3 : Built smallMeasure := built_one (built_fresh (by decide +kernel)) (c := .PartwiseMeasure) rfl ⟨_, rfl, rfl⟩ rfl h2
  have h4 : Built smallPart := by
    refine built_one (x := fresh 12 (.comp .PartwiseMeasure)) ?_ (c := .PartwisePart) rfl ⟨⟨_, _, rfl, rfl⟩, ⟨_, rfl, rfl⟩⟩ rfl (built_fresh (by decide +kernel))
    exact built_one (built_fresh (by decide +kernel)) (c := .PartwisePart) rfl ⟨_, rfl, rfl⟩ rfl h3
  exact built_one (built_fresh (by decide +kernel)) (c := .ScorePartwise) rfl ⟨_, rfl, rfl⟩ rfl h4

def xmlKids : Xml → List Xml | .elem _ _ ks => ks

/-- The hypotheses hold for the score, which writes a part of two measures, the first with a note. -/
example : Built smallScore ∧ HasElement smallScore ∧ Careful smallScore ∧ SoundCareful smallScore ∧
    xmlNames smallScore.xml = [nm! "part-list", nm! "part"] ∧
    (xmlKids smallScore.xml).map xmlNames = [[nm! "score-part"], [nm! "measure", nm! "measure"]] ∧
    (xmlKids smallScore.xml).map (fun x => (xmlKids x).map xmlNames) = [[[nm! "part-name"]], [[nm! "note"], []]] :=
  ⟨smallScore_built, by simp only [HasElement, smallScore, fresh, Op.apply]; decide, careful_of _ (by decide +kernel), soundCareful_of _ (by decide +kernel),
    by decide +kernel, by decide +kernel, by decide +kernel⟩

/-- A note is none of the careless classes. -/
example : Built (fresh 12 (.comp .Note)) ∧ HasElement (fresh 12 (.comp .Note)) ∧ Cls.Note ∉ Careless ∧
    xmlNames (fresh 12 (.comp .Note)).xml = [nm! "grace", nm! "pitch"] :=
  ⟨built_fresh (by decide +kernel), by simp only [HasElement, fresh]; decide, by decide, by decide +kernel⟩

/-! ## C64 -/

/-- Everything in use is written, in the order of the class, and nothing else: the decisions taken by `hasContents` drop nothing and leave nothing behind.
Partial: a `sound` that has a midi device or a play element but no midi instrument is left out (see `C64_sound`). -/
theorem C64_everything_written_partial {n : Node} (hb : Built n) (he : HasElement n) (hs : SoundCareful n) : n.xml = (whole n).element :=
  (write_whole n (built_wide hb) hs).1 (named_of he)

/-- Each member of each class is written in one place and only one. -/
theorem C64_members_written_once (c : Cls) : ∀ i < c.info.members.length, ∃ s ∈ c.info.stmts, s.slot = i ∧
    ∀ (a b : Nat) (s' s'' : Stmt), c.info.stmts[a]? = some s' → c.info.stmts[b]? = some s'' → s'.slot = i → s''.slot = i → a = b := by
  have h : allCls.all (fun c => (List.range c.info.members.length).all fun i => c.info.stmts.any (fun s => Nat.beq s.slot i)) = true := by decide +kernel
  have h2 : allCls.all (fun c => decide (c.info.stmts.map (·.slot)).Nodup) = true := by decide +kernel
  intro i hi
  obtain ⟨s, hs, he⟩ := List.any_eq_true.mp (List.all_eq_true.mp (List.all_eq_true.mp h c (mem_allCls c)) i (List.mem_range.mpr hi))
  refine ⟨s, hs, Nat.eq_of_beq_eq_true he, ?_⟩
  intro a b s' s'' ha hb ea eb
  have hnd : (c.info.stmts.map (·.slot)).Nodup := of_decide_eq_true (List.all_eq_true.mp h2 c (mem_allCls c))
  have la : a < (c.info.stmts.map (·.slot)).length := by
    rw [List.length_map]; exact (List.getElem?_eq_some_iff.mp ha).1
  refine (List.getElem?_inj la hnd).mp ?_
  rw [List.getElem?_map, List.getElem?_map, ha, hb]
  simp [ea, eb]

/-- A `sound` with a midi device. -/
def deviceSound : Node := (Op.setHas 0 true).apply (fresh 12 (.comp .Sound))

/-- A `sound` given a midi device and nothing else is written with a midi instrument as well. -/
theorem C64_sound : Built deviceSound ∧ ¬ HasFlag deviceSound 1 ∧ nm! "midi-instrument" ∈ xmlNames deviceSound.xml ∧
    xmlNames (whole deviceSound).element = [nm! "midi-device"] := by
  refine ⟨built_call _ (built_fresh (by decide +kernel)) (c := .Sound) rfl trivial (by simp [Op.args]), ?_, by decide +kernel, by decide +kernel⟩
  rintro ⟨s, h1, h2⟩
  cases h1
  cases h2

/-- A grace note with a beam, as it ought to be written. -/
example : xmlNames (whole ((Op.add 11 (.leaf (nm! "beam") true (chars "begin"))).apply (fresh 12 (.comp .Note)))).element =
    [nm! "grace", nm! "pitch", nm! "beam"] := by decide +kernel

/-! ## C65 -/

/-- Whatever is called, a limited list stays within its limits: a note never has more than eight beams, a page layout never more than two margins,
a direction never loses its last direction type, a part never its last measure. -/
theorem C65_limits {c : Cls} {i lo : Nat} {hi : Option Nat} (hl : (c, i, lo, hi) ∈ listLimits) {d : Str} {k : Nat} {ss : List Slot}
    (hb : Built (.comp c d k ss)) {s : Slot} (hs : ss[i]? = some s) : lo ≤ s.kids.length ∧ ∀ h, hi = some h → s.kids.length ≤ h := by
  obtain ⟨h1, h2, h3⟩ := limits_of hl
  have hsh := ok_tree.shape (built_ok hb)
  unfold isSetB at h1
  split at h1
  · rename_i kd sc hm
    have h4 := (hsh.slots i _ s hm hs).2
    rw [h2, h3] at h4
    exact h4
  · cases h1

/-- A beam is refused when there are eight, and a direction keeps its last direction type. -/
example : (let beam : Node := .leaf (nm! "beam") true []
    let note := (List.replicate 12 (Op.add 11 beam)).foldl (fun n op => op.apply n) (fresh 12 (.comp .Note))
    match note with | .comp _ _ _ ss => (ss[11]?.map (fun s => s.kids.length)) | _ => none) = some 8 := by decide +kernel
example : (match (Op.remove 0 0).apply (fresh 12 (.comp .Direction)) with
    | .comp _ _ _ ss => (ss[0]?.map (fun s => s.kids.length)) | _ => none) = some 1 := by decide +kernel

end Mx.Props
