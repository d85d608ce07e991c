import Verif.Proofs.DocumentData
import Verif.Props.PartProps

/-
C88: exactly which documents give their data.
-/
open Spec
namespace Mx.Props
open _root_.Spec Mx.Spec Mx.Measure Mx.Directions Mx.DocumentData

/-- **C88** A document, in which nothing is undefined (the least common multiple of its divisions fits into an `int`, and `PartDefined`), gives its data exactly when three things hold: the numbers of its part
groups are integers, and in the parts that the part list mentions every clef is on one of the staves that notes, forwards, directions, harmonies and `<staves>` mention, and no metronome mark consists of
notes and a relation.  Nothing else in the part list and in the measures stops it: neither the order of part groups nor any staff number of notes and directions, and no fault in a part that the part
list does not mention. -/
theorem C88_exactly (τ : GroupSort) (pl : PartList) (parts : Parts) (G : Int) (hG : findMaxDivisionsPerQuarter (parts.map (fun p => partElems p.2)) = .ok G)
    (hd : ∀ ms, Listed pl parts ms → PartDefined ms) :
    (∃ data, getData τ pl parts = some data) ↔
      GroupsNumbered pl.children ∧ ∀ ms, Listed pl parts ms → (∀ n, IsStaffCount n ms → ClefsOnStaves n ms) ∧ NoNoteRelations ms := by
  rw [getData_iff hG hd]
  have key : ∀ ms : List (List (Child Content)), (∀ n, IsStaffCount n ms → ClefsOnStaves n ms) ↔ ClefsOnStaves (calculateNumStaves ms) ms := fun ms =>
    ⟨fun h => h _ (calculateNumStaves_spec ms), fun h n hn => by rw [staffCount_unique hn (calculateNumStaves_spec ms)]; exact h⟩
  simp only [key]

/-- **C88** The place of a direction in its measure does not matter: whether it can be read does not depend on the time. -/
theorem C88_any_time (t t' : Int) (x : ElementXml) (h : getDirectionData t x ≠ .error .undefined) (h' : getDirectionData t' x ≠ .error .undefined)
    (hi : ∀ y, x = .harmony y → ∀ s ∈ y.instructions, ∃ i, readInstruction s = .ok i) :
    (∃ d, getDirectionData t x = .ok d) ↔ ∃ d, getDirectionData t' x = .ok d := by
  cases x with
  | direction y => rw [direction_iff h, direction_iff h']
  | harmony y => exact ⟨fun _ => harmony_ok h' (hi y rfl), fun _ => harmony_ok h (hi y rfl)⟩

/-- two staves, the second one mentioned by a note only; a tempo and a chord symbol -/
def piano : List (List (Child Content)) :=
  [[⟨.attributes { divisions := some 4000000, clefs := [⟨some 1, none⟩, ⟨some 2, none⟩] }, none⟩,
    ⟨.direction none 0 (some (.direction { types := [.metronome (.perMinute (chars "quarter") 1 (chars "108"))], offset := some (chars "2") })), none⟩,
    ⟨.direction none 0 (some (.harmony { chords := [{ rootStep := chars "C", kind := chars "major" }] })), none⟩,
    ⟨.note ⟨false, .normal, 4000000, some 1, none, none⟩, none⟩, ⟨.backup 4000000, none⟩, ⟨.note ⟨false, .normal, 4000000, some 2, none, none⟩, none⟩]]

/-- a part with other divisions -/
def flute : List (List (Child Content)) :=
  [[⟨.attributes { divisions := some 6000000 }, none⟩, ⟨.note ⟨false, .normal, 6000000, none, none, none⟩, none⟩], [⟨.note ⟨false, .normal, 6000000, none, none, none⟩, none⟩]]

/-- The part list of the example: a stop that stops nothing (its number is not read), a group around two parts, and a part that does not exist. -/
def sampleList (number : Str) : PartList :=
  { groups := [{ isStart := false, number := some (chars "x") }, { isStart := true, number := some number }], scorePart := chars "P1"
    entries := [.scorePart (chars "P2"), .partGroup { isStart := false, number := some number }, .scorePart (chars "P9")] }

/-- The parts of the example; the third one, which is not in the part list, could not be read. -/
def sampleParts (first : List (List (Child Content))) : Parts :=
  [(chars "P1", first), (chars "P2", flute), (chars "P3", [[⟨.attributes { clefs := [⟨some 7, none⟩] }, none⟩]])]

theorem piano_defined : PartDefined piano where
  numbers := by
    intro m hm c hc
    simp only [piano, List.mem_singleton] at hm
    subst hm
    simp only [List.mem_cons, List.not_mem_nil, or_false] at hc
    rcases hc with rfl | rfl | rfl | rfl | rfl | rfl <;> refine ⟨?_, ?_, ?_⟩ <;> simp
  divisions := by
    intro m hm c hc a ha d hd
    simp only [piano, List.mem_singleton] at hm
    subst hm
    simp only [List.mem_cons, List.not_mem_nil, or_false] at hc
    rcases hc with rfl | rfl | rfl | rfl | rfl | rfl <;> simp at ha
    subst ha
    simp only [Option.some.injEq] at hd
    subst hd
    decide +kernel
  directions := by
    intro m hm c hc x hx
    simp only [piano, List.mem_singleton] at hm
    subst hm
    simp only [List.mem_cons, List.not_mem_nil, or_false] at hc
    rcases hc with rfl | rfl | rfl | rfl | rfl | rfl <;> simp [directionOf] at hx <;> subst hx <;> decide +kernel
  instructions := by
    intro m hm c hc h hx
    simp only [piano, List.mem_singleton] at hm
    subst hm
    simp only [List.mem_cons, List.not_mem_nil, or_false] at hc
    rcases hc with rfl | rfl | rfl | rfl | rfl | rfl <;> simp [directionOf] at hx
    subst hx
    simp

/-- The example gives its data: one group of the two parts, twelve ticks per quarter, two parts, the first one with two staves. -/
example : (getData someGroupSort (sampleList (chars "1")) (sampleParts piano)).map (fun r => (r.1.map (fun g => (g.first, g.last, g.number)), r.2.1, r.2.2.map (fun p => p.map (fun m => m.staves.length)))) =
    some ([(0, 1, 1)], 12, [[2], [1, 1]]) := by decide +kernel

/-- Its conditions hold. -/
example : GroupsNumbered (sampleList (chars "1")).children ∧ (∀ n, IsStaffCount n piano → ClefsOnStaves n piano) ∧ NoNoteRelations piano := by
  have h : ∃ data, getData someGroupSort (sampleList (chars "1")) [(chars "P1", piano)] = some data := by
    have e : (getData someGroupSort (sampleList (chars "1")) [(chars "P1", piano)]).isSome = true := by decide +kernel
    exact Option.isSome_iff_exists.mp e
  have hl : ∀ ms, Listed (sampleList (chars "1")) [(chars "P1", piano)] ms → ms = piano := by
    rintro ms ⟨id, _, before, after, e, _⟩
    have := congrArg (fun l : Parts => l.map (·.2)) e
    cases before with
    | nil => simp only [List.nil_append, List.cons.injEq, Prod.mk.injEq] at e; exact e.1.2.symm
    | cons b before => simp at e
  obtain ⟨h1, h2⟩ := (C88_exactly someGroupSort (sampleList (chars "1")) [(chars "P1", piano)] 4 (by decide +kernel) (fun ms hms => by rw [hl ms hms]; exact piano_defined)).mp h
  exact ⟨h1, h2 piano ⟨chars "P1", by simp [sampleList, PartList.children], [], [], rfl, by simp⟩⟩

/-- **A part group whose number is not an integer** stops the whole document, though the schema allows any token there. -/
theorem C88_group_number : getData someGroupSort (sampleList (chars "strings")) (sampleParts piano) = none ∧ getData someGroupSort (sampleList (chars "01")) (sampleParts piano) = none := by
  decide +kernel

/-- **A clef alone on its staff** stops the whole document. -/
theorem C88_clef_alone : getData someGroupSort (sampleList (chars "1"))
    (sampleParts [[⟨.attributes { divisions := some 4000000, clefs := [⟨some 1, none⟩, ⟨some 2, none⟩] }, none⟩, ⟨.note ⟨false, .normal, 4000000, some 1, none, none⟩, none⟩]]) = none := by
  decide +kernel

/-- **A metronome mark like "eighths = triplet eighths"** stops the whole document. -/
theorem C88_note_relation : getData someGroupSort (sampleList (chars "1")) (sampleParts [[⟨.direction none 0 (some (.direction { types := [.words [{ text := chars "swing" }], .metronome .noteRelation] })), none⟩]]) = none := by
  decide +kernel

end Mx.Props
