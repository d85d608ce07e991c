import Verif.Model.PartStaves
import Verif.Spec.MeasureRoundTrip

/-
Staff numbers of a part of a MusicXML document, and what a measure should be after it was written and read.
-/
namespace Spec
open Mx.Measure

variable {P : Type}

/-- A child of a measure mentions the staff number `n`: `<staff>` of a note, forward, direction or harmony, or `<staves>` of attributes. -/
def Mentions (c : Child P) (n : Int) : Prop :=
  (∃ x, c.elem = .note x ∧ x.staff = some n) ∨ (∃ d, c.elem = .forward d ∧ c.forwardStaff = some n) ∨
  (∃ o x, c.elem = .direction (some n) o x) ∨ (∃ a, c.elem = .attributes a ∧ a.staves = some n)

/-- A part mentions a staff number. -/
def PartMentions (ms : List (List (Child P))) (n : Int) : Prop := ∃ m ∈ ms, ∃ c ∈ m, Mentions c n

/-- The number of staves of a part: the largest number mentioned, and 1 if there is none (or none above 1). -/
structure IsStaffCount (n : Int) (ms : List (List (Child P))) : Prop where
  one : 1 ≤ n
  enough : ∀ k, PartMentions ms k → k ≤ n
  tight : n = 1 ∨ PartMentions ms n

/-- The index of the staff of something with or without staff number: numbers count from one; without a number it is the first staff. -/
def staffIndexOf (staff : Option Int) : Int := staff.getD 1 - 1

/-- The contents of the notes of a measure that belong to a staff, in the order of the document. -/
def noteContents (i : Int) (m : List (Child P)) : List P :=
  m.filterMap (fun c => match c.elem with
    | .note n => if staffIndexOf n.staff = i then some n.content else none
    | _ => none)

/-- The directions of a measure that belong to a staff, with the flag whether the document gives a staff, in the order of the document. -/
def directionContents (i : Int) (m : List (Child P)) : List (Bool × P) :=
  m.filterMap (fun c => match c.elem with
    | .direction s _ x => if staffIndexOf s = i then some (s.isSome, x) else none
    | _ => none)

/-- The clefs of a measure that belong to a staff, in the order of the document. -/
def clefContents (i : Int) (m : List (Child P)) : List P :=
  m.flatMap (fun c => match c.elem with
    | .attributes a => (a.clefs.filter (fun x => staffIndexOf x.number = i)).map (·.content)
    | _ => [])

/-- Staff numbers are positive, as the schema demands (and as the type of the numbers ensures). -/
def NumbersPositive (ms : List (List (Child P))) : Prop :=
  ∀ m ∈ ms, ∀ c ∈ m,
    (∀ n, c.elem = .note n → ∀ k, n.staff = some k → 1 ≤ k) ∧ (∀ k o x, c.elem = .direction (some k) o x → 1 ≤ k) ∧
    (∀ a, c.elem = .attributes a → (∀ cl ∈ a.clefs, ∀ k, cl.number = some k → 1 ≤ k) ∧ (∀ ke ∈ a.keys, ∀ k, ke.number = some k → 1 ≤ k))

/-- The clefs of a part are on staves that exist. -/
def ClefsOnStaves (n : Int) (ms : List (List (Child P))) : Prop :=
  ∀ m ∈ ms, ∀ c ∈ m, ∀ a, c.elem = .attributes a → ∀ cl ∈ a.clefs, ∀ k, cl.number = some k → k ≤ n

/-- Everything on the staves of a measure is as before (see `voicesExpected` for voices; clefs without their times, barlines with their contents only). -/
structure SameMeasure (m m' : MeasureData P) : Prop where
  staves : m'.staves.length = m.staves.length
  voices : m'.staves.map (·.voices) = m.staves.map voicesExpected
  directions : ∀ (i : Nat) (s s' : StaffData P), m.staves[i]? = some s → m'.staves[i]? = some s' →
    s'.directions = s.directions.map (fun d => { d with isStaffValueSpecified := d.isStaffValueSpecified || i != 0 })
  clefs : m'.staves.map (fun s => s.clefs.map (·.content)) = m.staves.map (fun s => s.clefs.map (·.content))
  barlines : m'.barlines.map (·.content) = m.barlines.map (·.content)

/-- A measure that can be expected to survive. -/
structure MeasureReadable (m : MeasureData P) : Prop where
  ok : MeasureKept m
  staves : ∀ s ∈ m.staves, StaffReadable s
  barlines : ∀ b ∈ m.barlines, b.tick ≤ TICK_TIME_INFINITY

/-- A part that can be expected to survive: it has measures, all with the same number of staves, at least one. -/
structure PartReadable (ms : List (Extras × MeasureData P)) : Prop where
  nonempty : ms ≠ []
  staves : ∃ n : Nat, 1 ≤ n ∧ ∀ x ∈ ms, x.2.staves.length = n
  measures : ∀ x ∈ ms, MeasureReadable x.2

/-- Two lists of the same length agree element by element. -/
def AllPairs {A B : Type} (R : A → B → Prop) (as : List A) (bs : List B) : Prop :=
  as.length = bs.length ∧ ∀ (i : Nat) (a : A) (b : B), as[i]? = some a → bs[i]? = some b → R a b

end Spec
