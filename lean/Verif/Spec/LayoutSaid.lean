import Verif.Model.Layout
import Verif.Spec.Layout
import Verif.Spec.ScorePartSaid
import Verif.Spec.HeadersSaid

/-
What the `<defaults>` and the `<print>` elements of a document say about the layout of the score, whatever the spelling of their numbers (C108).

Only the data types are shared with the model.
-/
namespace Spec
open Mx Mx.Spec

/-- The text for the pages that margins are for. -/
def sideText : Core.MarginType → Str
  | .odd => chars "odd"
  | .even => chars "even"
  | .both => chars "both"

/-- Margins for some pages: without a type they are for all. -/
structure MarginSays (x : PageMarginsXml) (t : Core.MarginType) (m : MarginsData) : Prop where
  type : x.type = some (sideText t) ∨ (x.type = none ∧ t = .both)
  left : DecimalText x.left m.left
  right : DecimalText x.right m.right
  top : DecimalText x.top m.top
  bottom : DecimalText x.bottom m.bottom

/-- The margins of the pages: none, for all pages, for some, or for odd and even pages in any order. -/
def MarginsSay (xs : List PageMarginsXml) (m : PageMarginsData) : Prop :=
  (xs = [] ∧ m = {}) ∨ (∃ x v, xs = [x] ∧ MarginSays x .both v ∧ m = { odd := some v, even := some v }) ∨ (∃ x v, xs = [x] ∧ MarginSays x .odd v ∧ m = { odd := some v }) ∨
  (∃ x v, xs = [x] ∧ MarginSays x .even v ∧ m = { even := some v }) ∨ ∃ x y v w, (xs = [x, y] ∨ xs = [y, x]) ∧ MarginSays x .odd v ∧ MarginSays y .even w ∧ m = { odd := some v, even := some w }

/-- The size and margins of the pages. -/
def PageSays (x : Option PageLayoutXml) (p : PageLayoutData) : Prop :=
  (x = none ∧ p = {}) ∨ ∃ y h w m, x = some y ∧ DecimalText y.height h ∧ DecimalText y.width w ∧ MarginsSay y.margins m ∧ p = { size := some { height := h, width := w }, margins := m }

/-- The margins of a system. -/
def SystemMarginsSay (x : Option (Str × Str)) (m : Option LeftRight) : Prop :=
  (x = none ∧ m = none) ∨ ∃ l r a b, x = some (l, r) ∧ m = some { left := a, right := b } ∧ DecimalText l a ∧ DecimalText r b

/-- The layout of systems: an empty element says nothing. -/
structure SystemSays (x : Option SystemLayoutXml) (s : SystemLayoutData) : Prop where
  margins : SystemMarginsSay (x.bind (·.margins)) s.margins
  systemDistance : DecimalSays (x.bind (·.systemDistance)) s.systemDistance
  topSystemDistance : DecimalSays (x.bind (·.topSystemDistance)) s.topSystemDistance
  staffDistance : s.staffDistance = none

/-- A type with a number. -/
def SizeSays (x : Str × Str) (a : Str × ℚ) : Prop := x.1 = a.1 ∧ DecimalText x.2 a.2

/-- What the defaults say. -/
structure DefaultsSaid where
  scaling : Option (ℚ × ℚ) := none
  page : PageLayoutData := {}
  system : SystemLayoutData := {}
  staves : List (Option ℚ) := []
  lineWidths : List (Str × ℚ) := []
  noteSizes : List (Str × ℚ) := []
  distances : List (Str × ℚ) := []
  others : List Str := []
deriving DecidableEq

/-- What a `<defaults>` element says; no element says nothing. -/
structure DefaultsSays (x : DefaultsXml) (a : DefaultsSaid) : Prop where
  scaling : (x.scaling = none ∧ a.scaling = none) ∨ ∃ m t v w, x.scaling = some (m, t) ∧ a.scaling = some (v, w) ∧ DecimalText m v ∧ DecimalText t w
  page : PageSays x.page a.page
  system : SystemSays x.system a.system
  staves : List.Forall₂ DecimalSays x.staves a.staves
  lineWidths : List.Forall₂ SizeSays (x.appearance.getD {}).lineWidths a.lineWidths
  noteSizes : List.Forall₂ SizeSays (x.appearance.getD {}).noteSizes a.noteSizes
  distances : List.Forall₂ SizeSays (x.appearance.getD {}).distances a.distances
  others : (x.appearance.getD {}).others = a.others

/-- Margins of pages that are kept: not negative. -/
def MarginsKept (m : MarginsData) : Prop := 0 ≤ m.left ∧ 0 ≤ m.right ∧ 0 ≤ m.top ∧ 0 ≤ m.bottom

/-- A page layout that is kept: all lengths have at most six decimals and nineteen digits before the point, and margins are not negative. -/
structure PageLayoutKept (p : PageLayoutData) : Prop where
  fits : PageFits p
  odd : ∀ m ∈ p.margins.odd, MarginsKept m
  even : ∀ m ∈ p.margins.even, MarginsKept m

/-- The defaults that are kept: a scaling that is not zero or negative, the distance of one staff, a top system distance only with margins, the three sizes of notes, and no other appearance. -/
structure DefaultsKept (a : DefaultsSaid) : Prop where
  scaling : ∀ v ∈ a.scaling, LengthFits v.1 ∧ LengthFits v.2 ∧ 0 ≤ v.1 ∧ 0 ≤ v.2 ∧ (0 < v.1 ∨ 0 < v.2)
  page : PageLayoutKept a.page
  system : SystemFits a.system
  top : a.system.margins = none → a.system.topSystemDistance = none
  staves : a.staves = [] ∨ ∃ d, a.staves = [some d] ∧ LengthFits d
  lineWidths : ∀ e ∈ a.lineWidths, e.1 ≠ chars "other" ∧ LengthFits e.2
  noteSizes : ∀ e ∈ a.noteSizes, (e.1 = chars "cue" ∨ e.1 = chars "grace" ∨ e.1 = chars "large") ∧ LengthFits e.2 ∧ 0 ≤ e.2
  distances : ∀ e ∈ a.distances, e.1 ≠ chars "other" ∧ LengthFits e.2
  others : a.others = []

/-- What the `<print>` of a measure says. -/
structure PrintSaid where
  newSystem : Option Bool := none
  newPage : Option Bool := none
  pageNumber : Option (List (List Char)) := none
  page : PageLayoutData := {}
  system : SystemLayoutData := {}
deriving DecidableEq

/-- What a `<print>` element says: the page number is its words. -/
structure PrintSays (x : PrintElement) (a : PrintSaid) : Prop where
  newSystem : x.newSystem = a.newSystem.map yesNoText
  newPage : x.newPage = a.newPage.map yesNoText
  pageNumber : x.pageNumber.map words = a.pageNumber
  page : PageSays x.page a.page
  system : SystemSays x.system a.system

/-- What the `<print>` elements of a measure say, if there is one at most. -/
def MeasurePrintSays (ps : List PrintElement) (a : PrintSaid) : Prop := (ps = [] ∧ a = {}) ∨ ∃ x, ps = [x] ∧ PrintSays x a

/-- The lengths can be represented, and margins of pages are not negative. -/
structure PrintKept (a : PrintSaid) : Prop where
  page : PageLayoutKept a.page
  system : SystemFits a.system

end Spec
