import Verif.Model.Layout
import Verif.Spec.Notations

/-
Specification for page and system layout (C46).
-/
open Spec
namespace Mx.Spec

/-- Lengths that the decimal classes represent exactly: at most six decimals, at most nineteen digits before the point. -/
def LengthFits (v : ℚ) : Prop := HasDecimals 6 v ∧ |v| ≤ 9999999999999999999

def MarginsFit (m : MarginsData) : Prop := LengthFits m.left ∧ LengthFits m.right ∧ LengthFits m.top ∧ LengthFits m.bottom

/-- All lengths of a page layout. -/
structure PageFits (p : PageLayoutData) : Prop where
  size : ∀ s ∈ p.size, LengthFits s.height ∧ LengthFits s.width
  odd : ∀ m ∈ p.margins.odd, MarginsFit m
  even : ∀ m ∈ p.margins.even, MarginsFit m

/-- All lengths of a system layout. -/
structure SystemFits (s : SystemLayoutData) : Prop where
  margins : ∀ m ∈ s.margins, LengthFits m.left ∧ LengthFits m.right
  systemDistance : ∀ v ∈ s.systemDistance, LengthFits v
  topSystemDistance : ∀ v ∈ s.topSystemDistance, LengthFits v
  staffDistance : ∀ v ∈ s.staffDistance, LengthFits v

/-- All lengths of the defaults. -/
structure DefaultsFit (d : DefaultsData) : Prop where
  millimeters : LengthFits d.scalingMillimeters
  tenths : LengthFits d.scalingTenths
  page : PageFits d.pageLayout
  system : SystemFits d.systemLayout
  appearance : ∀ a ∈ d.appearance, LengthFits a.value

/-- Negative page margins come back as 0. -/
def keptMargins (m : MarginsData) : MarginsData := { left := max 0 m.left, right := max 0 m.right, top := max 0 m.top, bottom := max 0 m.bottom }

/-- What comes back of a page layout: if there are margins without a size then the size comes back as 0 by 0. -/
def keptPage (p : PageLayoutData) : PageLayoutData :=
  if p.size = none ∧ p.margins.odd = none ∧ p.margins.even = none then {}
  else { size := some (p.size.getD { height := 0, width := 0 }), margins := { odd := p.margins.odd.map keptMargins, even := p.margins.even.map keptMargins } }

/-- What comes back of the system layout of the defaults: a top system distance without margins comes back with margins 0. -/
def keptSystem (s : SystemLayoutData) : SystemLayoutData :=
  { s with margins := if s.margins = none ∧ s.topSystemDistance ≠ none then some { left := 0, right := 0 } else s.margins }

/-- What comes back of the type of an appearance: free texts except "other", which is lost; only three note sizes; tokens. -/
def keptAppearanceType (a : AppearanceData) : Str :=
  match a.type with
  | .lineWidth => if a.subType = chars "other" then [] else a.subType
  | .noteSize => if a.subType = chars "grace" ∨ a.subType = chars "large" then a.subType else chars "cue"
  | .distance => if a.subType = chars "other" then [] else a.subType
  | .otherAppearance => xsToken a.subType

/-- What comes back of an appearance: note sizes are not negative; other appearances become distances of length 0. -/
def keptAppearance (a : AppearanceData) : AppearanceData :=
  { type := if a.type = .otherAppearance then .distance else a.type, subType := keptAppearanceType a
    value := if a.type = .otherAppearance then 0 else if a.type = .noteSize then max 0 a.value else a.value }

/-- The order in which appearances come back: line widths, note sizes, distances, others. -/
def groupedAppearance (l : List AppearanceData) : List AppearanceData :=
  ([.lineWidth, .noteSize, .distance, .otherAppearance] : List AppearanceType).flatMap (fun t => l.filter (fun a : AppearanceData => decide (a.type = t)))

/-- What comes back of the scaling, the pair millimetres, tenths: −1 means unspecified, one of them cannot be unspecified alone. -/
def keptScaling (d : DefaultsData) : ℚ × ℚ :=
  if d.scalingMillimeters > 0 ∨ d.scalingTenths > 0 then (max 0 d.scalingMillimeters, max 0 d.scalingTenths) else (-1, -1)

/-- What comes back of the defaults of a score. -/
def keptDefaults (d : DefaultsData) : DefaultsData :=
  { scalingMillimeters := (keptScaling d).1, scalingTenths := (keptScaling d).2, pageLayout := keptPage d.pageLayout, systemLayout := keptSystem d.systemLayout
    appearance := (groupedAppearance d.appearance).map keptAppearance }

/-- Defaults that have only data that come back. -/
structure PlainDefaults (d : DefaultsData) : Prop where
  scaling : (d.scalingMillimeters = -1 ∧ d.scalingTenths = -1) ∨ (0 < d.scalingMillimeters ∧ 0 < d.scalingTenths)
  size : d.pageLayout.size = none → d.pageLayout.margins = {}
  odd : ∀ m ∈ d.pageLayout.margins.odd, 0 ≤ m.left ∧ 0 ≤ m.right ∧ 0 ≤ m.top ∧ 0 ≤ m.bottom
  even : ∀ m ∈ d.pageLayout.margins.even, 0 ≤ m.left ∧ 0 ≤ m.right ∧ 0 ≤ m.top ∧ 0 ≤ m.bottom
  top : d.systemLayout.margins = none → d.systemLayout.topSystemDistance = none
  appearance : ∀ a ∈ d.appearance, keptAppearance a = a
  order : groupedAppearance d.appearance = d.appearance
  numbering : d.measureNumbering = .unspecified

/-- Write the defaults of the score, then read them. -/
def defaultsBack (d : DefaultsData) : Option DefaultsData := (headerDefaults d).bind readHeaderDefaults

/-! ### Measures -/

/-- What comes back of the layout of a measure: staff distances are lost, page numbers are tokens. -/
def keptLayout (l : LayoutData) : LayoutData :=
  { system := { l.system with layout := { l.system.layout with staffDistance := none } }
    page := { newPage := l.page.newPage, pageLayout := keptPage l.page.pageLayout, pageNumber := l.page.pageNumber.map xsToken } }

/-- A layout that says something. -/
def LayoutUsed (l : LayoutData) : Prop := l ≠ {}

instance (l : LayoutData) : Decidable (LayoutUsed l) := by unfold LayoutUsed; infer_instance

/-- All lengths of the layout of a measure. -/
structure LayoutFits (l : LayoutData) : Prop where
  system : SystemFits l.system.layout
  page : PageFits l.page.pageLayout

/-- A layout of a measure that has only data that come back. -/
structure PlainLayout (l : LayoutData) : Prop where
  staff : l.system.layout.staffDistance = none
  size : l.page.pageLayout.size = none → l.page.pageLayout.margins = {}
  odd : ∀ m ∈ l.page.pageLayout.margins.odd, 0 ≤ m.left ∧ 0 ≤ m.right ∧ 0 ≤ m.top ∧ 0 ≤ m.bottom
  even : ∀ m ∈ l.page.pageLayout.margins.even, 0 ≤ m.left ∧ 0 ≤ m.right ∧ 0 ≤ m.top ∧ 0 ≤ m.bottom
  number : ∀ p ∈ l.page.pageNumber, xsToken p = p

/-- The keys of a map are in ascending order. -/
def IsMap (m : List (Int × LayoutData)) : Prop := m.Pairwise (fun a b => a.1 < b.1)

instance (m : List (Int × LayoutData)) : Decidable (IsMap m) := by unfold IsMap; infer_instance

/-- What comes back of the layout of `n` measures: the entries of existing measures that say something. -/
def keptLayouts (n : Nat) (m : List (Int × LayoutData)) : List (Int × LayoutData) :=
  ((m.filter (fun e : Int × LayoutData => decide (0 ≤ e.1 ∧ e.1 < (n : Int)))).map (fun e => (e.1, keptLayout e.2))).filter (fun e => decide (LayoutUsed e.2))

/-- The `<print>` elements of a measure in the document. -/
def printsOf (x : Option PrintElement) : List PrintElement := x.toList

/-- Write the layout of a score with `n` measures, then read it. -/
def layoutsBack (n : Nat) (m : List (Int × LayoutData)) : Option (List (Int × LayoutData)) :=
  (writePrints m n).bind fun l => readLayout (l.map printsOf)

end Mx.Spec
