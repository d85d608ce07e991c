import Verif.Model.Marks
import Verif.Spec.Layout
import Verif.Spec.ScorePartSaid

/-
What the `<articulations>`, `<ornaments>`, `<technical>`, `<dynamics>` and `<fermata>` elements of a note say, whatever the spelling of their numbers and in how many elements they are grouped
(C111).  Left out: fonts and colours, which are not kept.

Only the data types, and the texts of enumerations (C23), are shared with the model.
-/
namespace Spec
open Mx Mx.Spec

/-- Where a mark is. -/
structure MarkPlaceSaid where
  defaultX : Option ℚ := none
  defaultY : Option ℚ := none
  relativeX : Option ℚ := none
  relativeY : Option ℚ := none
  halign : Option Core.LeftCenterRight := none
  valign : Option Core.Valign := none
  placement : Option Core.AboveBelow := none
deriving DecidableEq

structure MarkPlaceSays (x : PositionXml) (a : MarkPlaceSaid) : Prop where
  defaultX : DecimalSays x.defaultX a.defaultX
  defaultY : DecimalSays x.defaultY a.defaultY
  relativeX : DecimalSays x.relativeX a.relativeX
  relativeY : DecimalSays x.relativeY a.relativeY
  halign : x.halign = a.halign.map StringEnum.toStr
  valign : x.valign = a.valign.map StringEnum.toStr
  placement : x.placement = a.placement.map StringEnum.toStr

/-- What a mark is.  A single-note tremolo has a number of slashes. -/
inductive MarkKind where
  | articulation (c : Core.ArticulationsChoice)
  | ornament (c : Core.OrnamentsChoice)
  | tremolo (slashes : Int)
  | technical (c : Core.TechnicalChoice)
  | dynamic (c : Core.DynamicsEnum)
  | fermata (shape : Core.FermataShape) (direction : Option Core.UprightInverted)
deriving DecidableEq

/-- A mark: what, with which text, and where. -/
structure MarkSaid where
  kind : MarkKind
  text : Str := []
  place : MarkPlaceSaid := {}
deriving DecidableEq

def ArticulationSays (x : MarkXml Core.ArticulationsChoice) (a : MarkSaid) : Prop := x.print = {} ∧ MarkPlaceSays x.position a.place ∧ a.kind = .articulation x.choice ∧ a.text = x.text

def OrnamentSays (x : MarkXml Core.OrnamentsChoice) (a : MarkSaid) : Prop :=
  x.print = {} ∧ MarkPlaceSays x.position a.place ∧
  ((x.choice ≠ .tremolo ∧ a.kind = .ornament x.choice ∧ a.text = x.text) ∨
   (x.choice = .tremolo ∧ (x.tremoloType = none ∨ x.tremoloType = some (chars "single")) ∧ a.text = [] ∧ ∃ n, a.kind = .tremolo n ∧ IntegerText x.text n))

def TechnicalSays (x : MarkXml Core.TechnicalChoice) (a : MarkSaid) : Prop := x.print = {} ∧ MarkPlaceSays x.position a.place ∧ a.kind = .technical x.choice ∧ a.text = x.text

def DynamicMarkSays (x : DynamicsXml) (a : MarkSaid) : Prop := x.print = {} ∧ MarkPlaceSays x.position a.place ∧ (∃ c, a.kind = .dynamic c ∧ x.child = StringEnum.toStr c) ∧ a.text = x.text

def FermataSays (x : FermataXml) (a : MarkSaid) : Prop :=
  x.print = {} ∧ MarkPlaceSays x.position a.place ∧ (∃ s d, a.kind = .fermata s d ∧ x.text = StringEnum.toStr s ∧ x.type = d.map StringEnum.toStr) ∧ a.text = []

/-- The marks that one element of the notations says. -/
def NotationSays : NotationXml → List MarkSaid → Prop
  | .articulations xs, l => List.Forall₂ ArticulationSays xs l
  | .ornaments xs accidentals, l => accidentals = [] ∧ List.Forall₂ OrnamentSays xs l
  | .technical xs, l => List.Forall₂ TechnicalSays xs l
  | .dynamics x, l => ∃ a, l = [a] ∧ DynamicMarkSays x a
  | .fermata x, l => ∃ a, l = [a] ∧ FermataSays x a
  | _, _ => False

/-- The marks that the notations of a note say. -/
def MarksSay (xs : List NotationXml) (l : List MarkSaid) : Prop := ∃ ls, List.Forall₂ NotationSays xs ls ∧ l = ls.flatten

/-- The technical marks that are kept. -/
def keptTechnical : List Core.TechnicalChoice :=
  [.upBow, .downBow, .harmonic, .openString, .thumbPosition, .doubleTongue, .tripleTongue, .stopped, .snapPizzicato, .heel, .toe, .otherTechnical]

/-- The kinds and texts that are kept: texts only of other marks, which are not empty ornaments or dynamics and not the names of dynamics; tremolos of one to five slashes. -/
def KindKept : MarkKind → Str → Prop
  | .articulation c, text => c ≠ .otherArticulation → text = []
  | .ornament c, text => (c ≠ .otherOrnament → text = []) ∧ (c = .otherOrnament → text ≠ [])
  | .tremolo n, _ => 1 ≤ n ∧ n ≤ 5
  | .technical c, text => c ∈ keptTechnical ∧ (c ≠ .otherTechnical → text = [])
  | .dynamic c, text => (c ≠ .otherDynamics → text = []) ∧ (c = .otherDynamics → text ≠ [] ∧ ∀ d : Core.DynamicsEnum, text ≠ StringEnum.toStr d)
  | .fermata _ _, _ => True

/-- Whether the marks of a kind may be aligned. -/
def MarkKind.isDynamic : MarkKind → Bool
  | .dynamic _ => true
  | _ => false

/-- What is kept: lengths have at most six decimals and nineteen digits before the point, fermatas have no place. -/
structure MarkKept (a : MarkSaid) : Prop where
  kind : KindKept a.kind a.text
  lengths : ∀ v ∈ [a.place.defaultX, a.place.defaultY, a.place.relativeX, a.place.relativeY], ∀ n ∈ v, LengthFits n
  aligned : a.kind.isDynamic = false → a.place.halign = none ∧ a.place.valign = none
  fermata : ∀ s d, a.kind = .fermata s d → a.place = {}

/-- Where a mark is in the notations. -/
inductive MarkHome where
  | alone
  | articulations
  | ornaments
  | technical
deriving DecidableEq

def MarkKind.group : MarkKind → MarkHome
  | .articulation _ => .articulations
  | .ornament _ => .ornaments
  | .tremolo _ => .ornaments
  | .technical _ => .technical
  | .dynamic _ => .alone
  | .fermata _ _ => .alone

def marksAt (g : MarkHome) (l : List MarkSaid) : List MarkSaid := l.filter (fun a => a.kind.group = g)

/-- The same marks, and the articulations, the ornaments, the technical marks and the others each in the same order. -/
def SameMarks (l m : List MarkSaid) : Prop := l.Perm m ∧ ∀ g, marksAt g l = marksAt g m

/-- Notations without colours and fonts, and fermatas without a place. -/
def BareNotation : NotationXml → Prop
  | .articulations l => ∀ x ∈ l, x.print = {}
  | .ornaments l _ => ∀ x ∈ l, x.print = {}
  | .technical l => ∀ x ∈ l, x.print = {}
  | .dynamics x => x.print = {}
  | .fermata x => x.print = {} ∧ x.position = {}
  | _ => True

end Spec
