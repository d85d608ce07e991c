import Verif.Model.Marks
import Verif.Spec.Notations
import Verif.Spec.ApiTexts
import Verif.Spec.Tokens

/-
What becomes of fonts, print data and marks when they are written and read again.
-/
open Spec
namespace Mx.Spec

/-! ### Fonts and print data -/

/-- A font size in points that a decimal attribute can hold. -/
def SizeFits (f : FontData) : Prop := f.sizeType = .point → HasDecimals 6 f.sizePoint ∧ |f.sizePoint| ≤ 9999999999999999999

/-- The font families come back: no commas, white space only single spaces inside, no empty last name. -/
def FamilyFits (l : List Str) : Prop := (∀ x ∈ l, ',' ∉ x ∧ Normalised x) ∧ l.getLast? ≠ some []

/-- The number of lines that comes back. -/
def keptLines (n : Int) : Int := if n > 0 then min 3 n else 0

/-- The print data that comes back through an element with the members `m`. -/
def keptPrint (m : PrintMembers) (p : PrintData) : PrintData :=
  { printObject := .unspecified
    fontData := {
      sizeType := if m.font then p.fontData.sizeType else .unspecified
      sizePoint := if m.font = true ∧ p.fontData.sizeType = .point then p.fontData.sizePoint else -1
      sizeCss := if m.font = true ∧ p.fontData.sizeType = .css then (if p.fontData.sizeCss = .unspecified then .medium else p.fontData.sizeCss) else .unspecified
      style := if m.font then p.fontData.style else .unspecified
      weight := if m.font then p.fontData.weight else .unspecified
      fontFamily := if m.font then p.fontData.fontFamily else []
      underline := if m.lines then keptLines p.fontData.underline else 0
      overline := if m.lines then keptLines p.fontData.overline else 0
      lineThrough := if m.lines then keptLines p.fontData.lineThrough else 0 }
    isColorSpecified := m.color && p.isColorSpecified
    color := keptColor (m.color && p.isColorSpecified) p.color }

/-! ### Marks -/

/-- The places of `<notations>` where marks are written. -/
inductive MarkGroup where
  | alone
  | articulations
  | ornaments
  | technical
deriving Repr, DecidableEq

/-- The place of a mark; the other marks are not written. -/
def groupOf (t : Api.MarkType) : Option MarkGroup :=
  if isMarkDynamic t || isMarkFermata t then some .alone
  else if isMarkArticulation t || isMarkCustom t then some .articulations
  else if isMarkOrnament t then some .ornaments
  else if isMarkTechnical t then some .technical
  else none

/-- The name of the MusicXML element of an articulation, ornament or technical mark. -/
def elementName (t : Api.MarkType) : Str :=
  if isMarkTremolo t then chars "tremolo"
  else (((apiText .articulationsMap t).orElse fun _ => apiText .ornamentsMap t).orElse fun _ => apiText .technicalMarkMap t).getD []

/-- All dynamics with a name of their own. -/
def namedDynamics : List Api.MarkType :=
  [.p, .pp, .ppp, .pppp, .ppppp, .pppppp, .f, .ff, .fff, .ffff, .fffff, .ffffff, .mp, .mf, .sf, .sfp, .sfpp, .fp, .rf, .rfz, .sfz, .sffz, .fz]

/-- Type and name of the dynamic that a text stands for. -/
def dynamicOf (s : Str) : Api.MarkType × Str :=
  if s = chars "other-dynamics" then (.otherDynamics, []) else ((namedDynamics.find? (fun t => decide (apiText .dynamicsMap t = some s))).getD .otherDynamics, s)

/-- Type and name of the mark that comes back. -/
def keptType (m : MarkData) : Api.MarkType × Str :=
  match m.markType with
  | .otherDynamics => dynamicOf m.name
  | .otherArticulation => (if m.name = customName then .customAccentTenuto else .otherArticulation, m.name)
  | .customAccentTenuto => (.customAccentTenuto, customName)
  | .otherOrnament => (.otherOrnament, if m.name = [] then chars "other-ornament" else m.name)
  | .unknownOrnament => (.otherOrnament, if m.name = [] then chars "other-ornament" else m.name)
  | .otherTechnical => (.otherTechnical, m.name)
  | .fingernails => (.otherTechnical, [])
  | t => (t, if isMarkDynamic t then (apiText .dynamicsMap t).getD [] else if isMarkFermata t then (apiText .fermataMap t).getD [] else elementName t)

/-- The position of the mark that comes back: those of fermatas and fingernails are lost. -/
def keptMarkPosition (m : MarkData) : PositionData :=
  if isMarkFermata m.markType = true ∨ m.markType = .fingernails then {}
  else if isMarkDynamic m.markType then keptPosition dynamicsMembers m.positionData else keptPosition markMembers m.positionData

/-- The mark that comes back at `tick`. -/
def keptMark (tick : Int) (m : MarkData) : MarkData :=
  { markType := (keptType m).1, name := (keptType m).2, tickTimePosition := tick, printData := {}, positionData := keptMarkPosition m }

/-- The marks of one place. -/
def inGroup (g : MarkGroup) (l : List MarkData) : List MarkData := l.filter (fun m => decide (groupOf m.markType = some g))

/-- The marks that come back, in their order. -/
def keptMarks (tick : Int) (l : List MarkData) : List MarkData :=
  (inGroup .alone l ++ inGroup .articulations l ++ inGroup .ornaments l ++ inGroup .technical l).map (keptMark tick)

/-- The numbers of a mark can be written. -/
def MarkFits (m : MarkData) : Prop := PositionFits m.positionData ∧ SizeFits m.printData.fontData

/-- A mark as it is found in a document that has been read: everything in it can be written. -/
structure PlainMark (tick : Int) (m : MarkData) : Prop where
  written : groupOf m.markType ≠ none
  type : keptType m = (m.markType, m.name)
  tick : m.tickTimePosition = tick
  print : m.printData = {}
  fits : PositionFits m.positionData
  position : keptMarkPosition m = m.positionData

end Mx.Spec
