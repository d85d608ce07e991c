import Verif.Model.Notations
import Verif.Model.OpenEnums
import Verif.Model.NoteDetails

/-
Model of page and system layout: private/mx/impl/LayoutFunctions.cpp, private/mx/impl/MeasureWriter.cpp (`writeSystemInfo`, `writePageInfo`),
private/mx/impl/ScoreReader.cpp (`scanForSystemInfo`, `scanForPageInfo`).

Simplifications: `long double` is ℚ; the elements of a document stand in the order of the schema, in which they are written; a result `none` is undefined
behaviour of a decimal class (Model/Decimals.lean).
-/
namespace Mx

/-- `api::SizeData`, include/mx/api/SizeData.h 20-41. -/
structure SizeData where
  height : ℚ := 0
  width : ℚ := 0
deriving Repr, DecidableEq

/-- `api::MarginsData`, include/mx/api/MarginsData.h 18-40. -/
structure MarginsData where
  left : ℚ := 0
  right : ℚ := 0
  top : ℚ := 0
  bottom : ℚ := 0
deriving Repr, DecidableEq

/-- `api::PageMarginsData`, include/mx/api/PageMarginsData.h 21-49. -/
structure PageMarginsData where
  odd : Option MarginsData := none
  even : Option MarginsData := none
deriving Repr, DecidableEq

/-- `api::PageLayoutData`, include/mx/api/PageLayoutData.h 20-41. -/
structure PageLayoutData where
  size : Option SizeData := none
  margins : PageMarginsData := {}
deriving Repr, DecidableEq

/-- `api::LeftRight`, include/mx/api/LeftRight.h 19-41. -/
structure LeftRight where
  left : ℚ := 0
  right : ℚ := 0
deriving Repr, DecidableEq

/-- `api::SystemLayoutData`, include/mx/api/SystemLayoutData.h 20-52. -/
structure SystemLayoutData where
  margins : Option LeftRight := none
  systemDistance : Option ℚ := none
  topSystemDistance : Option ℚ := none
  staffDistance : Option ℚ := none
deriving Repr, DecidableEq

/-- `enum class AppearanceType`, include/mx/api/AppearanceData.h 13-41. -/
inductive AppearanceType where
  | lineWidth | noteSize | distance | otherAppearance
deriving Repr, DecidableEq

/-- `api::AppearanceData`, include/mx/api/AppearanceData.h 43-52, private/mx/api/AppearanceData.cpp 16-23. -/
structure AppearanceData where
  type : AppearanceType := .lineWidth
  subType : Str := chars "beam"
  value : ℚ := 0
deriving Repr, DecidableEq

/-- `api::DefaultsData`, include/mx/api/DefaultsData.h 23-123. -/
structure DefaultsData where
  scalingMillimeters : ℚ := -1
  scalingTenths : ℚ := -1
  pageLayout : PageLayoutData := {}
  systemLayout : SystemLayoutData := {}
  appearance : List AppearanceData := []
  measureNumbering : Api.MeasureNumbering := .unspecified
deriving Repr, DecidableEq

/-- `operator==` of `DefaultsData`, include/mx/api/DefaultsData.h 125-130. -/
def DefaultsData.eq (a b : DefaultsData) : Bool :=
  a.pageLayout = b.pageLayout ∧ a.systemLayout = b.systemLayout ∧ a.appearance = b.appearance ∧ a.measureNumbering = b.measureNumbering

/-- `api::SystemData`, include/mx/api/SystemData.h 29-55. -/
structure SystemData where
  newSystem : Api.Bool := .unspecified
  layout : SystemLayoutData := {}
deriving Repr, DecidableEq

/-- `api::PageData`, include/mx/api/PageData.h 21-53. -/
structure PageData where
  newPage : Api.Bool := .unspecified
  pageLayout : PageLayoutData := {}
  pageNumber : Option Str := none
deriving Repr, DecidableEq

/-- `api::LayoutData`, include/mx/api/LayoutData.h 25-71. -/
structure LayoutData where
  system : SystemData := {}
  page : PageData := {}
deriving Repr, DecidableEq

/-- `isUsed`, include/mx/api/PageMarginsData.h 38-41. -/
def PageMarginsData.isUsed (m : PageMarginsData) : Bool := m.odd.isSome ∨ m.even.isSome

/-- `isUsed`, include/mx/api/PageLayoutData.h 37-40. -/
def PageLayoutData.isUsed (p : PageLayoutData) : Bool := p.size.isSome ∨ p.margins.isUsed

/-- `isUsed`, include/mx/api/SystemLayoutData.h 37. -/
def SystemLayoutData.isUsed (s : SystemLayoutData) : Bool := s.margins.isSome ∨ s.systemDistance.isSome ∨ s.topSystemDistance.isSome ∨ s.staffDistance.isSome

/-- `isUsed`, include/mx/api/SystemData.h 39. -/
def SystemData.isUsed (s : SystemData) : Bool := s.newSystem ≠ .unspecified ∨ s.layout.isUsed

/-- `isUsed`, include/mx/api/PageData.h 49-52. -/
def PageData.isUsed (p : PageData) : Bool := p.newPage ≠ .unspecified ∨ p.pageLayout.isUsed ∨ p.pageNumber.isSome

/-! ### Elements -/

/-- `<page-margins>`, private/mx/core/elements/PageMargins.cpp 51-64. -/
structure PageMarginsXml where
  type : Option Str := none
  left : Str
  right : Str
  top : Str
  bottom : Str
deriving Repr, DecidableEq

/-- `<page-layout>`, private/mx/core/elements/PageLayout.cpp 48-62: height and width are always written. -/
structure PageLayoutXml where
  height : Str
  width : Str
  margins : List PageMarginsXml := []
deriving Repr, DecidableEq

/-- `<system-layout>`, private/mx/core/elements/SystemLayout.cpp 57-85, without dividers, which neither side uses. -/
structure SystemLayoutXml where
  margins : Option (Str × Str) := none
  systemDistance : Option Str := none
  topSystemDistance : Option Str := none
deriving Repr, DecidableEq

/-- `<appearance>`, private/mx/core/elements/Appearance.cpp 53-81: types and values. -/
structure AppearanceXml where
  lineWidths : List (Str × Str) := []
  noteSizes : List (Str × Str) := []
  distances : List (Str × Str) := []
  others : List Str := []
deriving Repr, DecidableEq

/-- `<defaults>`, private/mx/core/elements/Defaults.cpp 66-90, the part that is used; a staff layout is its distance. -/
structure DefaultsXml where
  scaling : Option (Str × Str) := none
  page : Option PageLayoutXml := none
  system : Option SystemLayoutXml := none
  staves : List (Option Str) := []
  appearance : Option AppearanceXml := none
deriving Repr, DecidableEq

/-- `<print>`, private/mx/core/elements/Print.cpp 61-98, the part that is used. -/
structure PrintElement where
  newSystem : Option Str := none
  newPage : Option Str := none
  pageNumber : Option Str := none
  page : Option PageLayoutXml := none
  system : Option SystemLayoutXml := none
deriving Repr, DecidableEq

/-! ### Values -/

/-- The text of an element with a decimal value, e.g. private/mx/core/elements/PageHeight.cpp 18-20, 50-54. -/
def writeDec (k : DecimalKind) (v : ℚ) : Option Str := (DecimalRange.make k v).map DecimalRange.toStr

/-- Reading such an element, e.g. private/mx/core/elements/PageHeight.cpp 69-75; the default value is 0. -/
def readDec (k : DecimalKind) (s : Str) : Option ℚ := ((DecimalRange.make k 0).bind (fun d => d.parse s)).map (fun r => r.2.getValue)

/-- An optional element. -/
def writeOptDec (k : DecimalKind) : Option ℚ → Option (Option Str)
  | none => some none
  | some v => (writeDec k v).map some

/-- Reading an optional element. -/
def readOptDec (k : DecimalKind) : Option Str → Option (Option ℚ)
  | none => some none
  | some s => (readDec k s).map some

/-- `toTenths`, private/mx/impl/LayoutFunctions.h 42-45. -/
def toTenths (v : ℚ) : ℚ := if v > 0 then v else 0

/-! ### Pages -/

/-- The elements of one `<page-margins>`, private/mx/impl/LayoutFunctions.cpp 75-87, 93-105. -/
def writeMargins (t : Core.MarginType) (m : MarginsData) : Option PageMarginsXml := do
  let left ← writeDec .TenthsValue (toTenths m.left)
  let right ← writeDec .TenthsValue (toTenths m.right)
  let top ← writeDec .TenthsValue (toTenths m.top)
  let bottom ← writeDec .TenthsValue (toTenths m.bottom)
  return { type := some (StringEnum.toStr t), left := left, right := right, top := top, bottom := bottom }

/-- The margins that are written with their types, private/mx/impl/LayoutFunctions.cpp 70-106. -/
def marginEntries (m : PageMarginsData) : List (Core.MarginType × MarginsData) :=
  (m.odd.map (fun o => (if m.odd = m.even then Core.MarginType.both else .odd, o))).toList ++
  (if m.odd = m.even then [] else (m.even.map (fun e => (Core.MarginType.even, e))).toList)

/-- `createPageMargins`, private/mx/impl/LayoutFunctions.cpp 61-109. -/
def createPageMargins (m : PageMarginsData) : Option (List PageMarginsXml) :=
  if m.isUsed then (marginEntries m).mapM (fun e => writeMargins e.1 e.2) else some []

/-- `createPageLayout`, private/mx/impl/LayoutFunctions.cpp 111-134: without size both elements are written with the default value 0 (`addPageMargins`,
private/mx/core/elements/PageLayout.cpp 110-119, takes at most two). -/
def createPageLayout (p : PageLayoutData) : Option PageLayoutXml := do
  let height ← writeDec .TenthsValue (p.size.getD {}).height
  let width ← writeDec .TenthsValue (p.size.getD {}).width
  let margins ← createPageMargins p.margins
  return { height := height, width := width, margins := margins.take 2 }

/-- `addPageLayout`, private/mx/impl/LayoutFunctions.cpp 137-150, and private/mx/impl/MeasureWriter.cpp 359-364. -/
def optionalPageLayout (p : PageLayoutData) : Option (Option PageLayoutXml) := if p.isUsed then (createPageLayout p).map some else some none

/-- The four values of `<page-margins>`, private/mx/impl/LayoutFunctions.cpp 300-306, private/mx/impl/ScoreReader.cpp 561-565. -/
def readMargins (x : PageMarginsXml) : Option MarginsData := do
  let left ← readDec .TenthsValue x.left
  let right ← readDec .TenthsValue x.right
  let top ← readDec .TenthsValue x.top
  let bottom ← readDec .TenthsValue x.bottom
  return { left := left, right := right, top := top, bottom := bottom }

/-- The type of the margins, private/mx/impl/LayoutFunctions.cpp 298, private/mx/impl/ScoreReader.cpp 556-560. -/
def marginType (x : PageMarginsXml) : Core.MarginType := (x.type.map parseEnum).getD .both

/-- One turn of the loop over the margins, private/mx/impl/LayoutFunctions.cpp 293-319, private/mx/impl/ScoreReader.cpp 546-576. -/
def addMargins (m : PageMarginsData) (x : PageMarginsXml) : Option PageMarginsData :=
  (readMargins x).map fun v =>
    { odd := if marginType x = .both ∨ marginType x = .odd then some v else m.odd, even := if marginType x = .both ∨ marginType x = .even then some v else m.even }

/-- Reading `<page-layout>`: `addPageMargins`, private/mx/impl/LayoutFunctions.cpp 287-319, and private/mx/impl/ScoreReader.cpp 540-577. -/
def readPageLayout (x : PageLayoutXml) : Option PageLayoutData := do
  let height ← readDec .TenthsValue x.height
  let width ← readDec .TenthsValue x.width
  let margins ← x.margins.foldlM addMargins {}
  return { size := some { height := height, width := width }, margins := margins }

/-- Reading an optional `<page-layout>`, private/mx/impl/LayoutFunctions.cpp 282-285, private/mx/impl/ScoreReader.cpp 538. -/
def readOptionalPage : Option PageLayoutXml → Option PageLayoutData
  | none => some {}
  | some x => readPageLayout x

/-! ### Systems -/

/-- The two margins, private/mx/impl/LayoutFunctions.cpp 180-191. -/
def writeLeftRight (m : LeftRight) : Option (Str × Str) := do
  let left ← writeDec .TenthsValue m.left
  let right ← writeDec .TenthsValue m.right
  return (left, right)

/-- Reading the two margins, private/mx/impl/LayoutFunctions.cpp 344-352. -/
def readLeftRight (x : Str × Str) : Option LeftRight := do
  let left ← readDec .TenthsValue x.1
  let right ← readDec .TenthsValue x.2
  return { left := left, right := right }

/-- An optional `<system-margins>`. -/
def writeOptMargins : Option LeftRight → Option (Option (Str × Str))
  | none => some none
  | some m => (writeLeftRight m).map some

/-- Reading an optional `<system-margins>`. -/
def readOptMargins : Option (Str × Str) → Option (Option LeftRight)
  | none => some none
  | some x => (readLeftRight x).map some

/-- The margins that are written in `<defaults>`, private/mx/impl/LayoutFunctions.cpp 180-201: with a top system distance there are always margins. -/
def defaultMargins (s : SystemLayoutData) : Option LeftRight := if s.margins.isNone ∧ s.topSystemDistance.isSome then some {} else s.margins

/-- `addSystemMargins`, private/mx/impl/LayoutFunctions.cpp 152-202, except for the staff distance. -/
def writeSystemLayout (margins : Option LeftRight) (s : SystemLayoutData) : Option SystemLayoutXml := do
  let margins ← writeOptMargins margins
  let systemDistance ← writeOptDec .TenthsValue s.systemDistance
  let topSystemDistance ← writeOptDec .TenthsValue s.topSystemDistance
  return { margins := margins, systemDistance := systemDistance, topSystemDistance := topSystemDistance }

/-- `setHasSystemLayout( true )`: only if one of three members has a value, private/mx/impl/LayoutFunctions.cpp 159-202,
private/mx/impl/MeasureWriter.cpp 300-326. -/
def optionalSystemLayout (margins : Option LeftRight) (s : SystemLayoutData) : Option (Option SystemLayoutXml) :=
  if s.margins.isSome ∨ s.systemDistance.isSome ∨ s.topSystemDistance.isSome then (writeSystemLayout margins s).map some else some none

/-- Reading `<system-layout>`, private/mx/impl/LayoutFunctions.cpp 323-353, private/mx/impl/ScoreReader.cpp 469-490. -/
def readSystemLayout (x : SystemLayoutXml) : Option SystemLayoutData := do
  let margins ← readOptMargins x.margins
  let systemDistance ← readOptDec .TenthsValue x.systemDistance
  let topSystemDistance ← readOptDec .TenthsValue x.topSystemDistance
  return { margins := margins, systemDistance := systemDistance, topSystemDistance := topSystemDistance }

/-- Reading an optional `<system-layout>`. -/
def readOptionalSystem : Option SystemLayoutXml → Option SystemLayoutData
  | none => some {}
  | some x => readSystemLayout x

/-! ### Appearance -/

/-- The value class of each kind, private/mx/impl/LayoutFunctions.cpp 209-247 (the last has a text that is not read). -/
def AppearanceType.kind : AppearanceType → DecimalKind
  | .noteSize => .NonNegativeDecimal
  | _ => .TenthsValue

/-- The text of the type attribute, private/mx/impl/LayoutFunctions.cpp 212, 222, 232, 242. -/
def appearanceTypeText (a : AppearanceData) : Str :=
  match a.type with
  | .lineWidth => (OpenValue.ofText a.subType : OpenName.Value .LineWidthType).valueString
  | .noteSize => StringEnum.toStr (parseEnum a.subType : Core.NoteSizeType)
  | .distance => (OpenValue.ofText a.subType : OpenName.Value .DistanceType).valueString
  | .otherAppearance => xsToken a.subType

/-- The elements of one kind, in order, private/mx/impl/LayoutFunctions.cpp 207-248. -/
def writeAppearanceOf (t : AppearanceType) (l : List AppearanceData) : Option (List (Str × Str)) :=
  (l.filter (fun a : AppearanceData => decide (a.type = t))).mapM (fun a => (writeDec t.kind a.value).map (fun v => (appearanceTypeText a, v)))

/-- `addAppearance`, private/mx/impl/LayoutFunctions.cpp 205-249. -/
def writeAppearance (l : List AppearanceData) : Option (Option AppearanceXml) := do
  let lineWidths ← writeAppearanceOf .lineWidth l
  let noteSizes ← writeAppearanceOf .noteSize l
  let distances ← writeAppearanceOf .distance l
  return if l = [] then none else some { lineWidths := lineWidths, noteSizes := noteSizes, distances := distances
                                         others := (l.filter (fun a : AppearanceData => decide (a.type = .otherAppearance))).map appearanceTypeText }

/-- The type that is read, private/mx/impl/LayoutFunctions.cpp 396, 405, 414, 423, from the attribute's text. -/
def readAppearanceType (t : AppearanceType) (s : Str) : Str := appearanceTypeText { type := t, subType := s }

/-- Reading the elements of one kind, private/mx/impl/LayoutFunctions.cpp 392-417. -/
def readAppearanceOf (t : AppearanceType) (l : List (Str × Str)) : Option (List AppearanceData) :=
  l.mapM (fun x => (readDec t.kind x.2).map (fun v => { type := t, subType := readAppearanceType t x.1, value := v }))

/-- Reading `<other-appearance>`, private/mx/impl/LayoutFunctions.cpp 419-428: as distance, with value 0. -/
def readOther (s : Str) : AppearanceData := { type := .distance, subType := readAppearanceType .otherAppearance s, value := 0 }

/-- `addAppearance`, private/mx/impl/LayoutFunctions.cpp 374-429. -/
def readAppearance : Option AppearanceXml → Option (List AppearanceData)
  | none => some []
  | some x => do
    let a ← readAppearanceOf .lineWidth x.lineWidths
    let b ← readAppearanceOf .noteSize x.noteSizes
    let c ← readAppearanceOf .distance x.distances
    return a ++ b ++ c ++ x.others.map readOther

/-! ### Defaults -/

/-- `addScaling`, private/mx/impl/LayoutFunctions.cpp 44-59: a value that is not positive is not set. -/
def writeScaling (d : DefaultsData) : Option (Option (Str × Str)) :=
  if d.scalingMillimeters > 0 ∨ d.scalingTenths > 0 then do
    let m ← writeDec .MillimetersValue (toTenths d.scalingMillimeters)
    let t ← writeDec .TenthsValue (toTenths d.scalingTenths)
    return some (m, t)
  else some none

/-- `addDefaultsData`, private/mx/impl/LayoutFunctions.cpp 35-41. -/
def writeDefaults (d : DefaultsData) : Option DefaultsXml := do
  let scaling ← writeScaling d
  let page ← optionalPageLayout d.pageLayout
  let system ← optionalSystemLayout (defaultMargins d.systemLayout) d.systemLayout
  let staff ← writeOptDec .TenthsValue d.systemLayout.staffDistance
  let appearance ← writeAppearance d.appearance
  return { scaling := scaling, page := page, system := system, staves := (staff.map some).toList, appearance := appearance }

/-- `setHasDefaults( true )`: called exactly if something is written, private/mx/impl/LayoutFunctions.cpp 44-249. -/
def headerDefaults (d : DefaultsData) : Option (Option DefaultsXml) := (writeDefaults d).map fun x => if x = {} then none else some x

/-- `addScaling`, private/mx/impl/LayoutFunctions.cpp 264-277: the pair millimetres, tenths. -/
def readScaling : Option (Str × Str) → Option (ℚ × ℚ)
  | none => some (-1, -1)
  | some x => do
    let m ← readDec .MillimetersValue x.1
    let t ← readDec .TenthsValue x.2
    return (m, t)

/-- `addStaffLayout`, private/mx/impl/LayoutFunctions.cpp 356-371: the first staff layout. -/
def readStaves (l : List (Option Str)) : Option (Option ℚ) := readOptDec .TenthsValue (l.head?.bind id)

/-- `createDefaults`, private/mx/impl/LayoutFunctions.cpp 252-261. -/
def createDefaults (x : DefaultsXml) : Option DefaultsData := do
  let scaling ← readScaling x.scaling
  let page ← readOptionalPage x.page
  let system ← readOptionalSystem x.system
  let staff ← readStaves x.staves
  let appearance ← readAppearance x.appearance
  return { scalingMillimeters := scaling.1, scalingTenths := scaling.2, pageLayout := page, systemLayout := { system with staffDistance := staff }, appearance := appearance }

/-- Reading the header, private/mx/impl/ScoreReader.cpp 283-286. -/
def readHeaderDefaults : Option DefaultsXml → Option DefaultsData
  | none => some {}
  | some x => createDefaults x

/-! ### Layout of measures -/

/-- The text of a truth value, private/mx/impl/MeasureWriter.cpp 288-293, 352-357. -/
def writeYesNo (b : Api.Bool) : Option Str := if b ≠ .unspecified then some (StringEnum.toStr (if b = .yes then Core.YesNo.yes else .no)) else none

/-- Reading a truth value, private/mx/impl/ScoreReader.cpp 463-467, 523-531. -/
def readYesNo (x : Option Str) : Api.Bool := (x.map (fun s => if (parseEnum s : Core.YesNo) = .yes then Api.Bool.yes else .no)).getD .unspecified

/-- `layout.find( measureIndex )`, private/mx/impl/ScoreWriter.cpp 346-380; the absent layout is written as nothing. -/
def layoutAt (layout : List (Int × LayoutData)) (k : Int) : LayoutData := ((layout.find? (fun e : Int × LayoutData => decide (e.1 = k))).map (·.2)).getD {}

/-- `writeSystemInfo`, private/mx/impl/MeasureWriter.cpp 202-205, 271-328: the `<print>` element if there is one. -/
def writeSystemInfo (s : SystemData) : Option (Option PrintElement) :=
  if s.isUsed then (optionalSystemLayout s.layout.margins s.layout).map fun x => some { newSystem := writeYesNo s.newSystem, system := x }
  else some none

/-- `writePageInfo`, private/mx/impl/MeasureWriter.cpp 330-371, with the `<print>` element that is found or made. -/
def writePageInfo (p : PageData) (print : PrintElement) : Option PrintElement :=
  (optionalPageLayout p.pageLayout).map fun x => { print with newPage := writeYesNo p.newPage, page := x, pageNumber := p.pageNumber.map xsToken }

/-- The `<print>` element of a measure, private/mx/impl/MeasureWriter.cpp 202-211. -/
def writeMeasurePrint (l : LayoutData) : Option (Option PrintElement) :=
  (writeSystemInfo l.system).bind fun print => if l.page.isUsed then (writePageInfo l.page (print.getD {})).map some else some print

/-- The `<print>` elements of `n` measures. -/
def writePrints (layout : List (Int × LayoutData)) (n : Nat) : Option (List (Option PrintElement)) :=
  (List.range n).mapM (fun i : Nat => writeMeasurePrint (layoutAt layout (i : Int)))

/-- Reading system data, private/mx/impl/ScoreReader.cpp 461-490. -/
def readSystemInfo (x : PrintElement) : Option SystemData := (readOptionalSystem x.system).map fun l => { newSystem := readYesNo x.newSystem, layout := l }

/-- Reading page data, private/mx/impl/ScoreReader.cpp 521-577. -/
def readPageInfo (x : PrintElement) : Option PageData :=
  (readOptionalPage x.page).map fun l => { newPage := readYesNo x.newPage, pageLayout := l, pageNumber := x.pageNumber.map xsToken }

/-- One `<print>` element in `scanForSystemInfo`, private/mx/impl/ScoreReader.cpp 461-495. -/
def scanSystem (k : Int) (layout : List (Int × LayoutData)) (x : PrintElement) : Option (List (Int × LayoutData)) :=
  (readSystemInfo x).map fun s => if s.isUsed then mapPut k { layoutAt layout k with system := s } layout else layout

/-- One `<print>` element in `scanForPageInfo`, private/mx/impl/ScoreReader.cpp 521-583. -/
def scanPage (k : Int) (layout : List (Int × LayoutData)) (x : PrintElement) : Option (List (Int × LayoutData)) :=
  (readPageInfo x).map fun p => if p.isUsed then mapPut k { layoutAt layout k with page := p } layout else layout

/-- The loop over the measures of the top part with the `<print>` elements of each, private/mx/impl/ScoreReader.cpp 451-498, 511-586. -/
def scanFrom (f : Int → List (Int × LayoutData) → PrintElement → Option (List (Int × LayoutData))) :
    Int → List (List PrintElement) → List (Int × LayoutData) → Option (List (Int × LayoutData))
  | _, [], layout => some layout
  | k, m :: ms, layout => (m.foldlM (f k) layout).bind (scanFrom f (k + 1) ms)

/-- `scanForSystemInfo` and `scanForPageInfo`, private/mx/impl/ScoreReader.cpp 300-301, 441-587. -/
def readLayout (measures : List (List PrintElement)) : Option (List (Int × LayoutData)) := (scanFrom scanSystem 0 measures []).bind (scanFrom scanPage 0 measures)

end Mx
