import Verif.Model.CoreEnums
import Verif.Model.ApiEnums

/-
GENERATED by a script from private/mx/impl/Converter.cpp 17-1349 (rows of each map, in order; commented-out rows left out), the defaults of the
`convert` functions (1352-1809), and the `Choice` enumerations of three element classes.  `endingMap` (used in one direction only) and
`instrumentMap` (Sounds.lean) are not in this list.
-/
namespace Mx

/-- `ArticulationsChoice::Choice`, private/mx/core/elements/ArticulationsChoice.h 42-60. -/
inductive Core.ArticulationsChoice where
  | accent | strongAccent | staccato | tenuto | detachedLegato | staccatissimo | spiccato | scoop | plop | doit | falloff | breathMark
  | caesura | stress | unstress | otherArticulation
deriving Repr, DecidableEq

/-- `OrnamentsChoice::Choice`, private/mx/core/elements/OrnamentsChoice.h 39-54. -/
inductive Core.OrnamentsChoice where
  | trillMark | turn | delayedTurn | invertedTurn | delayedInvertedTurn | verticalTurn | shake | wavyLine | mordent | invertedMordent
  | schleifer | tremolo | otherOrnament
deriving Repr, DecidableEq

/-- `TechnicalChoice::Choice`, private/mx/core/elements/TechnicalChoice.h 50-76. -/
inductive Core.TechnicalChoice where
  | upBow | downBow | harmonic | openString | thumbPosition | fingering | pluck | doubleTongue | tripleTongue | stopped | snapPizzicato
  | fret | string_ | hammerOn | pullOff | bend | tap | heel | toe | fingernails | hole | arrow | handbell | otherTechnical
deriving Repr, DecidableEq

/-- A `std::map` of `Converter` with the defaults of its two `convert` functions. `order` lists the keys' type in the order of the keys, in which `std::map` iterates. -/
structure ConvMap (Core Api : Type) where
  rows : List (Core × Api)
  defaultApi : Api
  defaultCore : Core
  order : List Core

/-- `std::map::find` in a map built from an initialiser list (of equal keys the first is kept). -/
def mapFind {α β : Type} [DecidableEq α] : List (α × β) → α → Option β
  | [], _ => none
  | (k, v) :: rest, x => if x = k then some v else mapFind rest x

/-- `findApiItem`, private/mx/impl/Converter.h 162-171 (and the same code written out, Converter.cpp 1352-1486). -/
def ConvMap.toApi {C A : Type} [DecidableEq C] (m : ConvMap C A) (c : C) : A := (mapFind m.rows c).getD m.defaultApi

/-- `findCoreItem`, private/mx/impl/Converter.h 173-189: the first entry in key order with the value. -/
def ConvMap.toCore {C A : Type} [DecidableEq C] [DecidableEq A] (m : ConvMap C A) (a : A) : C :=
  (m.order.find? (fun c => decide (mapFind m.rows c = some a))).getD m.defaultCore

/-- `Converter::stepMap`, private/mx/impl/Converter.cpp 17-26, defaults 1352 and 1363. -/
def stepMap : ConvMap Core.StepEnum Api.Step where
  rows := [
    (.c, .c), (.d, .d), (.e, .e), (.f, .f), (.g, .g), (.a, .a), (.b, .b)]
  defaultApi := .c
  defaultCore := .c
  order := [.a, .b, .c, .d, .e, .f, .g]

/-- `Converter::durationMap`, private/mx/impl/Converter.cpp 28-44, defaults 1380 and 1391. -/
def durationMap : ConvMap Core.NoteTypeValue Api.DurationName where
  rows := [
    (.maxima, .maxima), (.long_, .longa), (.breve, .breve), (.whole, .whole), (.half, .half), (.quarter, .quarter), (.eighth, .eighth),
    (.sixteenth, .dur16th), (.thirtySecond, .dur32nd), (.sixtyFourth, .dur64th), (.oneHundredTwentyEighth, .dur128th),
    (.twoHundredFifthySixth, .dur256th), (.fiveHundredTwelfth, .dur512th), (.oneThousandTwentyFourth, .dur1024th)]
  defaultApi := .unspecified
  defaultCore := .maxima
  order := [.oneThousandTwentyFourth, .fiveHundredTwelfth, .twoHundredFifthySixth, .oneHundredTwentyEighth, .sixtyFourth, .thirtySecond, .sixteenth,
    .eighth, .quarter, .half, .whole, .breve, .long_, .maxima]

/-- `Converter::noteheadMap`, private/mx/impl/Converter.cpp 46-73, defaults 1408 and 1420. -/
def noteheadMap : ConvMap Core.NoteheadValue Api.Notehead where
  rows := [
    (.slash, .slash), (.triangle, .triangle), (.diamond, .diamond), (.square, .square), (.cross, .cross), (.x, .x), (.circleX, .circleX),
    (.invertedTriangle, .invertedTriangle), (.arrowDown, .arrowDown), (.arrowUp, .arrowUp), (.slashed, .slashed), (.backSlashed, .backSlashed),
    (.normal, .normal), (.cluster, .cluster), (.circleDot, .circleDot), (.leftTriangle, .leftTriangle), (.rectangle, .rectangle), (.none, .none),
    (.do_, .do_), (.re, .re), (.mi, .mi), (.fa, .fa), (.la, .la), (.so, .so), (.ti, .ti)]
  defaultApi := .none
  defaultCore := .none
  order := [.slash, .triangle, .diamond, .square, .cross, .x, .circleX, .invertedTriangle, .arrowDown, .arrowUp, .slashed, .backSlashed, .normal,
    .cluster, .circleDot, .leftTriangle, .rectangle, .none, .do_, .re, .mi, .fa, .faUp, .so, .la, .ti]

/-- `Converter::beamMap`, private/mx/impl/Converter.cpp 75-82, defaults 1455 and 1437. -/
def beamMap : ConvMap Core.BeamValue Api.Beam where
  rows := [
    (.begin, .begin), (.«end», .«end»), (.continue_, .extend), (.forwardHook, .forwardBroken), (.backwardHook, .backwardBroken)]
  defaultApi := .unspecified
  defaultCore := .begin
  order := [.begin, .continue_, .«end», .forwardHook, .backwardHook]

/-- `Converter::accidentalMap`, private/mx/impl/Converter.cpp 85-120, defaults 1466 and 1477. -/
def accidentalMap : ConvMap Core.AccidentalValue Api.Accidental where
  rows := [
    (.sharp, .sharp), (.natural, .natural), (.flat, .flat), (.doubleSharp, .doubleSharp), (.flatFlat, .flatFlat), (.naturalSharp, .naturalSharp),
    (.naturalFlat, .naturalFlat), (.quarterFlat, .quarterFlat), (.quarterSharp, .quarterSharp), (.threeQuartersFlat, .threeQuartersFlat),
    (.threeQuartersSharp, .threeQuartersSharp), (.sharpDown, .sharpDown), (.sharpUp, .sharpUp), (.naturalDown, .naturalDown),
    (.naturalUp, .naturalUp), (.flatDown, .flatDown), (.flatUp, .flatUp), (.tripleSharp, .tripleSharp), (.tripleFlat, .tripleFlat),
    (.slashQuarterSharp, .slashQuarterSharp), (.slashSharp, .slashSharp), (.slashFlat, .slashFlat), (.doubleSlashFlat, .doubleSlashFlat),
    (.sharp1, .sharp1), (.sharp2, .sharp2), (.sharp3, .sharp3), (.sharp5, .sharp5), (.flat1, .flat1), (.flat2, .flat2), (.flat3, .flat3),
    (.flat4, .flat4), (.sori, .sori), (.koron, .koron)]
  defaultApi := .none
  defaultCore := .natural
  order := [.sharp, .natural, .flat, .doubleSharp, .sharpSharp, .flatFlat, .naturalSharp, .naturalFlat, .quarterFlat, .quarterSharp,
    .threeQuartersFlat, .threeQuartersSharp, .sharpDown, .sharpUp, .naturalDown, .naturalUp, .flatDown, .flatUp, .tripleSharp,
    .tripleFlat, .slashQuarterSharp, .slashSharp, .slashFlat, .doubleSlashFlat, .sharp1, .sharp2, .sharp3, .sharp5, .flat1, .flat2,
    .flat3, .flat4, .sori, .koron]

/-- `Converter::clefMap`, private/mx/impl/Converter.cpp 123-132, defaults 1504 and 1498. -/
def clefMap : ConvMap Core.ClefSign Api.ClefSymbol where
  rows := [
    (.c, .c), (.f, .f), (.g, .g), (.jianpu, .jianpu), (.none, .none), (.percussion, .percussion), (.tab, .tab)]
  defaultApi := .none
  defaultCore := .g
  order := [.g, .f, .c, .percussion, .tab, .jianpu, .none]

/-- `Converter::placementMap`, private/mx/impl/Converter.cpp 135-139, defaults 1510 and 1516. -/
def placementMap : ConvMap Core.AboveBelow Api.Placement where
  rows := [
    (.above, .above), (.below, .below)]
  defaultApi := .unspecified
  defaultCore := .below
  order := [.above, .below]

/-- `Converter::boolMap`, private/mx/impl/Converter.cpp 142-146, defaults 1522 and 1528. -/
def boolMap : ConvMap Core.YesNo Api.Bool where
  rows := [
    (.yes, .yes), (.no, .no)]
  defaultApi := .unspecified
  defaultCore := .no
  order := [.yes, .no]

/-- `Converter::valignMap`, private/mx/impl/Converter.cpp 149-155, defaults 1534 and 1540. -/
def valignMap : ConvMap Core.Valign Api.VerticalAlignment where
  rows := [
    (.baseline, .baseline), (.bottom, .bottom), (.middle, .middle), (.top, .top)]
  defaultApi := .unspecified
  defaultCore := .baseline
  order := [.top, .middle, .bottom, .baseline]

/-- `Converter::halignMap`, private/mx/impl/Converter.cpp 158-163, defaults 1546 and 1552. -/
def halignMap : ConvMap Core.LeftCenterRight Api.HorizontalAlignment where
  rows := [
    (.left, .left), (.center, .center), (.right, .right)]
  defaultApi := .unspecified
  defaultCore := .left
  order := [.left, .center, .right]

/-- `Converter::cssMap`, private/mx/impl/Converter.cpp 166-175, defaults 1564 and 1558. -/
def cssMap : ConvMap Core.CssFontSize Api.CssSize where
  rows := [
    (.xxSmall, .xxSmall), (.xSmall, .xSmall), (.small, .small), (.medium, .medium), (.large, .large), (.xLarge, .xLarge), (.xxLarge, .xxLarge)]
  defaultApi := .unspecified
  defaultCore := .medium
  order := [.xxSmall, .xSmall, .small, .medium, .large, .xLarge, .xxLarge]

/-- `Converter::articulationsMap`, private/mx/impl/Converter.cpp 178-196, defaults 1600 and 1594. -/
def articulationsMap : ConvMap Core.ArticulationsChoice Api.MarkType where
  rows := [
    (.accent, .accent), (.strongAccent, .strongAccent), (.staccato, .staccato), (.tenuto, .tenuto), (.detachedLegato, .detachedLegato),
    (.staccatissimo, .staccatissimo), (.spiccato, .spiccato), (.scoop, .scoop), (.plop, .plop), (.doit, .doit), (.falloff, .falloff),
    (.breathMark, .breathMark), (.caesura, .caesura), (.stress, .stress), (.unstress, .unstress), (.otherArticulation, .otherArticulation)]
  defaultApi := .unspecified
  defaultCore := .otherArticulation
  order := [.accent, .strongAccent, .staccato, .tenuto, .detachedLegato, .staccatissimo, .spiccato, .scoop, .plop, .doit, .falloff, .breathMark,
    .caesura, .stress, .unstress, .otherArticulation]

/-- `Converter::dynamicsMap`, private/mx/impl/Converter.cpp 199-225, defaults 1633 and 1627. -/
def dynamicsMap : ConvMap Core.DynamicsEnum Api.MarkType where
  rows := [
    (.p, .p), (.pp, .pp), (.ppp, .ppp), (.pppp, .pppp), (.ppppp, .ppppp), (.pppppp, .pppppp), (.f, .f), (.ff, .ff), (.fff, .fff), (.ffff, .ffff),
    (.fffff, .fffff), (.ffffff, .ffffff), (.mp, .mp), (.mf, .mf), (.sf, .sf), (.sfp, .sfp), (.sfpp, .sfpp), (.fp, .fp), (.rf, .rf), (.rfz, .rfz),
    (.sfz, .sfz), (.sffz, .sffz), (.fz, .fz), (.otherDynamics, .otherDynamics)]
  defaultApi := .unspecified
  defaultCore := .otherDynamics
  order := [.p, .pp, .ppp, .pppp, .ppppp, .pppppp, .f, .ff, .fff, .ffff, .fffff, .ffffff, .mp, .mf, .sf, .sfp, .sfpp, .fp, .rf, .rfz, .sfz, .sffz, .fz,
    .otherDynamics]

/-- `Converter::ornamentsMap`, private/mx/impl/Converter.cpp 228-243, defaults 1645 and 1639. -/
def ornamentsMap : ConvMap Core.OrnamentsChoice Api.MarkType where
  rows := [
    (.trillMark, .trillMark), (.turn, .turn), (.delayedTurn, .delayedTurn), (.invertedTurn, .invertedTurn),
    (.delayedInvertedTurn, .delayedInvertedTurn), (.verticalTurn, .verticalTurn), (.shake, .shake), (.wavyLine, .wavyLine), (.mordent, .mordent),
    (.invertedMordent, .invertedMordent), (.schleifer, .schleifer), (.tremolo, .tremoloSingleThree), (.otherOrnament, .otherOrnament)]
  defaultApi := .unspecified
  defaultCore := .otherOrnament
  order := [.trillMark, .turn, .delayedTurn, .invertedTurn, .delayedInvertedTurn, .verticalTurn, .shake, .wavyLine, .mordent, .invertedMordent,
    .schleifer, .tremolo, .otherOrnament]

/-- `Converter::accidentalMarkMap`, private/mx/impl/Converter.cpp 246-282, defaults 1657 and 1651. -/
def accidentalMarkMap : ConvMap Core.AccidentalValue Api.MarkType where
  rows := [
    (.sharp, .accidentalMarkSharp), (.natural, .accidentalMarkNatural), (.flat, .accidentalMarkFlat), (.doubleSharp, .accidentalMarkDoubleSharp),
    (.sharpSharp, .accidentalMarkSharpSharp), (.flatFlat, .accidentalMarkFlatFlat), (.naturalSharp, .accidentalMarkNaturalSharp),
    (.naturalFlat, .accidentalMarkNaturalFlat), (.quarterFlat, .accidentalMarkQuarterFlat), (.quarterSharp, .accidentalMarkQuarterSharp),
    (.threeQuartersFlat, .accidentalMarkThreeQuartersFlat), (.threeQuartersSharp, .accidentalMarkThreeQuartersSharp),
    (.sharpDown, .accidentalMarkSharpDown), (.sharpUp, .accidentalMarkSharpUp), (.naturalDown, .accidentalMarkNaturalDown),
    (.naturalUp, .accidentalMarkNaturalUp), (.flatDown, .accidentalMarkFlatDown), (.flatUp, .accidentalMarkFlatUp),
    (.tripleSharp, .accidentalMarkTripleSharp), (.tripleFlat, .accidentalMarkTripleFlat), (.slashQuarterSharp, .accidentalMarkSlashQuarterSharp),
    (.slashSharp, .accidentalMarkSlashSharp), (.slashFlat, .accidentalMarkSlashFlat), (.doubleSlashFlat, .accidentalMarkDoubleSlashFlat),
    (.sharp1, .accidentalMarkSharp1), (.sharp2, .accidentalMarkSharp2), (.sharp3, .accidentalMarkSharp3), (.sharp5, .accidentalMarkSharp5),
    (.flat1, .accidentalMarkFlat1), (.flat2, .accidentalMarkFlat2), (.flat3, .accidentalMarkFlat3), (.flat4, .accidentalMarkFlat4),
    (.sori, .accidentalMarkSori), (.koron, .accidentalMarkKoron)]
  defaultApi := .unspecified
  defaultCore := .natural
  order := [.sharp, .natural, .flat, .doubleSharp, .sharpSharp, .flatFlat, .naturalSharp, .naturalFlat, .quarterFlat, .quarterSharp,
    .threeQuartersFlat, .threeQuartersSharp, .sharpDown, .sharpUp, .naturalDown, .naturalUp, .flatDown, .flatUp, .tripleSharp,
    .tripleFlat, .slashQuarterSharp, .slashSharp, .slashFlat, .doubleSlashFlat, .sharp1, .sharp2, .sharp3, .sharp5, .flat1, .flat2,
    .flat3, .flat4, .sori, .koron]

/-- `Converter::fontStyleMap`, private/mx/impl/Converter.cpp 285-289, defaults 1576 and 1570. -/
def fontStyleMap : ConvMap Core.FontStyle Api.FontStyle where
  rows := [
    (.normal, .normal), (.italic, .italic)]
  defaultApi := .unspecified
  defaultCore := .normal
  order := [.normal, .italic]

/-- `Converter::fontWeightMap`, private/mx/impl/Converter.cpp 292-296, defaults 1588 and 1582. -/
def fontWeightMap : ConvMap Core.FontWeight Api.FontWeight where
  rows := [
    (.normal, .normal), (.bold, .bold)]
  defaultApi := .unspecified
  defaultCore := .normal
  order := [.normal, .bold]

/-- `Converter::measureNumberingMap`, private/mx/impl/Converter.cpp 299-304, defaults 1681 and 1675. -/
def measureNumberingMap : ConvMap Core.MeasureNumberingValue Api.MeasureNumbering where
  rows := [
    (.measure, .measure), (.none, .none), (.system, .system)]
  defaultApi := .unspecified
  defaultCore := .none
  order := [.none, .measure, .system]

/-- `Converter::technicalMarkMap`, private/mx/impl/Converter.cpp 307-334, defaults 1669 and 1663. -/
def technicalMarkMap : ConvMap Core.TechnicalChoice Api.MarkType where
  rows := [
    (.upBow, .upBow), (.downBow, .downBow), (.harmonic, .harmonic), (.openString, .openString), (.thumbPosition, .thumbPosition),
    (.doubleTongue, .doubleTongue), (.tripleTongue, .tripleTongue), (.stopped, .stopped), (.snapPizzicato, .snapPizzicato), (.heel, .heel),
    (.toe, .toe), (.fingernails, .unspecified), (.otherTechnical, .otherTechnical)]
  defaultApi := .unspecified
  defaultCore := .otherTechnical
  order := [.upBow, .downBow, .harmonic, .openString, .thumbPosition, .fingering, .pluck, .doubleTongue, .tripleTongue, .stopped, .snapPizzicato,
    .fret, .string_, .hammerOn, .pullOff, .bend, .tap, .heel, .toe, .fingernails, .hole, .arrow, .handbell, .otherTechnical]

/-- `Converter::stemMap`, private/mx/impl/Converter.cpp 337-343, defaults 1693 and 1687. -/
def stemMap : ConvMap Core.StemValue Api.Stem where
  rows := [
    (.up, .up), (.down, .down), (.none, .none), (.double_, .both)]
  defaultApi := .unspecified
  defaultCore := .up
  order := [.down, .up, .double_, .none]

/-- `Converter::lineType`, private/mx/impl/Converter.cpp 346-352, defaults 1705 and 1699. -/
def lineType : ConvMap Core.LineType Api.LineType where
  rows := [
    (.dashed, .dashed), (.dotted, .dotted), (.solid, .solid), (.wavy, .wavy)]
  defaultApi := .unspecified
  defaultCore := .solid
  order := [.solid, .dashed, .dotted, .wavy]

/-- `Converter::wedgeMap`, private/mx/impl/Converter.cpp 355-359, defaults 1717 and 1711. -/
def wedgeMap : ConvMap Core.WedgeType Api.WedgeType where
  rows := [
    (.crescendo, .crescendo), (.diminuendo, .diminuendo)]
  defaultApi := .unspecified
  defaultCore := .continue_
  order := [.crescendo, .diminuendo, .stop, .continue_]

/-- `Converter::barlineMap`, private/mx/impl/Converter.cpp 362-375, defaults 1736 and 1724. -/
def barlineMap : ConvMap Core.BarStyleEnum Api.BarlineType where
  rows := [
    (.regular, .normal), (.dotted, .dotted), (.dashed, .dashed), (.heavy, .heavy), (.lightLight, .lightLight), (.lightHeavy, .lightHeavy),
    (.heavyLight, .heavyLight), (.heavyHeavy, .heavyHeavy), (.tick, .unsupported), (.short_, .unsupported), (.none, .none)]
  defaultApi := .unsupported
  defaultCore := .regular
  order := [.regular, .dotted, .dashed, .heavy, .lightLight, .lightHeavy, .heavyLight, .heavyHeavy, .tick, .short_, .none]

/-- `Converter::lineStopMap`, private/mx/impl/Converter.cpp 378-385, defaults 1760 and 1754. -/
def lineStopMap : ConvMap Core.LineEnd Api.LineHook where
  rows := [
    (.arrow, .arrow), (.both, .both), (.down, .down), (.up, .up), (.none, .none)]
  defaultApi := .unspecified
  defaultCore := .none
  order := [.up, .down, .both, .arrow, .none]

/-- `Converter::bracketMap`, private/mx/impl/Converter.cpp 388-395, defaults 1772 and 1766. -/
def bracketMap : ConvMap Core.GroupSymbolValue Api.BracketType where
  rows := [
    (.brace, .brace), (.bracket, .bracket), (.line, .line), (.none, .none), (.square, .square)]
  defaultApi := .unspecified
  defaultCore := .none
  order := [.none, .brace, .line, .bracket, .square]

/-- `Converter::barlinePlacementMap`, private/mx/impl/Converter.cpp 398-403, defaults 1748 and 1742. -/
def barlinePlacementMap : ConvMap Core.RightLeftMiddle Api.HorizontalAlignment where
  rows := [
    (.right, .right), (.left, .left), (.middle, .center)]
  defaultApi := .unspecified
  defaultCore := .right
  order := [.right, .left, .middle]

/-- `Converter::fermataMap`, private/mx/impl/Converter.cpp 414-420, defaults 1784 and 1778. -/
def fermataMap : ConvMap Core.FermataShape Api.MarkType where
  rows := [
    (.normal, .fermataNormal), (.angled, .fermataAngled), (.square, .fermataSquare), (.emptystring, .fermata)]
  defaultApi := .unspecified
  defaultCore := .emptystring
  order := [.normal, .angled, .square, .emptystring]

/-- `Converter::kindMap`, private/mx/impl/Converter.cpp 1314-1349, defaults 1808 and 1802. -/
def kindMap : ConvMap Core.KindValue Api.ChordKind where
  rows := [
    (.major, .major), (.minor, .minor), (.augmented, .augmented), (.diminished, .diminished), (.dominant, .dominant),
    (.majorSeventh, .majorSeventh), (.minorSeventh, .minorSeventh), (.diminishedSeventh, .diminishedSeventh),
    (.augmentedSeventh, .augmentedSeventh), (.halfDiminished, .halfDiminished), (.majorMinor, .majorMinor), (.majorSixth, .majorSixth),
    (.minorSixth, .minorSixth), (.dominantNinth, .dominantNinth), (.majorNinth, .majorNinth), (.minorNinth, .minorNinth),
    (.dominant11th, .dominant11Th), (.major11th, .major11Th), (.minor11th, .minor11Th), (.dominant13th, .dominant13Th), (.major13th, .major13Th),
    (.minor13th, .minor13Th), (.suspendedSecond, .suspendedSecond), (.suspendedFourth, .suspendedFourth), (.neapolitan, .neapolitan),
    (.italian, .italian), (.french, .french), (.german, .german), (.pedal, .pedal), (.power, .power), (.tristan, .tristan), (.other, .other),
    (.none, .none)]
  defaultApi := .unspecified
  defaultCore := .none
  order := [.major, .minor, .augmented, .diminished, .dominant, .majorSeventh, .minorSeventh, .diminishedSeventh, .augmentedSeventh, .halfDiminished,
    .majorMinor, .majorSixth, .minorSixth, .dominantNinth, .majorNinth, .minorNinth, .dominant11th, .major11th, .minor11th, .dominant13th,
    .major13th, .minor13th, .suspendedSecond, .suspendedFourth, .neapolitan, .italian, .french, .german, .pedal, .power, .tristan, .other,
    .none]

/-- The maps. -/
inductive MapName where
  | stepMap
  | durationMap
  | noteheadMap
  | beamMap
  | accidentalMap
  | clefMap
  | placementMap
  | boolMap
  | valignMap
  | halignMap
  | cssMap
  | articulationsMap
  | dynamicsMap
  | ornamentsMap
  | accidentalMarkMap
  | fontStyleMap
  | fontWeightMap
  | measureNumberingMap
  | technicalMarkMap
  | stemMap
  | lineType
  | wedgeMap
  | barlineMap
  | lineStopMap
  | bracketMap
  | barlinePlacementMap
  | fermataMap
  | kindMap
deriving Repr, DecidableEq

namespace MapName

/-- The core enumeration of a map. -/
@[reducible] def CoreType : MapName → Type
  | .stepMap => Core.StepEnum
  | .durationMap => Core.NoteTypeValue
  | .noteheadMap => Core.NoteheadValue
  | .beamMap => Core.BeamValue
  | .accidentalMap => Core.AccidentalValue
  | .clefMap => Core.ClefSign
  | .placementMap => Core.AboveBelow
  | .boolMap => Core.YesNo
  | .valignMap => Core.Valign
  | .halignMap => Core.LeftCenterRight
  | .cssMap => Core.CssFontSize
  | .articulationsMap => Core.ArticulationsChoice
  | .dynamicsMap => Core.DynamicsEnum
  | .ornamentsMap => Core.OrnamentsChoice
  | .accidentalMarkMap => Core.AccidentalValue
  | .fontStyleMap => Core.FontStyle
  | .fontWeightMap => Core.FontWeight
  | .measureNumberingMap => Core.MeasureNumberingValue
  | .technicalMarkMap => Core.TechnicalChoice
  | .stemMap => Core.StemValue
  | .lineType => Core.LineType
  | .wedgeMap => Core.WedgeType
  | .barlineMap => Core.BarStyleEnum
  | .lineStopMap => Core.LineEnd
  | .bracketMap => Core.GroupSymbolValue
  | .barlinePlacementMap => Core.RightLeftMiddle
  | .fermataMap => Core.FermataShape
  | .kindMap => Core.KindValue

/-- The api enumeration of a map. -/
@[reducible] def ApiType : MapName → Type
  | .stepMap => Api.Step
  | .durationMap => Api.DurationName
  | .noteheadMap => Api.Notehead
  | .beamMap => Api.Beam
  | .accidentalMap => Api.Accidental
  | .clefMap => Api.ClefSymbol
  | .placementMap => Api.Placement
  | .boolMap => Api.Bool
  | .valignMap => Api.VerticalAlignment
  | .halignMap => Api.HorizontalAlignment
  | .cssMap => Api.CssSize
  | .articulationsMap => Api.MarkType
  | .dynamicsMap => Api.MarkType
  | .ornamentsMap => Api.MarkType
  | .accidentalMarkMap => Api.MarkType
  | .fontStyleMap => Api.FontStyle
  | .fontWeightMap => Api.FontWeight
  | .measureNumberingMap => Api.MeasureNumbering
  | .technicalMarkMap => Api.MarkType
  | .stemMap => Api.Stem
  | .lineType => Api.LineType
  | .wedgeMap => Api.WedgeType
  | .barlineMap => Api.BarlineType
  | .lineStopMap => Api.LineHook
  | .bracketMap => Api.BracketType
  | .barlinePlacementMap => Api.HorizontalAlignment
  | .fermataMap => Api.MarkType
  | .kindMap => Api.ChordKind

instance decCore : (n : MapName) → DecidableEq n.CoreType
  | .stepMap => (inferInstance : DecidableEq Core.StepEnum)
  | .durationMap => (inferInstance : DecidableEq Core.NoteTypeValue)
  | .noteheadMap => (inferInstance : DecidableEq Core.NoteheadValue)
  | .beamMap => (inferInstance : DecidableEq Core.BeamValue)
  | .accidentalMap => (inferInstance : DecidableEq Core.AccidentalValue)
  | .clefMap => (inferInstance : DecidableEq Core.ClefSign)
  | .placementMap => (inferInstance : DecidableEq Core.AboveBelow)
  | .boolMap => (inferInstance : DecidableEq Core.YesNo)
  | .valignMap => (inferInstance : DecidableEq Core.Valign)
  | .halignMap => (inferInstance : DecidableEq Core.LeftCenterRight)
  | .cssMap => (inferInstance : DecidableEq Core.CssFontSize)
  | .articulationsMap => (inferInstance : DecidableEq Core.ArticulationsChoice)
  | .dynamicsMap => (inferInstance : DecidableEq Core.DynamicsEnum)
  | .ornamentsMap => (inferInstance : DecidableEq Core.OrnamentsChoice)
  | .accidentalMarkMap => (inferInstance : DecidableEq Core.AccidentalValue)
  | .fontStyleMap => (inferInstance : DecidableEq Core.FontStyle)
  | .fontWeightMap => (inferInstance : DecidableEq Core.FontWeight)
  | .measureNumberingMap => (inferInstance : DecidableEq Core.MeasureNumberingValue)
  | .technicalMarkMap => (inferInstance : DecidableEq Core.TechnicalChoice)
  | .stemMap => (inferInstance : DecidableEq Core.StemValue)
  | .lineType => (inferInstance : DecidableEq Core.LineType)
  | .wedgeMap => (inferInstance : DecidableEq Core.WedgeType)
  | .barlineMap => (inferInstance : DecidableEq Core.BarStyleEnum)
  | .lineStopMap => (inferInstance : DecidableEq Core.LineEnd)
  | .bracketMap => (inferInstance : DecidableEq Core.GroupSymbolValue)
  | .barlinePlacementMap => (inferInstance : DecidableEq Core.RightLeftMiddle)
  | .fermataMap => (inferInstance : DecidableEq Core.FermataShape)
  | .kindMap => (inferInstance : DecidableEq Core.KindValue)

instance decApi : (n : MapName) → DecidableEq n.ApiType
  | .stepMap => (inferInstance : DecidableEq Api.Step)
  | .durationMap => (inferInstance : DecidableEq Api.DurationName)
  | .noteheadMap => (inferInstance : DecidableEq Api.Notehead)
  | .beamMap => (inferInstance : DecidableEq Api.Beam)
  | .accidentalMap => (inferInstance : DecidableEq Api.Accidental)
  | .clefMap => (inferInstance : DecidableEq Api.ClefSymbol)
  | .placementMap => (inferInstance : DecidableEq Api.Placement)
  | .boolMap => (inferInstance : DecidableEq Api.Bool)
  | .valignMap => (inferInstance : DecidableEq Api.VerticalAlignment)
  | .halignMap => (inferInstance : DecidableEq Api.HorizontalAlignment)
  | .cssMap => (inferInstance : DecidableEq Api.CssSize)
  | .articulationsMap => (inferInstance : DecidableEq Api.MarkType)
  | .dynamicsMap => (inferInstance : DecidableEq Api.MarkType)
  | .ornamentsMap => (inferInstance : DecidableEq Api.MarkType)
  | .accidentalMarkMap => (inferInstance : DecidableEq Api.MarkType)
  | .fontStyleMap => (inferInstance : DecidableEq Api.FontStyle)
  | .fontWeightMap => (inferInstance : DecidableEq Api.FontWeight)
  | .measureNumberingMap => (inferInstance : DecidableEq Api.MeasureNumbering)
  | .technicalMarkMap => (inferInstance : DecidableEq Api.MarkType)
  | .stemMap => (inferInstance : DecidableEq Api.Stem)
  | .lineType => (inferInstance : DecidableEq Api.LineType)
  | .wedgeMap => (inferInstance : DecidableEq Api.WedgeType)
  | .barlineMap => (inferInstance : DecidableEq Api.BarlineType)
  | .lineStopMap => (inferInstance : DecidableEq Api.LineHook)
  | .bracketMap => (inferInstance : DecidableEq Api.BracketType)
  | .barlinePlacementMap => (inferInstance : DecidableEq Api.HorizontalAlignment)
  | .fermataMap => (inferInstance : DecidableEq Api.MarkType)
  | .kindMap => (inferInstance : DecidableEq Api.ChordKind)

/-- The map named. -/
def map : (n : MapName) → ConvMap n.CoreType n.ApiType
  | .stepMap => Mx.stepMap
  | .durationMap => Mx.durationMap
  | .noteheadMap => Mx.noteheadMap
  | .beamMap => Mx.beamMap
  | .accidentalMap => Mx.accidentalMap
  | .clefMap => Mx.clefMap
  | .placementMap => Mx.placementMap
  | .boolMap => Mx.boolMap
  | .valignMap => Mx.valignMap
  | .halignMap => Mx.halignMap
  | .cssMap => Mx.cssMap
  | .articulationsMap => Mx.articulationsMap
  | .dynamicsMap => Mx.dynamicsMap
  | .ornamentsMap => Mx.ornamentsMap
  | .accidentalMarkMap => Mx.accidentalMarkMap
  | .fontStyleMap => Mx.fontStyleMap
  | .fontWeightMap => Mx.fontWeightMap
  | .measureNumberingMap => Mx.measureNumberingMap
  | .technicalMarkMap => Mx.technicalMarkMap
  | .stemMap => Mx.stemMap
  | .lineType => Mx.lineType
  | .wedgeMap => Mx.wedgeMap
  | .barlineMap => Mx.barlineMap
  | .lineStopMap => Mx.lineStopMap
  | .bracketMap => Mx.bracketMap
  | .barlinePlacementMap => Mx.barlinePlacementMap
  | .fermataMap => Mx.fermataMap
  | .kindMap => Mx.kindMap

/-- Core to api. -/
def toApi (n : MapName) (c : n.CoreType) : n.ApiType := n.map.toApi c

/-- Api to core. -/
def toCore (n : MapName) (a : n.ApiType) : n.CoreType := n.map.toCore a

end MapName

end Mx
