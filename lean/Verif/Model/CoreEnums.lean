import Verif.Model.StringEnum

/-
GENERATED by a script from private/mx/core/Enums.h, Enums.cpp, EnumsBuiltin.cpp: the enumerators, the rows of each `tryParseX`
chain in order, the rows of each `toString` switch.  Each definition cites the lines it was copied from.
-/
namespace Mx.Core

/-- `enum class AboveBelow`, private/mx/core/Enums.h 22-26. -/
inductive AboveBelow where
  | above | below
deriving Repr, DecidableEq

/-- The chain of `tryParseAboveBelow` (or `parseAboveBelow`), the switch of `toString` and the default of `parseAboveBelow`, private/mx/core/Enums.cpp 17-39. -/
instance : StringEnum AboveBelow where
  chain := [
    (chars "above", .above), (chars "below", .below)]
  toStr
    | .above => chars "above"
    | .below => chars "below"
  fallback := .above

/-- `enum class AccidentalValue`, private/mx/core/Enums.h 46-82. -/
inductive AccidentalValue where
  | sharp | natural | flat | doubleSharp | sharpSharp | flatFlat | naturalSharp | naturalFlat | quarterFlat | quarterSharp | threeQuartersFlat
  | threeQuartersSharp | sharpDown | sharpUp | naturalDown | naturalUp | flatDown | flatUp | tripleSharp | tripleFlat | slashQuarterSharp
  | slashSharp | slashFlat | doubleSlashFlat | sharp1 | sharp2 | sharp3 | sharp5 | flat1 | flat2 | flat3 | flat4 | sori | koron
deriving Repr, DecidableEq

/-- The chain of `tryParseAccidentalValue` (or `parseAccidentalValue`), the switch of `toString` and the default of `parseAccidentalValue`, private/mx/core/Enums.cpp 53-139. -/
instance : StringEnum AccidentalValue where
  chain := [
    (chars "sharp", .sharp), (chars "natural", .natural), (chars "flat", .flat), (chars "double-sharp", .doubleSharp),
    (chars "sharp-sharp", .sharpSharp), (chars "flat-flat", .flatFlat), (chars "natural-sharp", .naturalSharp), (chars "natural-flat", .naturalFlat),
    (chars "quarter-flat", .quarterFlat), (chars "quarter-sharp", .quarterSharp), (chars "three-quarters-flat", .threeQuartersFlat),
    (chars "three-quarters-sharp", .threeQuartersSharp), (chars "sharp-down", .sharpDown), (chars "sharp-up", .sharpUp),
    (chars "natural-down", .naturalDown), (chars "natural-up", .naturalUp), (chars "flat-down", .flatDown), (chars "flat-up", .flatUp),
    (chars "triple-sharp", .tripleSharp), (chars "triple-flat", .tripleFlat), (chars "slash-quarter-sharp", .slashQuarterSharp),
    (chars "slash-sharp", .slashSharp), (chars "slash-flat", .slashFlat), (chars "double-slash-flat", .doubleSlashFlat), (chars "sharp-1", .sharp1),
    (chars "sharp-2", .sharp2), (chars "sharp-3", .sharp3), (chars "sharp-5", .sharp5), (chars "flat-1", .flat1), (chars "flat-2", .flat2),
    (chars "flat-3", .flat3), (chars "flat-4", .flat4), (chars "sori", .sori), (chars "koron", .koron)]
  toStr
    | .sharp => chars "sharp"
    | .natural => chars "natural"
    | .flat => chars "flat"
    | .doubleSharp => chars "double-sharp"
    | .sharpSharp => chars "sharp-sharp"
    | .flatFlat => chars "flat-flat"
    | .naturalSharp => chars "natural-sharp"
    | .naturalFlat => chars "natural-flat"
    | .quarterFlat => chars "quarter-flat"
    | .quarterSharp => chars "quarter-sharp"
    | .threeQuartersFlat => chars "three-quarters-flat"
    | .threeQuartersSharp => chars "three-quarters-sharp"
    | .sharpDown => chars "sharp-down"
    | .sharpUp => chars "sharp-up"
    | .naturalDown => chars "natural-down"
    | .naturalUp => chars "natural-up"
    | .flatDown => chars "flat-down"
    | .flatUp => chars "flat-up"
    | .tripleSharp => chars "triple-sharp"
    | .tripleFlat => chars "triple-flat"
    | .slashQuarterSharp => chars "slash-quarter-sharp"
    | .slashSharp => chars "slash-sharp"
    | .slashFlat => chars "slash-flat"
    | .doubleSlashFlat => chars "double-slash-flat"
    | .sharp1 => chars "sharp-1"
    | .sharp2 => chars "sharp-2"
    | .sharp3 => chars "sharp-3"
    | .sharp5 => chars "sharp-5"
    | .flat1 => chars "flat-1"
    | .flat2 => chars "flat-2"
    | .flat3 => chars "flat-3"
    | .flat4 => chars "flat-4"
    | .sori => chars "sori"
    | .koron => chars "koron"
  fallback := .sharp

/-- `enum class ArrowDirectionEnum`, private/mx/core/Enums.h 95-110. -/
inductive ArrowDirectionEnum where
  | left | up | right | down | northwest | northeast | southeast | southwest | leftRight | upDown | northwestSoutheast | northeastSouthwest
  | other
deriving Repr, DecidableEq

/-- The chain of `tryParseArrowDirectionEnum` (or `parseArrowDirectionEnum`), the switch of `toString` and the default of `parseArrowDirectionEnum`, private/mx/core/Enums.cpp 153-197. -/
instance : StringEnum ArrowDirectionEnum where
  chain := [
    (chars "left", .left), (chars "up", .up), (chars "right", .right), (chars "down", .down), (chars "northwest", .northwest),
    (chars "northeast", .northeast), (chars "southeast", .southeast), (chars "southwest", .southwest), (chars "left right", .leftRight),
    (chars "up down", .upDown), (chars "northwest southeast", .northwestSoutheast), (chars "northeast southwest", .northeastSouthwest),
    (chars "other", .other)]
  toStr
    | .left => chars "left"
    | .up => chars "up"
    | .right => chars "right"
    | .down => chars "down"
    | .northwest => chars "northwest"
    | .northeast => chars "northeast"
    | .southeast => chars "southeast"
    | .southwest => chars "southwest"
    | .leftRight => chars "left right"
    | .upDown => chars "up down"
    | .northwestSoutheast => chars "northwest southeast"
    | .northeastSouthwest => chars "northeast southwest"
    | .other => chars "other"
  fallback := .left

/-- `enum class ArrowStyleEnum`, private/mx/core/Enums.h 126-135. -/
inductive ArrowStyleEnum where
  | single | double_ | filled | hollow | paired | combined | other
deriving Repr, DecidableEq

/-- The chain of `tryParseArrowStyleEnum` (or `parseArrowStyleEnum`), the switch of `toString` and the default of `parseArrowStyleEnum`, private/mx/core/Enums.cpp 211-243. -/
instance : StringEnum ArrowStyleEnum where
  chain := [
    (chars "single", .single), (chars "double", .double_), (chars "filled", .filled), (chars "hollow", .hollow), (chars "paired", .paired),
    (chars "combined", .combined), (chars "other", .other)]
  toStr
    | .single => chars "single"
    | .double_ => chars "double"
    | .filled => chars "filled"
    | .hollow => chars "hollow"
    | .paired => chars "paired"
    | .combined => chars "combined"
    | .other => chars "other"
  fallback := .single

/-- `enum class BackwardForward`, private/mx/core/Enums.h 148-152. -/
inductive BackwardForward where
  | backward | forward
deriving Repr, DecidableEq

/-- The chain of `tryParseBackwardForward` (or `parseBackwardForward`), the switch of `toString` and the default of `parseBackwardForward`, private/mx/core/Enums.cpp 257-279. -/
instance : StringEnum BackwardForward where
  chain := [
    (chars "backward", .backward), (chars "forward", .forward)]
  toStr
    | .backward => chars "backward"
    | .forward => chars "forward"
  fallback := .backward

/-- `enum class BarStyleEnum`, private/mx/core/Enums.h 167-180. -/
inductive BarStyleEnum where
  | regular | dotted | dashed | heavy | lightLight | lightHeavy | heavyLight | heavyHeavy | tick | short_ | none
deriving Repr, DecidableEq

/-- The chain of `tryParseBarStyleEnum` (or `parseBarStyleEnum`), the switch of `toString` and the default of `parseBarStyleEnum`, private/mx/core/Enums.cpp 293-333. -/
instance : StringEnum BarStyleEnum where
  chain := [
    (chars "regular", .regular), (chars "dotted", .dotted), (chars "dashed", .dashed), (chars "heavy", .heavy), (chars "light-light", .lightLight),
    (chars "light-heavy", .lightHeavy), (chars "heavy-light", .heavyLight), (chars "heavy-heavy", .heavyHeavy), (chars "tick", .tick),
    (chars "short", .short_), (chars "none", .none)]
  toStr
    | .regular => chars "regular"
    | .dotted => chars "dotted"
    | .dashed => chars "dashed"
    | .heavy => chars "heavy"
    | .lightLight => chars "light-light"
    | .lightHeavy => chars "light-heavy"
    | .heavyLight => chars "heavy-light"
    | .heavyHeavy => chars "heavy-heavy"
    | .tick => chars "tick"
    | .short_ => chars "short"
    | .none => chars "none"
  fallback := .regular

/-- `enum class BeamValue`, private/mx/core/Enums.h 193-200. -/
inductive BeamValue where
  | begin | continue_ | «end» | forwardHook | backwardHook
deriving Repr, DecidableEq

/-- The chain of `tryParseBeamValue` (or `parseBeamValue`), the switch of `toString` and the default of `parseBeamValue`, private/mx/core/Enums.cpp 347-375. -/
instance : StringEnum BeamValue where
  chain := [
    (chars "begin", .begin), (chars "continue", .continue_), (chars "end", .«end»), (chars "forward hook", .forwardHook),
    (chars "backward hook", .backwardHook)]
  toStr
    | .begin => chars "begin"
    | .continue_ => chars "continue"
    | .«end» => chars "end"
    | .forwardHook => chars "forward hook"
    | .backwardHook => chars "backward hook"
  fallback := .begin

/-- `enum class BeaterValue`, private/mx/core/Enums.h 214-233. -/
inductive BeaterValue where
  | bow | chimeHammer | coin | finger | fingernail | fist | guiroScraper | hammer | hand | jazzStick | knittingNeedle | metalHammer
  | snareStick | spoonMallet | triangleBeater | triangleBeaterPlain | wireBrush
deriving Repr, DecidableEq

/-- The chain of `tryParseBeaterValue` (or `parseBeaterValue`), the switch of `toString` and the default of `parseBeaterValue`, private/mx/core/Enums.cpp 389-441. -/
instance : StringEnum BeaterValue where
  chain := [
    (chars "bow", .bow), (chars "chime hammer", .chimeHammer), (chars "coin", .coin), (chars "finger", .finger), (chars "fingernail", .fingernail),
    (chars "fist", .fist), (chars "guiro scraper", .guiroScraper), (chars "hammer", .hammer), (chars "hand", .hand),
    (chars "jazz stick", .jazzStick), (chars "knitting needle", .knittingNeedle), (chars "metal hammer", .metalHammer),
    (chars "snare stick", .snareStick), (chars "spoon mallet", .spoonMallet), (chars "triangle beater", .triangleBeater),
    (chars "triangle beater plain", .triangleBeaterPlain), (chars "wire brush", .wireBrush)]
  toStr
    | .bow => chars "bow"
    | .chimeHammer => chars "chime hammer"
    | .coin => chars "coin"
    | .finger => chars "finger"
    | .fingernail => chars "fingernail"
    | .fist => chars "fist"
    | .guiroScraper => chars "guiro scraper"
    | .hammer => chars "hammer"
    | .hand => chars "hand"
    | .jazzStick => chars "jazz stick"
    | .knittingNeedle => chars "knitting needle"
    | .metalHammer => chars "metal hammer"
    | .snareStick => chars "snare stick"
    | .spoonMallet => chars "spoon mallet"
    | .triangleBeater => chars "triangle beater"
    | .triangleBeaterPlain => chars "triangle beater plain"
    | .wireBrush => chars "wire brush"
  fallback := .bow

/-- `enum class BreathMarkValue`, private/mx/core/Enums.h 245-250. -/
inductive BreathMarkValue where
  | emptystring | comma | tick
deriving Repr, DecidableEq

/-- The chain of `tryParseBreathMarkValue` (or `parseBreathMarkValue`), the switch of `toString` and the default of `parseBreathMarkValue`, private/mx/core/Enums.cpp 455-479. -/
instance : StringEnum BreathMarkValue where
  chain := [
    (chars "", .emptystring), (chars "comma", .comma), (chars "tick", .tick)]
  toStr
    | .emptystring => chars ""
    | .comma => chars "comma"
    | .tick => chars "tick"
  fallback := .emptystring

/-- `enum class CancelLocation`, private/mx/core/Enums.h 265-270. -/
inductive CancelLocation where
  | left | right | beforeBarline
deriving Repr, DecidableEq

/-- The chain of `tryParseCancelLocation` (or `parseCancelLocation`), the switch of `toString` and the default of `parseCancelLocation`, private/mx/core/Enums.cpp 493-517. -/
instance : StringEnum CancelLocation where
  chain := [
    (chars "left", .left), (chars "right", .right), (chars "before-barline", .beforeBarline)]
  toStr
    | .left => chars "left"
    | .right => chars "right"
    | .beforeBarline => chars "before-barline"
  fallback := .left

/-- `enum class CircularArrowEnum`, private/mx/core/Enums.h 283-287. -/
inductive CircularArrowEnum where
  | clockwise | anticlockwise
deriving Repr, DecidableEq

/-- The chain of `tryParseCircularArrowEnum` (or `parseCircularArrowEnum`), the switch of `toString` and the default of `parseCircularArrowEnum`, private/mx/core/Enums.cpp 531-553. -/
instance : StringEnum CircularArrowEnum where
  chain := [
    (chars "clockwise", .clockwise), (chars "anticlockwise", .anticlockwise)]
  toStr
    | .clockwise => chars "clockwise"
    | .anticlockwise => chars "anticlockwise"
  fallback := .clockwise

/-- `enum class ClefSign`, private/mx/core/Enums.h 302-311. -/
inductive ClefSign where
  | g | f | c | percussion | tab | jianpu | none
deriving Repr, DecidableEq

/-- The chain of `tryParseClefSign` (or `parseClefSign`), the switch of `toString` and the default of `parseClefSign`, private/mx/core/Enums.cpp 567-599. -/
instance : StringEnum ClefSign where
  chain := [
    (chars "G", .g), (chars "F", .f), (chars "C", .c), (chars "percussion", .percussion), (chars "TAB", .tab), (chars "jianpu", .jianpu),
    (chars "none", .none)]
  toStr
    | .g => chars "G"
    | .f => chars "F"
    | .c => chars "C"
    | .percussion => chars "percussion"
    | .tab => chars "TAB"
    | .jianpu => chars "jianpu"
    | .none => chars "none"
  fallback := .g

/-- `enum class CssFontSize`, private/mx/core/Enums.h 324-333. -/
inductive CssFontSize where
  | xxSmall | xSmall | small | medium | large | xLarge | xxLarge
deriving Repr, DecidableEq

/-- The chain of `tryParseCssFontSize` (or `parseCssFontSize`), the switch of `toString` and the default of `parseCssFontSize`, private/mx/core/Enums.cpp 613-645. -/
instance : StringEnum CssFontSize where
  chain := [
    (chars "xx-small", .xxSmall), (chars "x-small", .xSmall), (chars "small", .small), (chars "medium", .medium), (chars "large", .large),
    (chars "x-large", .xLarge), (chars "xx-large", .xxLarge)]
  toStr
    | .xxSmall => chars "xx-small"
    | .xSmall => chars "x-small"
    | .small => chars "small"
    | .medium => chars "medium"
    | .large => chars "large"
    | .xLarge => chars "x-large"
    | .xxLarge => chars "xx-large"
  fallback := .xxSmall

/-- `enum class DegreeSymbolValue`, private/mx/core/Enums.h 346-353. -/
inductive DegreeSymbolValue where
  | major | minor | augmented | diminished | halfDiminished
deriving Repr, DecidableEq

/-- The chain of `tryParseDegreeSymbolValue` (or `parseDegreeSymbolValue`), the switch of `toString` and the default of `parseDegreeSymbolValue`, private/mx/core/Enums.cpp 659-687. -/
instance : StringEnum DegreeSymbolValue where
  chain := [
    (chars "major", .major), (chars "minor", .minor), (chars "augmented", .augmented), (chars "diminished", .diminished),
    (chars "half-diminished", .halfDiminished)]
  toStr
    | .major => chars "major"
    | .minor => chars "minor"
    | .augmented => chars "augmented"
    | .diminished => chars "diminished"
    | .halfDiminished => chars "half-diminished"
  fallback := .major

/-- `enum class DegreeTypeValue`, private/mx/core/Enums.h 366-371. -/
inductive DegreeTypeValue where
  | add | alter | subtract
deriving Repr, DecidableEq

/-- The chain of `tryParseDegreeTypeValue` (or `parseDegreeTypeValue`), the switch of `toString` and the default of `parseDegreeTypeValue`, private/mx/core/Enums.cpp 701-725. -/
instance : StringEnum DegreeTypeValue where
  chain := [
    (chars "add", .add), (chars "alter", .alter), (chars "subtract", .subtract)]
  toStr
    | .add => chars "add"
    | .alter => chars "alter"
    | .subtract => chars "subtract"
  fallback := .add

/-- `enum class DistanceTypeEnum`, private/mx/core/Enums.h 386-391. -/
inductive DistanceTypeEnum where
  | beam | hyphen | other
deriving Repr, DecidableEq

/-- The chain of `tryParseDistanceTypeEnum` (or `parseDistanceTypeEnum`), the switch of `toString` and the default of `parseDistanceTypeEnum`, private/mx/core/Enums.cpp 739-762. -/
instance : StringEnum DistanceTypeEnum where
  chain := [
    (chars "beam", .beam), (chars "hyphen", .hyphen), (chars "other", .other)]
  toStr
    | .beam => chars "beam"
    | .hyphen => chars "hyphen"
    | _ => chars "other"
  fallback := .beam

/-- `enum class DynamicsEnum`, private/mx/core/Enums.h 436-462. -/
inductive DynamicsEnum where
  | p | pp | ppp | pppp | ppppp | pppppp | f | ff | fff | ffff | fffff | ffffff | mp | mf | sf | sfp | sfpp | fp | rf | rfz | sfz | sffz
  | fz | otherDynamics
deriving Repr, DecidableEq

/-- The chain of `tryParseDynamicsEnum` (or `parseDynamicsEnum`), the switch of `toString` and the default of `parseDynamicsEnum`, private/mx/core/Enums.cpp 859-924. -/
instance : StringEnum DynamicsEnum where
  chain := [
    (chars "p", .p), (chars "pp", .pp), (chars "ppp", .ppp), (chars "pppp", .pppp), (chars "ppppp", .ppppp), (chars "pppppp", .pppppp),
    (chars "f", .f), (chars "ff", .ff), (chars "fff", .fff), (chars "ffff", .ffff), (chars "fffff", .fffff), (chars "ffffff", .ffffff),
    (chars "mp", .mp), (chars "mf", .mf), (chars "sf", .sf), (chars "sfp", .sfp), (chars "sfpp", .sfpp), (chars "fp", .fp), (chars "rf", .rf),
    (chars "rfz", .rfz), (chars "sfz", .sfz), (chars "sffz", .sffz), (chars "fz", .fz), (chars "other-dynamics", .otherDynamics)]
  toStr
    | .p => chars "p"
    | .pp => chars "pp"
    | .ppp => chars "ppp"
    | .pppp => chars "pppp"
    | .ppppp => chars "ppppp"
    | .pppppp => chars "pppppp"
    | .f => chars "f"
    | .ff => chars "ff"
    | .fff => chars "fff"
    | .ffff => chars "ffff"
    | .fffff => chars "fffff"
    | .ffffff => chars "ffffff"
    | .mp => chars "mp"
    | .mf => chars "mf"
    | .sf => chars "sf"
    | .sfp => chars "sfp"
    | .sfpp => chars "sfpp"
    | .fp => chars "fp"
    | .rf => chars "rf"
    | .rfz => chars "rfz"
    | .sfz => chars "sfz"
    | .sffz => chars "sffz"
    | .fz => chars "fz"
    | _ => chars "other-dynamics"
  fallback := .mf

/-- `enum class EffectEnum`, private/mx/core/Enums.h 495-511. -/
inductive EffectEnum where
  | anvil | autoHorn | birdWhistle | cannon | duckCall | gunShot | klaxonHorn | lionsRoar | policeWhistle | siren | slideWhistle | thunderSheet
  | windMachine | windWhistle
deriving Repr, DecidableEq

/-- The chain of `tryParseEffectEnum` (or `parseEffectEnum`), the switch of `toString` and the default of `parseEffectEnum`, private/mx/core/Enums.cpp 1021-1067. -/
instance : StringEnum EffectEnum where
  chain := [
    (chars "anvil", .anvil), (chars "auto horn", .autoHorn), (chars "bird whistle", .birdWhistle), (chars "cannon", .cannon),
    (chars "duck call", .duckCall), (chars "gun shot", .gunShot), (chars "klaxon horn", .klaxonHorn), (chars "lions roar", .lionsRoar),
    (chars "police whistle", .policeWhistle), (chars "siren", .siren), (chars "slide whistle", .slideWhistle),
    (chars "thunder sheet", .thunderSheet), (chars "wind machine", .windMachine), (chars "wind whistle", .windWhistle)]
  toStr
    | .anvil => chars "anvil"
    | .autoHorn => chars "auto horn"
    | .birdWhistle => chars "bird whistle"
    | .cannon => chars "cannon"
    | .duckCall => chars "duck call"
    | .gunShot => chars "gun shot"
    | .klaxonHorn => chars "klaxon horn"
    | .lionsRoar => chars "lions roar"
    | .policeWhistle => chars "police whistle"
    | .siren => chars "siren"
    | .slideWhistle => chars "slide whistle"
    | .thunderSheet => chars "thunder sheet"
    | .windMachine => chars "wind machine"
    | .windWhistle => chars "wind whistle"
  fallback := .anvil

/-- `enum class EnclosureShape`, private/mx/core/Enums.h 525-535. -/
inductive EnclosureShape where
  | rectangle | square | oval | circle | bracket | triangle | diamond | none
deriving Repr, DecidableEq

/-- The chain of `tryParseEnclosureShape` (or `parseEnclosureShape`), the switch of `toString` and the default of `parseEnclosureShape`, private/mx/core/Enums.cpp 1081-1115. -/
instance : StringEnum EnclosureShape where
  chain := [
    (chars "rectangle", .rectangle), (chars "square", .square), (chars "oval", .oval), (chars "circle", .circle), (chars "bracket", .bracket),
    (chars "triangle", .triangle), (chars "diamond", .diamond), (chars "none", .none)]
  toStr
    | .rectangle => chars "rectangle"
    | .square => chars "square"
    | .oval => chars "oval"
    | .circle => chars "circle"
    | .bracket => chars "bracket"
    | .triangle => chars "triangle"
    | .diamond => chars "diamond"
    | .none => chars "none"
  fallback := .rectangle

/-- `enum class Fan`, private/mx/core/Enums.h 548-553. -/
inductive Fan where
  | accel | rit | none
deriving Repr, DecidableEq

/-- The chain of `tryParseFan` (or `parseFan`), the switch of `toString` and the default of `parseFan`, private/mx/core/Enums.cpp 1129-1153. -/
instance : StringEnum Fan where
  chain := [
    (chars "accel", .accel), (chars "rit", .rit), (chars "none", .none)]
  toStr
    | .accel => chars "accel"
    | .rit => chars "rit"
    | .none => chars "none"
  fallback := .accel

/-- `enum class FermataShape`, private/mx/core/Enums.h 566-572. -/
inductive FermataShape where
  | normal | angled | square | emptystring
deriving Repr, DecidableEq

/-- The chain of `tryParseFermataShape` (or `parseFermataShape`), the switch of `toString` and the default of `parseFermataShape`, private/mx/core/Enums.cpp 1167-1193. -/
instance : StringEnum FermataShape where
  chain := [
    (chars "normal", .normal), (chars "angled", .angled), (chars "square", .square), (chars "", .emptystring)]
  toStr
    | .normal => chars "normal"
    | .angled => chars "angled"
    | .square => chars "square"
    | .emptystring => chars ""
  fallback := .normal

/-- `enum class FontStyle`, private/mx/core/Enums.h 584-588. -/
inductive FontStyle where
  | normal | italic
deriving Repr, DecidableEq

/-- The chain of `tryParseFontStyle` (or `parseFontStyle`), the switch of `toString` and the default of `parseFontStyle`, private/mx/core/Enums.cpp 1207-1229. -/
instance : StringEnum FontStyle where
  chain := [
    (chars "normal", .normal), (chars "italic", .italic)]
  toStr
    | .normal => chars "normal"
    | .italic => chars "italic"
  fallback := .normal

/-- `enum class FontWeight`, private/mx/core/Enums.h 600-604. -/
inductive FontWeight where
  | normal | bold
deriving Repr, DecidableEq

/-- The chain of `tryParseFontWeight` (or `parseFontWeight`), the switch of `toString` and the default of `parseFontWeight`, private/mx/core/Enums.cpp 1243-1265. -/
instance : StringEnum FontWeight where
  chain := [
    (chars "normal", .normal), (chars "bold", .bold)]
  toStr
    | .normal => chars "normal"
    | .bold => chars "bold"
  fallback := .normal

/-- `enum class GlassEnum`, private/mx/core/Enums.h 616-619. -/
inductive GlassEnum where
  | windChimes
deriving Repr, DecidableEq

/-- The chain of `tryParseGlassEnum` (or `parseGlassEnum`), the switch of `toString` and the default of `parseGlassEnum`, private/mx/core/Enums.cpp 1279-1299. -/
instance : StringEnum GlassEnum where
  chain := [
    (chars "wind chimes", .windChimes)]
  toStr
    | .windChimes => chars "wind chimes"
  fallback := .windChimes

/-- `enum class GroupBarlineValue`, private/mx/core/Enums.h 631-636. -/
inductive GroupBarlineValue where
  | yes | no | mensurstrich
deriving Repr, DecidableEq

/-- The chain of `tryParseGroupBarlineValue` (or `parseGroupBarlineValue`), the switch of `toString` and the default of `parseGroupBarlineValue`, private/mx/core/Enums.cpp 1313-1337. -/
instance : StringEnum GroupBarlineValue where
  chain := [
    (chars "yes", .yes), (chars "no", .no), (chars "Mensurstrich", .mensurstrich)]
  toStr
    | .yes => chars "yes"
    | .no => chars "no"
    | .mensurstrich => chars "Mensurstrich"
  fallback := .yes

/-- `enum class GroupSymbolValue`, private/mx/core/Enums.h 649-656. -/
inductive GroupSymbolValue where
  | none | brace | line | bracket | square
deriving Repr, DecidableEq

/-- The chain of `tryParseGroupSymbolValue` (or `parseGroupSymbolValue`), the switch of `toString` and the default of `parseGroupSymbolValue`, private/mx/core/Enums.cpp 1351-1379. -/
instance : StringEnum GroupSymbolValue where
  chain := [
    (chars "none", .none), (chars "brace", .brace), (chars "line", .line), (chars "bracket", .bracket), (chars "square", .square)]
  toStr
    | .none => chars "none"
    | .brace => chars "brace"
    | .line => chars "line"
    | .bracket => chars "bracket"
    | .square => chars "square"
  fallback := .none

/-- `enum class HandbellValue`, private/mx/core/Enums.h 668-681. -/
inductive HandbellValue where
  | damp | echo | gyro | handMartellato | malletLift | malletTable | martellato | martellatoLift | mutedMartellato | pluckLift | swing
deriving Repr, DecidableEq

/-- The chain of `tryParseHandbellValue` (or `parseHandbellValue`), the switch of `toString` and the default of `parseHandbellValue`, private/mx/core/Enums.cpp 1393-1433. -/
instance : StringEnum HandbellValue where
  chain := [
    (chars "damp", .damp), (chars "echo", .echo), (chars "gyro", .gyro), (chars "hand martellato", .handMartellato),
    (chars "mallet lift", .malletLift), (chars "mallet table", .malletTable), (chars "martellato", .martellato),
    (chars "martellato lift", .martellatoLift), (chars "muted martellato", .mutedMartellato), (chars "pluck lift", .pluckLift),
    (chars "swing", .swing)]
  toStr
    | .damp => chars "damp"
    | .echo => chars "echo"
    | .gyro => chars "gyro"
    | .handMartellato => chars "hand martellato"
    | .malletLift => chars "mallet lift"
    | .malletTable => chars "mallet table"
    | .martellato => chars "martellato"
    | .martellatoLift => chars "martellato lift"
    | .mutedMartellato => chars "muted martellato"
    | .pluckLift => chars "pluck lift"
    | .swing => chars "swing"
  fallback := .damp

/-- `enum class HarmonyType`, private/mx/core/Enums.h 695-700. -/
inductive HarmonyType where
  | explicit_ | implied | alternate
deriving Repr, DecidableEq

/-- The chain of `tryParseHarmonyType` (or `parseHarmonyType`), the switch of `toString` and the default of `parseHarmonyType`, private/mx/core/Enums.cpp 1447-1471. -/
instance : StringEnum HarmonyType where
  chain := [
    (chars "explicit", .explicit_), (chars "implied", .implied), (chars "alternate", .alternate)]
  toStr
    | .explicit_ => chars "explicit"
    | .implied => chars "implied"
    | .alternate => chars "alternate"
  fallback := .explicit_

/-- `enum class HoleClosedLocation`, private/mx/core/Enums.h 713-719. -/
inductive HoleClosedLocation where
  | right | bottom | left | top
deriving Repr, DecidableEq

/-- The chain of `tryParseHoleClosedLocation` (or `parseHoleClosedLocation`), the switch of `toString` and the default of `parseHoleClosedLocation`, private/mx/core/Enums.cpp 1485-1511. -/
instance : StringEnum HoleClosedLocation where
  chain := [
    (chars "right", .right), (chars "bottom", .bottom), (chars "left", .left), (chars "top", .top)]
  toStr
    | .right => chars "right"
    | .bottom => chars "bottom"
    | .left => chars "left"
    | .top => chars "top"
  fallback := .right

/-- `enum class HoleClosedValue`, private/mx/core/Enums.h 731-736. -/
inductive HoleClosedValue where
  | yes | no | half
deriving Repr, DecidableEq

/-- The chain of `tryParseHoleClosedValue` (or `parseHoleClosedValue`), the switch of `toString` and the default of `parseHoleClosedValue`, private/mx/core/Enums.cpp 1525-1549. -/
instance : StringEnum HoleClosedValue where
  chain := [
    (chars "yes", .yes), (chars "no", .no), (chars "half", .half)]
  toStr
    | .yes => chars "yes"
    | .no => chars "no"
    | .half => chars "half"
  fallback := .yes

/-- `enum class KindValue`, private/mx/core/Enums.h 793-828. -/
inductive KindValue where
  | major | minor | augmented | diminished | dominant | majorSeventh | minorSeventh | diminishedSeventh | augmentedSeventh | halfDiminished
  | majorMinor | majorSixth | minorSixth | dominantNinth | majorNinth | minorNinth | dominant11th | major11th | minor11th | dominant13th
  | major13th | minor13th | suspendedSecond | suspendedFourth | neapolitan | italian | french | german | pedal | power | tristan | other
  | none
deriving Repr, DecidableEq

/-- The chain of `tryParseKindValue` (or `parseKindValue`), the switch of `toString` and the default of `parseKindValue`, private/mx/core/Enums.cpp 1563-1647. -/
instance : StringEnum KindValue where
  chain := [
    (chars "major", .major), (chars "minor", .minor), (chars "augmented", .augmented), (chars "diminished", .diminished),
    (chars "dominant", .dominant), (chars "major-seventh", .majorSeventh), (chars "minor-seventh", .minorSeventh),
    (chars "diminished-seventh", .diminishedSeventh), (chars "augmented-seventh", .augmentedSeventh), (chars "half-diminished", .halfDiminished),
    (chars "major-minor", .majorMinor), (chars "major-sixth", .majorSixth), (chars "minor-sixth", .minorSixth),
    (chars "dominant-ninth", .dominantNinth), (chars "major-ninth", .majorNinth), (chars "minor-ninth", .minorNinth),
    (chars "dominant-11th", .dominant11th), (chars "major-11th", .major11th), (chars "minor-11th", .minor11th),
    (chars "dominant-13th", .dominant13th), (chars "major-13th", .major13th), (chars "minor-13th", .minor13th),
    (chars "suspended-second", .suspendedSecond), (chars "suspended-fourth", .suspendedFourth), (chars "Neapolitan", .neapolitan),
    (chars "Italian", .italian), (chars "French", .french), (chars "German", .german), (chars "pedal", .pedal), (chars "power", .power),
    (chars "Tristan", .tristan), (chars "other", .other), (chars "none", .none)]
  toStr
    | .major => chars "major"
    | .minor => chars "minor"
    | .augmented => chars "augmented"
    | .diminished => chars "diminished"
    | .dominant => chars "dominant"
    | .majorSeventh => chars "major-seventh"
    | .minorSeventh => chars "minor-seventh"
    | .diminishedSeventh => chars "diminished-seventh"
    | .augmentedSeventh => chars "augmented-seventh"
    | .halfDiminished => chars "half-diminished"
    | .majorMinor => chars "major-minor"
    | .majorSixth => chars "major-sixth"
    | .minorSixth => chars "minor-sixth"
    | .dominantNinth => chars "dominant-ninth"
    | .majorNinth => chars "major-ninth"
    | .minorNinth => chars "minor-ninth"
    | .dominant11th => chars "dominant-11th"
    | .major11th => chars "major-11th"
    | .minor11th => chars "minor-11th"
    | .dominant13th => chars "dominant-13th"
    | .major13th => chars "major-13th"
    | .minor13th => chars "minor-13th"
    | .suspendedSecond => chars "suspended-second"
    | .suspendedFourth => chars "suspended-fourth"
    | .neapolitan => chars "Neapolitan"
    | .italian => chars "Italian"
    | .french => chars "French"
    | .german => chars "German"
    | .pedal => chars "pedal"
    | .power => chars "power"
    | .tristan => chars "Tristan"
    | .other => chars "other"
    | .none => chars "none"
  fallback := .major

/-- `enum class LeftCenterRight`, private/mx/core/Enums.h 841-846. -/
inductive LeftCenterRight where
  | left | center | right
deriving Repr, DecidableEq

/-- The chain of `tryParseLeftCenterRight` (or `parseLeftCenterRight`), the switch of `toString` and the default of `parseLeftCenterRight`, private/mx/core/Enums.cpp 1661-1685. -/
instance : StringEnum LeftCenterRight where
  chain := [
    (chars "left", .left), (chars "center", .center), (chars "right", .right)]
  toStr
    | .left => chars "left"
    | .center => chars "center"
    | .right => chars "right"
  fallback := .left

/-- `enum class LeftRight`, private/mx/core/Enums.h 859-863. -/
inductive LeftRight where
  | left | right
deriving Repr, DecidableEq

/-- The chain of `tryParseLeftRight` (or `parseLeftRight`), the switch of `toString` and the default of `parseLeftRight`, private/mx/core/Enums.cpp 1699-1721. -/
instance : StringEnum LeftRight where
  chain := [
    (chars "left", .left), (chars "right", .right)]
  toStr
    | .left => chars "left"
    | .right => chars "right"
  fallback := .left

/-- `enum class LineEnd`, private/mx/core/Enums.h 876-883. -/
inductive LineEnd where
  | up | down | both | arrow | none
deriving Repr, DecidableEq

/-- The chain of `tryParseLineEnd` (or `parseLineEnd`), the switch of `toString` and the default of `parseLineEnd`, private/mx/core/Enums.cpp 1735-1763. -/
instance : StringEnum LineEnd where
  chain := [
    (chars "up", .up), (chars "down", .down), (chars "both", .both), (chars "arrow", .arrow), (chars "none", .none)]
  toStr
    | .up => chars "up"
    | .down => chars "down"
    | .both => chars "both"
    | .arrow => chars "arrow"
    | .none => chars "none"
  fallback := .up

/-- `enum class LineShape`, private/mx/core/Enums.h 895-899. -/
inductive LineShape where
  | straight | curved
deriving Repr, DecidableEq

/-- The chain of `tryParseLineShape` (or `parseLineShape`), the switch of `toString` and the default of `parseLineShape`, private/mx/core/Enums.cpp 1777-1799. -/
instance : StringEnum LineShape where
  chain := [
    (chars "straight", .straight), (chars "curved", .curved)]
  toStr
    | .straight => chars "straight"
    | .curved => chars "curved"
  fallback := .straight

/-- `enum class LineType`, private/mx/core/Enums.h 911-917. -/
inductive LineType where
  | solid | dashed | dotted | wavy
deriving Repr, DecidableEq

/-- The chain of `tryParseLineType` (or `parseLineType`), the switch of `toString` and the default of `parseLineType`, private/mx/core/Enums.cpp 1813-1839. -/
instance : StringEnum LineType where
  chain := [
    (chars "solid", .solid), (chars "dashed", .dashed), (chars "dotted", .dotted), (chars "wavy", .wavy)]
  toStr
    | .solid => chars "solid"
    | .dashed => chars "dashed"
    | .dotted => chars "dotted"
    | .wavy => chars "wavy"
  fallback := .solid

/-- `enum class LineWidthTypeEnum`, private/mx/core/Enums.h 934-956. -/
inductive LineWidthTypeEnum where
  | beam | bracket | dashes | enclosure | ending | extend | heavyBarline | leger | lightBarline | octaveShift | pedal | slurMiddle
  | slurTip | staff | stem | tieMiddle | tieTip | tupletBracket | wedge | other
deriving Repr, DecidableEq

/-- The chain of `tryParseLineWidthTypeEnum` (or `parseLineWidthTypeEnum`), the switch of `toString` and the default of `parseLineWidthTypeEnum`, private/mx/core/Enums.cpp 1853-1910. -/
instance : StringEnum LineWidthTypeEnum where
  chain := [
    (chars "beam", .beam), (chars "bracket", .bracket), (chars "dashes", .dashes), (chars "enclosure", .enclosure), (chars "ending", .ending),
    (chars "extend", .extend), (chars "heavy barline", .heavyBarline), (chars "leger", .leger), (chars "light barline", .lightBarline),
    (chars "octave shift", .octaveShift), (chars "pedal", .pedal), (chars "slur middle", .slurMiddle), (chars "slur tip", .slurTip),
    (chars "staff", .staff), (chars "stem", .stem), (chars "tie middle", .tieMiddle), (chars "tie tip", .tieTip),
    (chars "tuplet bracket", .tupletBracket), (chars "wedge", .wedge), (chars "other", .other)]
  toStr
    | .beam => chars "beam"
    | .bracket => chars "bracket"
    | .dashes => chars "dashes"
    | .enclosure => chars "enclosure"
    | .ending => chars "ending"
    | .extend => chars "extend"
    | .heavyBarline => chars "heavy barline"
    | .leger => chars "leger"
    | .lightBarline => chars "light barline"
    | .octaveShift => chars "octave shift"
    | .pedal => chars "pedal"
    | .slurMiddle => chars "slur middle"
    | .slurTip => chars "slur tip"
    | .staff => chars "staff"
    | .stem => chars "stem"
    | .tieMiddle => chars "tie middle"
    | .tieTip => chars "tie tip"
    | .tupletBracket => chars "tuplet bracket"
    | .wedge => chars "wedge"
    | _ => chars "other"
  fallback := .beam

/-- `enum class MarginType`, private/mx/core/Enums.h 988-993. -/
inductive MarginType where
  | odd | even | both
deriving Repr, DecidableEq

/-- The chain of `tryParseMarginType` (or `parseMarginType`), the switch of `toString` and the default of `parseMarginType`, private/mx/core/Enums.cpp 2007-2031. -/
instance : StringEnum MarginType where
  chain := [
    (chars "odd", .odd), (chars "even", .even), (chars "both", .both)]
  toStr
    | .odd => chars "odd"
    | .even => chars "even"
    | .both => chars "both"
  fallback := .odd

/-- `enum class MeasureNumberingValue`, private/mx/core/Enums.h 1006-1011. -/
inductive MeasureNumberingValue where
  | none | measure | system
deriving Repr, DecidableEq

/-- The chain of `tryParseMeasureNumberingValue` (or `parseMeasureNumberingValue`), the switch of `toString` and the default of `parseMeasureNumberingValue`, private/mx/core/Enums.cpp 2045-2069. -/
instance : StringEnum MeasureNumberingValue where
  chain := [
    (chars "none", .none), (chars "measure", .measure), (chars "system", .system)]
  toStr
    | .none => chars "none"
    | .measure => chars "measure"
    | .system => chars "system"
  fallback := .none

/-- `enum class MembraneEnum`, private/mx/core/Enums.h 1024-1038. -/
inductive MembraneEnum where
  | bassDrum | bassDrumOnSide | bongos | congaDrum | gobletDrum | militaryDrum | snareDrum | snareDrumSnaresOff | tambourine | tenorDrum
  | timbales | tomtom
deriving Repr, DecidableEq

/-- The chain of `tryParseMembraneEnum` (or `parseMembraneEnum`), the switch of `toString` and the default of `parseMembraneEnum`, private/mx/core/Enums.cpp 2083-2125. -/
instance : StringEnum MembraneEnum where
  chain := [
    (chars "bass drum", .bassDrum), (chars "bass drum on side", .bassDrumOnSide), (chars "bongos", .bongos), (chars "conga drum", .congaDrum),
    (chars "goblet drum", .gobletDrum), (chars "military drum", .militaryDrum), (chars "snare drum", .snareDrum),
    (chars "snare drum snares off", .snareDrumSnaresOff), (chars "tambourine", .tambourine), (chars "tenor drum", .tenorDrum),
    (chars "timbales", .timbales), (chars "tomtom", .tomtom)]
  toStr
    | .bassDrum => chars "bass drum"
    | .bassDrumOnSide => chars "bass drum on side"
    | .bongos => chars "bongos"
    | .congaDrum => chars "conga drum"
    | .gobletDrum => chars "goblet drum"
    | .militaryDrum => chars "military drum"
    | .snareDrum => chars "snare drum"
    | .snareDrumSnaresOff => chars "snare drum snares off"
    | .tambourine => chars "tambourine"
    | .tenorDrum => chars "tenor drum"
    | .timbales => chars "timbales"
    | .tomtom => chars "tomtom"
  fallback := .bassDrum

/-- `enum class MetalEnum`, private/mx/core/Enums.h 1052-1077. -/
inductive MetalEnum where
  | almglocken | bell | bellPlate | brakeDrum | chineseCymbal | cowbell | crashCymbals | crotale | cymbalTongs | domedGong | fingerCymbals
  | flexatone | gong | hiHat | highHatCymbals | handbell | sistrum | sizzleCymbal | sleighBells | suspendedCymbal | tamTam | triangle
  | vietnameseHat
deriving Repr, DecidableEq

/-- The chain of `tryParseMetalEnum` (or `parseMetalEnum`), the switch of `toString` and the default of `parseMetalEnum`, private/mx/core/Enums.cpp 2139-2203. -/
instance : StringEnum MetalEnum where
  chain := [
    (chars "almglocken", .almglocken), (chars "bell", .bell), (chars "bell plate", .bellPlate), (chars "brake drum", .brakeDrum),
    (chars "Chinese cymbal", .chineseCymbal), (chars "cowbell", .cowbell), (chars "crash cymbals", .crashCymbals), (chars "crotale", .crotale),
    (chars "cymbal tongs", .cymbalTongs), (chars "domed gong", .domedGong), (chars "finger cymbals", .fingerCymbals),
    (chars "flexatone", .flexatone), (chars "gong", .gong), (chars "hi-hat", .hiHat), (chars "high-hat cymbals", .highHatCymbals),
    (chars "handbell", .handbell), (chars "sistrum", .sistrum), (chars "sizzle cymbal", .sizzleCymbal), (chars "sleigh bells", .sleighBells),
    (chars "suspended cymbal", .suspendedCymbal), (chars "tam tam", .tamTam), (chars "triangle", .triangle), (chars "Vietnamese hat", .vietnameseHat)]
  toStr
    | .almglocken => chars "almglocken"
    | .bell => chars "bell"
    | .bellPlate => chars "bell plate"
    | .brakeDrum => chars "brake drum"
    | .chineseCymbal => chars "Chinese cymbal"
    | .cowbell => chars "cowbell"
    | .crashCymbals => chars "crash cymbals"
    | .crotale => chars "crotale"
    | .cymbalTongs => chars "cymbal tongs"
    | .domedGong => chars "domed gong"
    | .fingerCymbals => chars "finger cymbals"
    | .flexatone => chars "flexatone"
    | .gong => chars "gong"
    | .hiHat => chars "hi-hat"
    | .highHatCymbals => chars "high-hat cymbals"
    | .handbell => chars "handbell"
    | .sistrum => chars "sistrum"
    | .sizzleCymbal => chars "sizzle cymbal"
    | .sleighBells => chars "sleigh bells"
    | .suspendedCymbal => chars "suspended cymbal"
    | .tamTam => chars "tam tam"
    | .triangle => chars "triangle"
    | .vietnameseHat => chars "Vietnamese hat"
  fallback := .almglocken

/-- `enum class ModeEnum`, private/mx/core/Enums.h 1091-1104. -/
inductive ModeEnum where
  | major | minor | dorian | phrygian | lydian | mixolydian | aeolian | ionian | locrian | none | other
deriving Repr, DecidableEq

/-- The chain of `tryParseModeEnum` (or `parseModeEnum`), the switch of `toString` and the default of `parseModeEnum`, private/mx/core/Enums.cpp 2217-2256. -/
instance : StringEnum ModeEnum where
  chain := [
    (chars "major", .major), (chars "minor", .minor), (chars "dorian", .dorian), (chars "phrygian", .phrygian), (chars "lydian", .lydian),
    (chars "mixolydian", .mixolydian), (chars "aeolian", .aeolian), (chars "ionian", .ionian), (chars "locrian", .locrian), (chars "none", .none),
    (chars "other", .other)]
  toStr
    | .major => chars "major"
    | .minor => chars "minor"
    | .dorian => chars "dorian"
    | .phrygian => chars "phrygian"
    | .lydian => chars "lydian"
    | .mixolydian => chars "mixolydian"
    | .aeolian => chars "aeolian"
    | .ionian => chars "ionian"
    | .locrian => chars "locrian"
    | .none => chars "none"
    | _ => chars "other"
  fallback := .major

/-- `enum class MuteEnum`, private/mx/core/Enums.h 1138-1155. -/
inductive MuteEnum where
  | on | off | straight | cup | harmonNoStem | harmonStem | bucket | plunger | hat | solotone | practice | stopMute | stopHand | echo
  | palm
deriving Repr, DecidableEq

/-- The chain of `tryParseMuteEnum` (or `parseMuteEnum`), the switch of `toString` and the default of `parseMuteEnum`, private/mx/core/Enums.cpp 2353-2401. -/
instance : StringEnum MuteEnum where
  chain := [
    (chars "on", .on), (chars "off", .off), (chars "straight", .straight), (chars "cup", .cup), (chars "harmon-no-stem", .harmonNoStem),
    (chars "harmon-stem", .harmonStem), (chars "bucket", .bucket), (chars "plunger", .plunger), (chars "hat", .hat), (chars "solotone", .solotone),
    (chars "practice", .practice), (chars "stop-mute", .stopMute), (chars "stop-hand", .stopHand), (chars "echo", .echo), (chars "palm", .palm)]
  toStr
    | .on => chars "on"
    | .off => chars "off"
    | .straight => chars "straight"
    | .cup => chars "cup"
    | .harmonNoStem => chars "harmon-no-stem"
    | .harmonStem => chars "harmon-stem"
    | .bucket => chars "bucket"
    | .plunger => chars "plunger"
    | .hat => chars "hat"
    | .solotone => chars "solotone"
    | .practice => chars "practice"
    | .stopMute => chars "stop-mute"
    | .stopHand => chars "stop-hand"
    | .echo => chars "echo"
    | .palm => chars "palm"
  fallback := .on

/-- `enum class NoteSizeType`, private/mx/core/Enums.h 1170-1175. -/
inductive NoteSizeType where
  | cue | grace | large
deriving Repr, DecidableEq

/-- The chain of `tryParseNoteSizeType` (or `parseNoteSizeType`), the switch of `toString` and the default of `parseNoteSizeType`, private/mx/core/Enums.cpp 2415-2439. -/
instance : StringEnum NoteSizeType where
  chain := [
    (chars "cue", .cue), (chars "grace", .grace), (chars "large", .large)]
  toStr
    | .cue => chars "cue"
    | .grace => chars "grace"
    | .large => chars "large"
  fallback := .cue

/-- `enum class NoteTypeValue`, private/mx/core/Enums.h 1188-1204. -/
inductive NoteTypeValue where
  | oneThousandTwentyFourth | fiveHundredTwelfth | twoHundredFifthySixth | oneHundredTwentyEighth | sixtyFourth | thirtySecond | sixteenth
  | eighth | quarter | half | whole | breve | long_ | maxima
deriving Repr, DecidableEq

/-- The chain of `tryParseNoteTypeValue` (or `parseNoteTypeValue`), the switch of `toString` and the default of `parseNoteTypeValue`, private/mx/core/Enums.cpp 2453-2499. -/
instance : StringEnum NoteTypeValue where
  chain := [
    (chars "1024th", .oneThousandTwentyFourth), (chars "512th", .fiveHundredTwelfth), (chars "256th", .twoHundredFifthySixth),
    (chars "128th", .oneHundredTwentyEighth), (chars "64th", .sixtyFourth), (chars "32nd", .thirtySecond), (chars "16th", .sixteenth),
    (chars "eighth", .eighth), (chars "quarter", .quarter), (chars "half", .half), (chars "whole", .whole), (chars "breve", .breve),
    (chars "long", .long_), (chars "maxima", .maxima)]
  toStr
    | .oneThousandTwentyFourth => chars "1024th"
    | .fiveHundredTwelfth => chars "512th"
    | .twoHundredFifthySixth => chars "256th"
    | .oneHundredTwentyEighth => chars "128th"
    | .sixtyFourth => chars "64th"
    | .thirtySecond => chars "32nd"
    | .sixteenth => chars "16th"
    | .eighth => chars "eighth"
    | .quarter => chars "quarter"
    | .half => chars "half"
    | .whole => chars "whole"
    | .breve => chars "breve"
    | .long_ => chars "long"
    | .maxima => chars "maxima"
  fallback := .oneThousandTwentyFourth

/-- `enum class NoteheadValue`, private/mx/core/Enums.h 1225-1253. -/
inductive NoteheadValue where
  | slash | triangle | diamond | square | cross | x | circleX | invertedTriangle | arrowDown | arrowUp | slashed | backSlashed | normal
  | cluster | circleDot | leftTriangle | rectangle | none | do_ | re | mi | fa | faUp | so | la | ti
deriving Repr, DecidableEq

/-- The chain of `tryParseNoteheadValue` (or `parseNoteheadValue`), the switch of `toString` and the default of `parseNoteheadValue`, private/mx/core/Enums.cpp 2513-2583. -/
instance : StringEnum NoteheadValue where
  chain := [
    (chars "slash", .slash), (chars "triangle", .triangle), (chars "diamond", .diamond), (chars "square", .square), (chars "cross", .cross),
    (chars "x", .x), (chars "circle-x", .circleX), (chars "inverted triangle", .invertedTriangle), (chars "arrow down", .arrowDown),
    (chars "arrow up", .arrowUp), (chars "slashed", .slashed), (chars "back slashed", .backSlashed), (chars "normal", .normal),
    (chars "cluster", .cluster), (chars "circle dot", .circleDot), (chars "left triangle", .leftTriangle), (chars "rectangle", .rectangle),
    (chars "none", .none), (chars "do", .do_), (chars "re", .re), (chars "mi", .mi), (chars "fa", .fa), (chars "fa up", .faUp), (chars "so", .so),
    (chars "la", .la), (chars "ti", .ti)]
  toStr
    | .slash => chars "slash"
    | .triangle => chars "triangle"
    | .diamond => chars "diamond"
    | .square => chars "square"
    | .cross => chars "cross"
    | .x => chars "x"
    | .circleX => chars "circle-x"
    | .invertedTriangle => chars "inverted triangle"
    | .arrowDown => chars "arrow down"
    | .arrowUp => chars "arrow up"
    | .slashed => chars "slashed"
    | .backSlashed => chars "back slashed"
    | .normal => chars "normal"
    | .cluster => chars "cluster"
    | .circleDot => chars "circle dot"
    | .leftTriangle => chars "left triangle"
    | .rectangle => chars "rectangle"
    | .none => chars "none"
    | .do_ => chars "do"
    | .re => chars "re"
    | .mi => chars "mi"
    | .fa => chars "fa"
    | .faUp => chars "fa up"
    | .so => chars "so"
    | .la => chars "la"
    | .ti => chars "ti"
  fallback := .slash

/-- `enum class OnOff`, private/mx/core/Enums.h 1265-1269. -/
inductive OnOff where
  | on | off
deriving Repr, DecidableEq

/-- The chain of `tryParseOnOff` (or `parseOnOff`), the switch of `toString` and the default of `parseOnOff`, private/mx/core/Enums.cpp 2597-2619. -/
instance : StringEnum OnOff where
  chain := [
    (chars "on", .on), (chars "off", .off)]
  toStr
    | .on => chars "on"
    | .off => chars "off"
  fallback := .on

/-- `enum class OverUnder`, private/mx/core/Enums.h 1282-1286. -/
inductive OverUnder where
  | over | under
deriving Repr, DecidableEq

/-- The chain of `tryParseOverUnder` (or `parseOverUnder`), the switch of `toString` and the default of `parseOverUnder`, private/mx/core/Enums.cpp 2633-2655. -/
instance : StringEnum OverUnder where
  chain := [
    (chars "over", .over), (chars "under", .under)]
  toStr
    | .over => chars "over"
    | .under => chars "under"
  fallback := .over

/-- `enum class PitchedEnum`, private/mx/core/Enums.h 1300-1309. -/
inductive PitchedEnum where
  | chimes | glockenspiel | mallet | marimba | tubularChimes | vibraphone | xylophone
deriving Repr, DecidableEq

/-- The chain of `tryParsePitchedEnum` (or `parsePitchedEnum`), the switch of `toString` and the default of `parsePitchedEnum`, private/mx/core/Enums.cpp 2669-2701. -/
instance : StringEnum PitchedEnum where
  chain := [
    (chars "chimes", .chimes), (chars "glockenspiel", .glockenspiel), (chars "mallet", .mallet), (chars "marimba", .marimba),
    (chars "tubular chimes", .tubularChimes), (chars "vibraphone", .vibraphone), (chars "xylophone", .xylophone)]
  toStr
    | .chimes => chars "chimes"
    | .glockenspiel => chars "glockenspiel"
    | .mallet => chars "mallet"
    | .marimba => chars "marimba"
    | .tubularChimes => chars "tubular chimes"
    | .vibraphone => chars "vibraphone"
    | .xylophone => chars "xylophone"
  fallback := .chimes

/-- `enum class PrincipalVoiceSymbol`, private/mx/core/Enums.h 1324-1330. -/
inductive PrincipalVoiceSymbol where
  | hauptstimme | nebenstimme | plain | none
deriving Repr, DecidableEq

/-- The chain of `tryParsePrincipalVoiceSymbol` (or `parsePrincipalVoiceSymbol`), the switch of `toString` and the default of `parsePrincipalVoiceSymbol`, private/mx/core/Enums.cpp 2715-2741. -/
instance : StringEnum PrincipalVoiceSymbol where
  chain := [
    (chars "Hauptstimme", .hauptstimme), (chars "Nebenstimme", .nebenstimme), (chars "plain", .plain), (chars "none", .none)]
  toStr
    | .hauptstimme => chars "Hauptstimme"
    | .nebenstimme => chars "Nebenstimme"
    | .plain => chars "plain"
    | .none => chars "none"
  fallback := .hauptstimme

/-- `enum class RightLeftMiddle`, private/mx/core/Enums.h 1342-1347. -/
inductive RightLeftMiddle where
  | right | left | middle
deriving Repr, DecidableEq

/-- The chain of `tryParseRightLeftMiddle` (or `parseRightLeftMiddle`), the switch of `toString` and the default of `parseRightLeftMiddle`, private/mx/core/Enums.cpp 2755-2779. -/
instance : StringEnum RightLeftMiddle where
  chain := [
    (chars "right", .right), (chars "left", .left), (chars "middle", .middle)]
  toStr
    | .right => chars "right"
    | .left => chars "left"
    | .middle => chars "middle"
  fallback := .right

/-- `enum class SemiPitchedEnum`, private/mx/core/Enums.h 1360-1368. -/
inductive SemiPitchedEnum where
  | high | mediumHigh | medium | mediumLow | low | veryLow
deriving Repr, DecidableEq

/-- The chain of `tryParseSemiPitchedEnum` (or `parseSemiPitchedEnum`), the switch of `toString` and the default of `parseSemiPitchedEnum`, private/mx/core/Enums.cpp 2793-2823. -/
instance : StringEnum SemiPitchedEnum where
  chain := [
    (chars "high", .high), (chars "medium-high", .mediumHigh), (chars "medium", .medium), (chars "medium-low", .mediumLow), (chars "low", .low),
    (chars "very-low", .veryLow)]
  toStr
    | .high => chars "high"
    | .mediumHigh => chars "medium-high"
    | .medium => chars "medium"
    | .mediumLow => chars "medium-low"
    | .low => chars "low"
    | .veryLow => chars "very-low"
  fallback := .high

/-- `enum class ShowFrets`, private/mx/core/Enums.h 1381-1385. -/
inductive ShowFrets where
  | numbers | letters
deriving Repr, DecidableEq

/-- The chain of `tryParseShowFrets` (or `parseShowFrets`), the switch of `toString` and the default of `parseShowFrets`, private/mx/core/Enums.cpp 2837-2859. -/
instance : StringEnum ShowFrets where
  chain := [
    (chars "numbers", .numbers), (chars "letters", .letters)]
  toStr
    | .numbers => chars "numbers"
    | .letters => chars "letters"
  fallback := .numbers

/-- `enum class ShowTuplet`, private/mx/core/Enums.h 1398-1403. -/
inductive ShowTuplet where
  | actual | both | none
deriving Repr, DecidableEq

/-- The chain of `tryParseShowTuplet` (or `parseShowTuplet`), the switch of `toString` and the default of `parseShowTuplet`, private/mx/core/Enums.cpp 2873-2897. -/
instance : StringEnum ShowTuplet where
  chain := [
    (chars "actual", .actual), (chars "both", .both), (chars "none", .none)]
  toStr
    | .actual => chars "actual"
    | .both => chars "both"
    | .none => chars "none"
  fallback := .actual

/-- `enum class StaffTypeEnum`, private/mx/core/Enums.h 1417-1424. -/
inductive StaffTypeEnum where
  | ossia | cue | editorial | regular | alternate
deriving Repr, DecidableEq

/-- The chain of `tryParseStaffTypeEnum` (or `parseStaffTypeEnum`), the switch of `toString` and the default of `parseStaffTypeEnum`, private/mx/core/Enums.cpp 2911-2939. -/
instance : StringEnum StaffTypeEnum where
  chain := [
    (chars "ossia", .ossia), (chars "cue", .cue), (chars "editorial", .editorial), (chars "regular", .regular), (chars "alternate", .alternate)]
  toStr
    | .ossia => chars "ossia"
    | .cue => chars "cue"
    | .editorial => chars "editorial"
    | .regular => chars "regular"
    | .alternate => chars "alternate"
  fallback := .ossia

/-- `enum class StartNote`, private/mx/core/Enums.h 1437-1442. -/
inductive StartNote where
  | upper | main | below
deriving Repr, DecidableEq

/-- The chain of `tryParseStartNote` (or `parseStartNote`), the switch of `toString` and the default of `parseStartNote`, private/mx/core/Enums.cpp 2953-2977. -/
instance : StringEnum StartNote where
  chain := [
    (chars "upper", .upper), (chars "main", .main), (chars "below", .below)]
  toStr
    | .upper => chars "upper"
    | .main => chars "main"
    | .below => chars "below"
  fallback := .upper

/-- `enum class StartStop`, private/mx/core/Enums.h 1462-1466. -/
inductive StartStop where
  | start | stop
deriving Repr, DecidableEq

/-- The chain of `tryParseStartStop` (or `parseStartStop`), the switch of `toString` and the default of `parseStartStop`, private/mx/core/Enums.cpp 2991-3013. -/
instance : StringEnum StartStop where
  chain := [
    (chars "start", .start), (chars "stop", .stop)]
  toStr
    | .start => chars "start"
    | .stop => chars "stop"
  fallback := .start

/-- `enum class StartStopChangeContinue`, private/mx/core/Enums.h 1478-1484. -/
inductive StartStopChangeContinue where
  | start | stop | change | continue_
deriving Repr, DecidableEq

/-- The chain of `tryParseStartStopChangeContinue` (or `parseStartStopChangeContinue`), the switch of `toString` and the default of `parseStartStopChangeContinue`, private/mx/core/Enums.cpp 3027-3053. -/
instance : StringEnum StartStopChangeContinue where
  chain := [
    (chars "start", .start), (chars "stop", .stop), (chars "change", .change), (chars "continue", .continue_)]
  toStr
    | .start => chars "start"
    | .stop => chars "stop"
    | .change => chars "change"
    | .continue_ => chars "continue"
  fallback := .start

/-- `enum class StartStopContinue`, private/mx/core/Enums.h 1505-1510. -/
inductive StartStopContinue where
  | start | stop | continue_
deriving Repr, DecidableEq

/-- The chain of `tryParseStartStopContinue` (or `parseStartStopContinue`), the switch of `toString` and the default of `parseStartStopContinue`, private/mx/core/Enums.cpp 3067-3091. -/
instance : StringEnum StartStopContinue where
  chain := [
    (chars "start", .start), (chars "stop", .stop), (chars "continue", .continue_)]
  toStr
    | .start => chars "start"
    | .stop => chars "stop"
    | .continue_ => chars "continue"
  fallback := .start

/-- `enum class StartStopDiscontinue`, private/mx/core/Enums.h 1527-1532. -/
inductive StartStopDiscontinue where
  | start | stop | discontinue
deriving Repr, DecidableEq

/-- The chain of `tryParseStartStopDiscontinue` (or `parseStartStopDiscontinue`), the switch of `toString` and the default of `parseStartStopDiscontinue`, private/mx/core/Enums.cpp 3105-3129. -/
instance : StringEnum StartStopDiscontinue where
  chain := [
    (chars "start", .start), (chars "stop", .stop), (chars "discontinue", .discontinue)]
  toStr
    | .start => chars "start"
    | .stop => chars "stop"
    | .discontinue => chars "discontinue"
  fallback := .start

/-- `enum class StartStopSingle`, private/mx/core/Enums.h 1545-1550. -/
inductive StartStopSingle where
  | start | stop | single
deriving Repr, DecidableEq

/-- The chain of `tryParseStartStopSingle` (or `parseStartStopSingle`), the switch of `toString` and the default of `parseStartStopSingle`, private/mx/core/Enums.cpp 3143-3167. -/
instance : StringEnum StartStopSingle where
  chain := [
    (chars "start", .start), (chars "stop", .stop), (chars "single", .single)]
  toStr
    | .start => chars "start"
    | .stop => chars "stop"
    | .single => chars "single"
  fallback := .start

/-- `enum class StemValue`, private/mx/core/Enums.h 1562-1568. -/
inductive StemValue where
  | down | up | double_ | none
deriving Repr, DecidableEq

/-- The chain of `tryParseStemValue` (or `parseStemValue`), the switch of `toString` and the default of `parseStemValue`, private/mx/core/Enums.cpp 3181-3207. -/
instance : StringEnum StemValue where
  chain := [
    (chars "down", .down), (chars "up", .up), (chars "double", .double_), (chars "none", .none)]
  toStr
    | .down => chars "down"
    | .up => chars "up"
    | .double_ => chars "double"
    | .none => chars "none"
  fallback := .down

/-- `enum class StepEnum`, private/mx/core/Enums.h 1581-1590. -/
inductive StepEnum where
  | a | b | c | d | e | f | g
deriving Repr, DecidableEq

/-- The chain of `tryParseStepEnum` (or `parseStepEnum`), the switch of `toString` and the default of `parseStepEnum`, private/mx/core/Enums.cpp 3221-3253. -/
instance : StringEnum StepEnum where
  chain := [
    (chars "A", .a), (chars "B", .b), (chars "C", .c), (chars "D", .d), (chars "E", .e), (chars "F", .f), (chars "G", .g)]
  toStr
    | .a => chars "A"
    | .b => chars "B"
    | .c => chars "C"
    | .d => chars "D"
    | .e => chars "E"
    | .f => chars "F"
    | .g => chars "G"
  fallback := .a

/-- `enum class StickLocationEnum`, private/mx/core/Enums.h 1603-1609. -/
inductive StickLocationEnum where
  | center | rim | cymbalBell | cymbalEdge
deriving Repr, DecidableEq

/-- The chain of `tryParseStickLocationEnum` (or `parseStickLocationEnum`), the switch of `toString` and the default of `parseStickLocationEnum`, private/mx/core/Enums.cpp 3267-3293. -/
instance : StringEnum StickLocationEnum where
  chain := [
    (chars "center", .center), (chars "rim", .rim), (chars "cymbal bell", .cymbalBell), (chars "cymbal edge", .cymbalEdge)]
  toStr
    | .center => chars "center"
    | .rim => chars "rim"
    | .cymbalBell => chars "cymbal bell"
    | .cymbalEdge => chars "cymbal edge"
  fallback := .center

/-- `enum class StickMaterialEnum`, private/mx/core/Enums.h 1621-1628. -/
inductive StickMaterialEnum where
  | soft | medium | hard | shaded | x
deriving Repr, DecidableEq

/-- The chain of `tryParseStickMaterialEnum` (or `parseStickMaterialEnum`), the switch of `toString` and the default of `parseStickMaterialEnum`, private/mx/core/Enums.cpp 3307-3335. -/
instance : StringEnum StickMaterialEnum where
  chain := [
    (chars "soft", .soft), (chars "medium", .medium), (chars "hard", .hard), (chars "shaded", .shaded), (chars "x", .x)]
  toStr
    | .soft => chars "soft"
    | .medium => chars "medium"
    | .hard => chars "hard"
    | .shaded => chars "shaded"
    | .x => chars "x"
  fallback := .soft

/-- `enum class StickTypeEnum`, private/mx/core/Enums.h 1641-1648. -/
inductive StickTypeEnum where
  | bassDrum | doubleBassDrum | timpani | xylophone | yarn
deriving Repr, DecidableEq

/-- The chain of `tryParseStickTypeEnum` (or `parseStickTypeEnum`), the switch of `toString` and the default of `parseStickTypeEnum`, private/mx/core/Enums.cpp 3349-3377. -/
instance : StringEnum StickTypeEnum where
  chain := [
    (chars "bass drum", .bassDrum), (chars "double bass drum", .doubleBassDrum), (chars "timpani", .timpani), (chars "xylophone", .xylophone),
    (chars "yarn", .yarn)]
  toStr
    | .bassDrum => chars "bass drum"
    | .doubleBassDrum => chars "double bass drum"
    | .timpani => chars "timpani"
    | .xylophone => chars "xylophone"
    | .yarn => chars "yarn"
  fallback := .bassDrum

/-- `enum class SyllabicEnum`, private/mx/core/Enums.h 1662-1668. -/
inductive SyllabicEnum where
  | single | begin | «end» | middle
deriving Repr, DecidableEq

/-- The chain of `tryParseSyllabicEnum` (or `parseSyllabicEnum`), the switch of `toString` and the default of `parseSyllabicEnum`, private/mx/core/Enums.cpp 3391-3417. -/
instance : StringEnum SyllabicEnum where
  chain := [
    (chars "single", .single), (chars "begin", .begin), (chars "end", .«end»), (chars "middle", .middle)]
  toStr
    | .single => chars "single"
    | .begin => chars "begin"
    | .«end» => chars "end"
    | .middle => chars "middle"
  fallback := .single

/-- `enum class SymbolSize`, private/mx/core/Enums.h 1681-1686. -/
inductive SymbolSize where
  | full | cue | large
deriving Repr, DecidableEq

/-- The chain of `tryParseSymbolSize` (or `parseSymbolSize`), the switch of `toString` and the default of `parseSymbolSize`, private/mx/core/Enums.cpp 3431-3455. -/
instance : StringEnum SymbolSize where
  chain := [
    (chars "full", .full), (chars "cue", .cue), (chars "large", .large)]
  toStr
    | .full => chars "full"
    | .cue => chars "cue"
    | .large => chars "large"
  fallback := .full

/-- `enum class TextDirection`, private/mx/core/Enums.h 1704-1710. -/
inductive TextDirection where
  | ltr | rtl | lro | rlo
deriving Repr, DecidableEq

/-- The chain of `tryParseTextDirection` (or `parseTextDirection`), the switch of `toString` and the default of `parseTextDirection`, private/mx/core/Enums.cpp 3469-3495. -/
instance : StringEnum TextDirection where
  chain := [
    (chars "ltr", .ltr), (chars "rtl", .rtl), (chars "lro", .lro), (chars "rlo", .rlo)]
  toStr
    | .ltr => chars "ltr"
    | .rtl => chars "rtl"
    | .lro => chars "lro"
    | .rlo => chars "rlo"
  fallback := .ltr

/-- `enum class TimeRelationEnum`, private/mx/core/Enums.h 1723-1731. -/
inductive TimeRelationEnum where
  | parentheses | bracket | equals | slash | space | hyphen
deriving Repr, DecidableEq

/-- The chain of `tryParseTimeRelationEnum` (or `parseTimeRelationEnum`), the switch of `toString` and the default of `parseTimeRelationEnum`, private/mx/core/Enums.cpp 3509-3539. -/
instance : StringEnum TimeRelationEnum where
  chain := [
    (chars "parentheses", .parentheses), (chars "bracket", .bracket), (chars "equals", .equals), (chars "slash", .slash), (chars "space", .space),
    (chars "hyphen", .hyphen)]
  toStr
    | .parentheses => chars "parentheses"
    | .bracket => chars "bracket"
    | .equals => chars "equals"
    | .slash => chars "slash"
    | .space => chars "space"
    | .hyphen => chars "hyphen"
  fallback := .parentheses

/-- `enum class TimeSeparator`, private/mx/core/Enums.h 1749-1756. -/
inductive TimeSeparator where
  | none | horizontal | diagonal | vertical | adjacent
deriving Repr, DecidableEq

/-- The chain of `tryParseTimeSeparator` (or `parseTimeSeparator`), the switch of `toString` and the default of `parseTimeSeparator`, private/mx/core/Enums.cpp 3553-3581. -/
instance : StringEnum TimeSeparator where
  chain := [
    (chars "none", .none), (chars "horizontal", .horizontal), (chars "diagonal", .diagonal), (chars "vertical", .vertical),
    (chars "adjacent", .adjacent)]
  toStr
    | .none => chars "none"
    | .horizontal => chars "horizontal"
    | .diagonal => chars "diagonal"
    | .vertical => chars "vertical"
    | .adjacent => chars "adjacent"
  fallback := .none

/-- `enum class TimeSymbol`, private/mx/core/Enums.h 1774-1782. -/
inductive TimeSymbol where
  | common | cut | singleNumber | note | dottedNote | normal
deriving Repr, DecidableEq

/-- The chain of `tryParseTimeSymbol` (or `parseTimeSymbol`), the switch of `toString` and the default of `parseTimeSymbol`, private/mx/core/Enums.cpp 3595-3625. -/
instance : StringEnum TimeSymbol where
  chain := [
    (chars "common", .common), (chars "cut", .cut), (chars "single-number", .singleNumber), (chars "note", .note),
    (chars "dotted-note", .dottedNote), (chars "normal", .normal)]
  toStr
    | .common => chars "common"
    | .cut => chars "cut"
    | .singleNumber => chars "single-number"
    | .note => chars "note"
    | .dottedNote => chars "dotted-note"
    | .normal => chars "normal"
  fallback := .common

/-- `enum class TipDirection`, private/mx/core/Enums.h 1795-1805. -/
inductive TipDirection where
  | up | down | left | right | northwest | northeast | southeast | southwest
deriving Repr, DecidableEq

/-- The chain of `tryParseTipDirection` (or `parseTipDirection`), the switch of `toString` and the default of `parseTipDirection`, private/mx/core/Enums.cpp 3639-3673. -/
instance : StringEnum TipDirection where
  chain := [
    (chars "up", .up), (chars "down", .down), (chars "left", .left), (chars "right", .right), (chars "northwest", .northwest),
    (chars "northeast", .northeast), (chars "southeast", .southeast), (chars "southwest", .southwest)]
  toStr
    | .up => chars "up"
    | .down => chars "down"
    | .left => chars "left"
    | .right => chars "right"
    | .northwest => chars "northwest"
    | .northeast => chars "northeast"
    | .southeast => chars "southeast"
    | .southwest => chars "southwest"
  fallback := .up

/-- `enum class TopBottom`, private/mx/core/Enums.h 1818-1822. -/
inductive TopBottom where
  | top | bottom
deriving Repr, DecidableEq

/-- The chain of `tryParseTopBottom` (or `parseTopBottom`), the switch of `toString` and the default of `parseTopBottom`, private/mx/core/Enums.cpp 3687-3709. -/
instance : StringEnum TopBottom where
  chain := [
    (chars "top", .top), (chars "bottom", .bottom)]
  toStr
    | .top => chars "top"
    | .bottom => chars "bottom"
  fallback := .top

/-- `enum class TrillStep`, private/mx/core/Enums.h 1835-1840. -/
inductive TrillStep where
  | whole | half | unison
deriving Repr, DecidableEq

/-- The chain of `tryParseTrillStep` (or `parseTrillStep`), the switch of `toString` and the default of `parseTrillStep`, private/mx/core/Enums.cpp 3723-3747. -/
instance : StringEnum TrillStep where
  chain := [
    (chars "whole", .whole), (chars "half", .half), (chars "unison", .unison)]
  toStr
    | .whole => chars "whole"
    | .half => chars "half"
    | .unison => chars "unison"
  fallback := .whole

/-- `enum class TwoNoteTurn`, private/mx/core/Enums.h 1853-1858. -/
inductive TwoNoteTurn where
  | whole | half | none
deriving Repr, DecidableEq

/-- The chain of `tryParseTwoNoteTurn` (or `parseTwoNoteTurn`), the switch of `toString` and the default of `parseTwoNoteTurn`, private/mx/core/Enums.cpp 3761-3785. -/
instance : StringEnum TwoNoteTurn where
  chain := [
    (chars "whole", .whole), (chars "half", .half), (chars "none", .none)]
  toStr
    | .whole => chars "whole"
    | .half => chars "half"
    | .none => chars "none"
  fallback := .whole

/-- `enum class UpDown`, private/mx/core/Enums.h 1871-1875. -/
inductive UpDown where
  | up | down
deriving Repr, DecidableEq

/-- The chain of `tryParseUpDown` (or `parseUpDown`), the switch of `toString` and the default of `parseUpDown`, private/mx/core/Enums.cpp 3799-3821. -/
instance : StringEnum UpDown where
  chain := [
    (chars "up", .up), (chars "down", .down)]
  toStr
    | .up => chars "up"
    | .down => chars "down"
  fallback := .up

/-- `enum class UpDownStopContinue`, private/mx/core/Enums.h 1888-1894. -/
inductive UpDownStopContinue where
  | up | down | stop | continue_
deriving Repr, DecidableEq

/-- The chain of `tryParseUpDownStopContinue` (or `parseUpDownStopContinue`), the switch of `toString` and the default of `parseUpDownStopContinue`, private/mx/core/Enums.cpp 3835-3861. -/
instance : StringEnum UpDownStopContinue where
  chain := [
    (chars "up", .up), (chars "down", .down), (chars "stop", .stop), (chars "continue", .continue_)]
  toStr
    | .up => chars "up"
    | .down => chars "down"
    | .stop => chars "stop"
    | .continue_ => chars "continue"
  fallback := .up

/-- `enum class UprightInverted`, private/mx/core/Enums.h 1907-1911. -/
inductive UprightInverted where
  | upright | inverted
deriving Repr, DecidableEq

/-- The chain of `tryParseUprightInverted` (or `parseUprightInverted`), the switch of `toString` and the default of `parseUprightInverted`, private/mx/core/Enums.cpp 3875-3897. -/
instance : StringEnum UprightInverted where
  chain := [
    (chars "upright", .upright), (chars "inverted", .inverted)]
  toStr
    | .upright => chars "upright"
    | .inverted => chars "inverted"
  fallback := .upright

/-- `enum class Valign`, private/mx/core/Enums.h 1924-1930. -/
inductive Valign where
  | top | middle | bottom | baseline
deriving Repr, DecidableEq

/-- The chain of `tryParseValign` (or `parseValign`), the switch of `toString` and the default of `parseValign`, private/mx/core/Enums.cpp 3911-3937. -/
instance : StringEnum Valign where
  chain := [
    (chars "top", .top), (chars "middle", .middle), (chars "bottom", .bottom), (chars "baseline", .baseline)]
  toStr
    | .top => chars "top"
    | .middle => chars "middle"
    | .bottom => chars "bottom"
    | .baseline => chars "baseline"
  fallback := .top

/-- `enum class ValignImage`, private/mx/core/Enums.h 1943-1948. -/
inductive ValignImage where
  | top | middle | bottom
deriving Repr, DecidableEq

/-- The chain of `tryParseValignImage` (or `parseValignImage`), the switch of `toString` and the default of `parseValignImage`, private/mx/core/Enums.cpp 3951-3975. -/
instance : StringEnum ValignImage where
  chain := [
    (chars "top", .top), (chars "middle", .middle), (chars "bottom", .bottom)]
  toStr
    | .top => chars "top"
    | .middle => chars "middle"
    | .bottom => chars "bottom"
  fallback := .top

/-- `enum class WedgeType`, private/mx/core/Enums.h 1963-1969. -/
inductive WedgeType where
  | crescendo | diminuendo | stop | continue_
deriving Repr, DecidableEq

/-- The chain of `tryParseWedgeType` (or `parseWedgeType`), the switch of `toString` and the default of `parseWedgeType`, private/mx/core/Enums.cpp 3989-4015. -/
instance : StringEnum WedgeType where
  chain := [
    (chars "crescendo", .crescendo), (chars "diminuendo", .diminuendo), (chars "stop", .stop), (chars "continue", .continue_)]
  toStr
    | .crescendo => chars "crescendo"
    | .diminuendo => chars "diminuendo"
    | .stop => chars "stop"
    | .continue_ => chars "continue"
  fallback := .crescendo

/-- `enum class Winged`, private/mx/core/Enums.h 1984-1991. -/
inductive Winged where
  | none | straight | curved | doubleStraight | doubleCurved
deriving Repr, DecidableEq

/-- The chain of `tryParseWinged` (or `parseWinged`), the switch of `toString` and the default of `parseWinged`, private/mx/core/Enums.cpp 4029-4057. -/
instance : StringEnum Winged where
  chain := [
    (chars "none", .none), (chars "straight", .straight), (chars "curved", .curved), (chars "double-straight", .doubleStraight),
    (chars "double-curved", .doubleCurved)]
  toStr
    | .none => chars "none"
    | .straight => chars "straight"
    | .curved => chars "curved"
    | .doubleStraight => chars "double-straight"
    | .doubleCurved => chars "double-curved"
  fallback := .none

/-- `enum class WoodEnum`, private/mx/core/Enums.h 2005-2021. -/
inductive WoodEnum where
  | boardClapper | cabasa | castanets | claves | guiro | logDrum | maraca | maracas | ratchet | sandpaperBlocks | slitDrum | templeBlock
  | vibraslap | woodBlock
deriving Repr, DecidableEq

/-- The chain of `tryParseWoodEnum` (or `parseWoodEnum`), the switch of `toString` and the default of `parseWoodEnum`, private/mx/core/Enums.cpp 4071-4117. -/
instance : StringEnum WoodEnum where
  chain := [
    (chars "board clapper", .boardClapper), (chars "cabasa", .cabasa), (chars "castanets", .castanets), (chars "claves", .claves),
    (chars "guiro", .guiro), (chars "log drum", .logDrum), (chars "maraca", .maraca), (chars "maracas", .maracas), (chars "ratchet", .ratchet),
    (chars "sandpaper blocks", .sandpaperBlocks), (chars "slit drum", .slitDrum), (chars "temple block", .templeBlock),
    (chars "vibraslap", .vibraslap), (chars "wood block", .woodBlock)]
  toStr
    | .boardClapper => chars "board clapper"
    | .cabasa => chars "cabasa"
    | .castanets => chars "castanets"
    | .claves => chars "claves"
    | .guiro => chars "guiro"
    | .logDrum => chars "log drum"
    | .maraca => chars "maraca"
    | .maracas => chars "maracas"
    | .ratchet => chars "ratchet"
    | .sandpaperBlocks => chars "sandpaper blocks"
    | .slitDrum => chars "slit drum"
    | .templeBlock => chars "temple block"
    | .vibraslap => chars "vibraslap"
    | .woodBlock => chars "wood block"
  fallback := .boardClapper

/-- `enum class YesNo`, private/mx/core/Enums.h 2034-2038. -/
inductive YesNo where
  | yes | no
deriving Repr, DecidableEq

/-- The chain of `tryParseYesNo` (or `parseYesNo`), the switch of `toString` and the default of `parseYesNo`, private/mx/core/Enums.cpp 4131-4153. -/
instance : StringEnum YesNo where
  chain := [
    (chars "yes", .yes), (chars "no", .no)]
  toStr
    | .yes => chars "yes"
    | .no => chars "no"
  fallback := .yes

/-- `enum class XlinkActuate`, private/mx/core/EnumsBuiltin.h 40-46. -/
inductive XlinkActuate where
  | onLoad | onRequest | other | none
deriving Repr, DecidableEq

/-- The chain of `tryParseXlinkActuate` (or `parseXlinkActuate`), the switch of `toString` and the default of `parseXlinkActuate`, private/mx/core/EnumsBuiltin.cpp 11-32. -/
instance : StringEnum XlinkActuate where
  chain := [
    (chars "onLoad", .onLoad), (chars "onRequest", .onRequest), (chars "other", .other), (chars "none", .none)]
  toStr
    | .onLoad => chars "onLoad"
    | .onRequest => chars "onRequest"
    | .other => chars "other"
    | .none => chars "none"
  fallback := .onLoad

/-- `enum class XlinkShow`, private/mx/core/EnumsBuiltin.h 52-59. -/
inductive XlinkShow where
  | new_ | replace | embed | other | none
deriving Repr, DecidableEq

/-- The chain of `tryParseXlinkShow` (or `parseXlinkShow`), the switch of `toString` and the default of `parseXlinkShow`, private/mx/core/EnumsBuiltin.cpp 46-69. -/
instance : StringEnum XlinkShow where
  chain := [
    (chars "new", .new_), (chars "replace", .replace), (chars "embed", .embed), (chars "other", .other), (chars "none", .none)]
  toStr
    | .new_ => chars "new"
    | .replace => chars "replace"
    | .embed => chars "embed"
    | .other => chars "other"
    | .none => chars "none"
  fallback := .new_

/-- `enum class XlinkType`, private/mx/core/EnumsBuiltin.h 14-22. -/
inductive XlinkType where
  | simple | extended | title | resource | locator | arc
deriving Repr, DecidableEq

/-- The chain of `tryParseXlinkType` (or `parseXlinkType`), the switch of `toString` and the default of `parseXlinkType`, private/mx/core/EnumsBuiltin.cpp 83-108. -/
instance : StringEnum XlinkType where
  chain := [
    (chars "simple", .simple), (chars "extended", .extended), (chars "title", .title), (chars "resource", .resource), (chars "locator", .locator),
    (chars "arc", .arc)]
  toStr
    | .simple => chars "simple"
    | .extended => chars "extended"
    | .title => chars "title"
    | .resource => chars "resource"
    | .locator => chars "locator"
    | .arc => chars "arc"
  fallback := .simple

/-- `enum class XmlSpace`, private/mx/core/EnumsBuiltin.h 29-33. -/
inductive XmlSpace where
  | default_ | preserve
deriving Repr, DecidableEq

/-- The chain of `tryParseXmlSpace` (or `parseXmlSpace`), the switch of `toString` and the default of `parseXmlSpace`, private/mx/core/EnumsBuiltin.cpp 122-139. -/
instance : StringEnum XmlSpace where
  chain := [
    (chars "default", .default_), (chars "preserve", .preserve)]
  toStr
    | .default_ => chars "default"
    | .preserve => chars "preserve"
  fallback := .default_

end Mx.Core

namespace Mx

/-- The enumerations with a text form. -/
inductive EnumName where
  | AboveBelow | AccidentalValue | ArrowDirectionEnum | ArrowStyleEnum | BackwardForward | BarStyleEnum | BeamValue | BeaterValue | BreathMarkValue
  | CancelLocation | CircularArrowEnum | ClefSign | CssFontSize | DegreeSymbolValue | DegreeTypeValue | DistanceTypeEnum | DynamicsEnum
  | EffectEnum | EnclosureShape | Fan | FermataShape | FontStyle | FontWeight | GlassEnum | GroupBarlineValue | GroupSymbolValue | HandbellValue
  | HarmonyType | HoleClosedLocation | HoleClosedValue | KindValue | LeftCenterRight | LeftRight | LineEnd | LineShape | LineType | LineWidthTypeEnum
  | MarginType | MeasureNumberingValue | MembraneEnum | MetalEnum | ModeEnum | MuteEnum | NoteSizeType | NoteTypeValue | NoteheadValue
  | OnOff | OverUnder | PitchedEnum | PrincipalVoiceSymbol | RightLeftMiddle | SemiPitchedEnum | ShowFrets | ShowTuplet | StaffTypeEnum
  | StartNote | StartStop | StartStopChangeContinue | StartStopContinue | StartStopDiscontinue | StartStopSingle | StemValue | StepEnum
  | StickLocationEnum | StickMaterialEnum | StickTypeEnum | SyllabicEnum | SymbolSize | TextDirection | TimeRelationEnum | TimeSeparator
  | TimeSymbol | TipDirection | TopBottom | TrillStep | TwoNoteTurn | UpDown | UpDownStopContinue | UprightInverted | Valign | ValignImage
  | WedgeType | Winged | WoodEnum | YesNo | XlinkActuate | XlinkShow | XlinkType | XmlSpace
deriving Repr, DecidableEq

/-- The type named. -/
@[reducible] def EnumName.Carrier : EnumName → Type
  | .AboveBelow => Core.AboveBelow
  | .AccidentalValue => Core.AccidentalValue
  | .ArrowDirectionEnum => Core.ArrowDirectionEnum
  | .ArrowStyleEnum => Core.ArrowStyleEnum
  | .BackwardForward => Core.BackwardForward
  | .BarStyleEnum => Core.BarStyleEnum
  | .BeamValue => Core.BeamValue
  | .BeaterValue => Core.BeaterValue
  | .BreathMarkValue => Core.BreathMarkValue
  | .CancelLocation => Core.CancelLocation
  | .CircularArrowEnum => Core.CircularArrowEnum
  | .ClefSign => Core.ClefSign
  | .CssFontSize => Core.CssFontSize
  | .DegreeSymbolValue => Core.DegreeSymbolValue
  | .DegreeTypeValue => Core.DegreeTypeValue
  | .DistanceTypeEnum => Core.DistanceTypeEnum
  | .DynamicsEnum => Core.DynamicsEnum
  | .EffectEnum => Core.EffectEnum
  | .EnclosureShape => Core.EnclosureShape
  | .Fan => Core.Fan
  | .FermataShape => Core.FermataShape
  | .FontStyle => Core.FontStyle
  | .FontWeight => Core.FontWeight
  | .GlassEnum => Core.GlassEnum
  | .GroupBarlineValue => Core.GroupBarlineValue
  | .GroupSymbolValue => Core.GroupSymbolValue
  | .HandbellValue => Core.HandbellValue
  | .HarmonyType => Core.HarmonyType
  | .HoleClosedLocation => Core.HoleClosedLocation
  | .HoleClosedValue => Core.HoleClosedValue
  | .KindValue => Core.KindValue
  | .LeftCenterRight => Core.LeftCenterRight
  | .LeftRight => Core.LeftRight
  | .LineEnd => Core.LineEnd
  | .LineShape => Core.LineShape
  | .LineType => Core.LineType
  | .LineWidthTypeEnum => Core.LineWidthTypeEnum
  | .MarginType => Core.MarginType
  | .MeasureNumberingValue => Core.MeasureNumberingValue
  | .MembraneEnum => Core.MembraneEnum
  | .MetalEnum => Core.MetalEnum
  | .ModeEnum => Core.ModeEnum
  | .MuteEnum => Core.MuteEnum
  | .NoteSizeType => Core.NoteSizeType
  | .NoteTypeValue => Core.NoteTypeValue
  | .NoteheadValue => Core.NoteheadValue
  | .OnOff => Core.OnOff
  | .OverUnder => Core.OverUnder
  | .PitchedEnum => Core.PitchedEnum
  | .PrincipalVoiceSymbol => Core.PrincipalVoiceSymbol
  | .RightLeftMiddle => Core.RightLeftMiddle
  | .SemiPitchedEnum => Core.SemiPitchedEnum
  | .ShowFrets => Core.ShowFrets
  | .ShowTuplet => Core.ShowTuplet
  | .StaffTypeEnum => Core.StaffTypeEnum
  | .StartNote => Core.StartNote
  | .StartStop => Core.StartStop
  | .StartStopChangeContinue => Core.StartStopChangeContinue
  | .StartStopContinue => Core.StartStopContinue
  | .StartStopDiscontinue => Core.StartStopDiscontinue
  | .StartStopSingle => Core.StartStopSingle
  | .StemValue => Core.StemValue
  | .StepEnum => Core.StepEnum
  | .StickLocationEnum => Core.StickLocationEnum
  | .StickMaterialEnum => Core.StickMaterialEnum
  | .StickTypeEnum => Core.StickTypeEnum
  | .SyllabicEnum => Core.SyllabicEnum
  | .SymbolSize => Core.SymbolSize
  | .TextDirection => Core.TextDirection
  | .TimeRelationEnum => Core.TimeRelationEnum
  | .TimeSeparator => Core.TimeSeparator
  | .TimeSymbol => Core.TimeSymbol
  | .TipDirection => Core.TipDirection
  | .TopBottom => Core.TopBottom
  | .TrillStep => Core.TrillStep
  | .TwoNoteTurn => Core.TwoNoteTurn
  | .UpDown => Core.UpDown
  | .UpDownStopContinue => Core.UpDownStopContinue
  | .UprightInverted => Core.UprightInverted
  | .Valign => Core.Valign
  | .ValignImage => Core.ValignImage
  | .WedgeType => Core.WedgeType
  | .Winged => Core.Winged
  | .WoodEnum => Core.WoodEnum
  | .YesNo => Core.YesNo
  | .XlinkActuate => Core.XlinkActuate
  | .XlinkShow => Core.XlinkShow
  | .XlinkType => Core.XlinkType
  | .XmlSpace => Core.XmlSpace

instance EnumName.stringEnum : (n : EnumName) → StringEnum n.Carrier
  | .AboveBelow => (inferInstance : StringEnum Core.AboveBelow)
  | .AccidentalValue => (inferInstance : StringEnum Core.AccidentalValue)
  | .ArrowDirectionEnum => (inferInstance : StringEnum Core.ArrowDirectionEnum)
  | .ArrowStyleEnum => (inferInstance : StringEnum Core.ArrowStyleEnum)
  | .BackwardForward => (inferInstance : StringEnum Core.BackwardForward)
  | .BarStyleEnum => (inferInstance : StringEnum Core.BarStyleEnum)
  | .BeamValue => (inferInstance : StringEnum Core.BeamValue)
  | .BeaterValue => (inferInstance : StringEnum Core.BeaterValue)
  | .BreathMarkValue => (inferInstance : StringEnum Core.BreathMarkValue)
  | .CancelLocation => (inferInstance : StringEnum Core.CancelLocation)
  | .CircularArrowEnum => (inferInstance : StringEnum Core.CircularArrowEnum)
  | .ClefSign => (inferInstance : StringEnum Core.ClefSign)
  | .CssFontSize => (inferInstance : StringEnum Core.CssFontSize)
  | .DegreeSymbolValue => (inferInstance : StringEnum Core.DegreeSymbolValue)
  | .DegreeTypeValue => (inferInstance : StringEnum Core.DegreeTypeValue)
  | .DistanceTypeEnum => (inferInstance : StringEnum Core.DistanceTypeEnum)
  | .DynamicsEnum => (inferInstance : StringEnum Core.DynamicsEnum)
  | .EffectEnum => (inferInstance : StringEnum Core.EffectEnum)
  | .EnclosureShape => (inferInstance : StringEnum Core.EnclosureShape)
  | .Fan => (inferInstance : StringEnum Core.Fan)
  | .FermataShape => (inferInstance : StringEnum Core.FermataShape)
  | .FontStyle => (inferInstance : StringEnum Core.FontStyle)
  | .FontWeight => (inferInstance : StringEnum Core.FontWeight)
  | .GlassEnum => (inferInstance : StringEnum Core.GlassEnum)
  | .GroupBarlineValue => (inferInstance : StringEnum Core.GroupBarlineValue)
  | .GroupSymbolValue => (inferInstance : StringEnum Core.GroupSymbolValue)
  | .HandbellValue => (inferInstance : StringEnum Core.HandbellValue)
  | .HarmonyType => (inferInstance : StringEnum Core.HarmonyType)
  | .HoleClosedLocation => (inferInstance : StringEnum Core.HoleClosedLocation)
  | .HoleClosedValue => (inferInstance : StringEnum Core.HoleClosedValue)
  | .KindValue => (inferInstance : StringEnum Core.KindValue)
  | .LeftCenterRight => (inferInstance : StringEnum Core.LeftCenterRight)
  | .LeftRight => (inferInstance : StringEnum Core.LeftRight)
  | .LineEnd => (inferInstance : StringEnum Core.LineEnd)
  | .LineShape => (inferInstance : StringEnum Core.LineShape)
  | .LineType => (inferInstance : StringEnum Core.LineType)
  | .LineWidthTypeEnum => (inferInstance : StringEnum Core.LineWidthTypeEnum)
  | .MarginType => (inferInstance : StringEnum Core.MarginType)
  | .MeasureNumberingValue => (inferInstance : StringEnum Core.MeasureNumberingValue)
  | .MembraneEnum => (inferInstance : StringEnum Core.MembraneEnum)
  | .MetalEnum => (inferInstance : StringEnum Core.MetalEnum)
  | .ModeEnum => (inferInstance : StringEnum Core.ModeEnum)
  | .MuteEnum => (inferInstance : StringEnum Core.MuteEnum)
  | .NoteSizeType => (inferInstance : StringEnum Core.NoteSizeType)
  | .NoteTypeValue => (inferInstance : StringEnum Core.NoteTypeValue)
  | .NoteheadValue => (inferInstance : StringEnum Core.NoteheadValue)
  | .OnOff => (inferInstance : StringEnum Core.OnOff)
  | .OverUnder => (inferInstance : StringEnum Core.OverUnder)
  | .PitchedEnum => (inferInstance : StringEnum Core.PitchedEnum)
  | .PrincipalVoiceSymbol => (inferInstance : StringEnum Core.PrincipalVoiceSymbol)
  | .RightLeftMiddle => (inferInstance : StringEnum Core.RightLeftMiddle)
  | .SemiPitchedEnum => (inferInstance : StringEnum Core.SemiPitchedEnum)
  | .ShowFrets => (inferInstance : StringEnum Core.ShowFrets)
  | .ShowTuplet => (inferInstance : StringEnum Core.ShowTuplet)
  | .StaffTypeEnum => (inferInstance : StringEnum Core.StaffTypeEnum)
  | .StartNote => (inferInstance : StringEnum Core.StartNote)
  | .StartStop => (inferInstance : StringEnum Core.StartStop)
  | .StartStopChangeContinue => (inferInstance : StringEnum Core.StartStopChangeContinue)
  | .StartStopContinue => (inferInstance : StringEnum Core.StartStopContinue)
  | .StartStopDiscontinue => (inferInstance : StringEnum Core.StartStopDiscontinue)
  | .StartStopSingle => (inferInstance : StringEnum Core.StartStopSingle)
  | .StemValue => (inferInstance : StringEnum Core.StemValue)
  | .StepEnum => (inferInstance : StringEnum Core.StepEnum)
  | .StickLocationEnum => (inferInstance : StringEnum Core.StickLocationEnum)
  | .StickMaterialEnum => (inferInstance : StringEnum Core.StickMaterialEnum)
  | .StickTypeEnum => (inferInstance : StringEnum Core.StickTypeEnum)
  | .SyllabicEnum => (inferInstance : StringEnum Core.SyllabicEnum)
  | .SymbolSize => (inferInstance : StringEnum Core.SymbolSize)
  | .TextDirection => (inferInstance : StringEnum Core.TextDirection)
  | .TimeRelationEnum => (inferInstance : StringEnum Core.TimeRelationEnum)
  | .TimeSeparator => (inferInstance : StringEnum Core.TimeSeparator)
  | .TimeSymbol => (inferInstance : StringEnum Core.TimeSymbol)
  | .TipDirection => (inferInstance : StringEnum Core.TipDirection)
  | .TopBottom => (inferInstance : StringEnum Core.TopBottom)
  | .TrillStep => (inferInstance : StringEnum Core.TrillStep)
  | .TwoNoteTurn => (inferInstance : StringEnum Core.TwoNoteTurn)
  | .UpDown => (inferInstance : StringEnum Core.UpDown)
  | .UpDownStopContinue => (inferInstance : StringEnum Core.UpDownStopContinue)
  | .UprightInverted => (inferInstance : StringEnum Core.UprightInverted)
  | .Valign => (inferInstance : StringEnum Core.Valign)
  | .ValignImage => (inferInstance : StringEnum Core.ValignImage)
  | .WedgeType => (inferInstance : StringEnum Core.WedgeType)
  | .Winged => (inferInstance : StringEnum Core.Winged)
  | .WoodEnum => (inferInstance : StringEnum Core.WoodEnum)
  | .YesNo => (inferInstance : StringEnum Core.YesNo)
  | .XlinkActuate => (inferInstance : StringEnum Core.XlinkActuate)
  | .XlinkShow => (inferInstance : StringEnum Core.XlinkShow)
  | .XlinkType => (inferInstance : StringEnum Core.XlinkType)
  | .XmlSpace => (inferInstance : StringEnum Core.XmlSpace)

end Mx
