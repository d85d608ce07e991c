import Verif.Model.CoreEnums

/-
GENERATED by a script from the schema Documents/musicxml.xsd of the repository (MusicXML 3.0): for every schema type with enumerated values, the
allowed texts in the order of the schema.  The enumerator beside a text is the text in camel case (the rule of the library's naming); the exceptions are
the note values `16th`..`1024th`, `TAB`, and the empty text, named `emptystring` by the library.  `DynamicsEnum` is taken from the child elements of
`dynamics`.  The values of `ModeEnum`, `DistanceTypeEnum`, `LineWidthTypeEnum` are those the schema names in its documentation, with `other`;
the xlink and xml:space values are those of the W3C recommendations.
-/
namespace Mx.Spec

open Core

/-- The texts of each enumeration according to the schema. -/
def schemaRows : (n : EnumName) → List (n.Carrier × Str)
  -- `above-below`, musicxml.xsd 28-36
  | .AboveBelow => [(.above, chars "above"), (.below, chars "below")]
  -- `accidental-value`, musicxml.xsd 1219-1259
  | .AccidentalValue => [(.sharp, chars "sharp"), (.natural, chars "natural"), (.flat, chars "flat"), (.doubleSharp, chars "double-sharp"),
      (.sharpSharp, chars "sharp-sharp"), (.flatFlat, chars "flat-flat"), (.naturalSharp, chars "natural-sharp"),
      (.naturalFlat, chars "natural-flat"), (.quarterFlat, chars "quarter-flat"), (.quarterSharp, chars "quarter-sharp"),
      (.threeQuartersFlat, chars "three-quarters-flat"), (.threeQuartersSharp, chars "three-quarters-sharp"),
      (.sharpDown, chars "sharp-down"), (.sharpUp, chars "sharp-up"), (.naturalDown, chars "natural-down"),
      (.naturalUp, chars "natural-up"), (.flatDown, chars "flat-down"), (.flatUp, chars "flat-up"), (.tripleSharp, chars "triple-sharp"),
      (.tripleFlat, chars "triple-flat"), (.slashQuarterSharp, chars "slash-quarter-sharp"), (.slashSharp, chars "slash-sharp"),
      (.slashFlat, chars "slash-flat"), (.doubleSlashFlat, chars "double-slash-flat"), (.sharp1, chars "sharp-1"),
      (.sharp2, chars "sharp-2"), (.sharp3, chars "sharp-3"), (.sharp5, chars "sharp-5"), (.flat1, chars "flat-1"),
      (.flat2, chars "flat-2"), (.flat3, chars "flat-3"), (.flat4, chars "flat-4"), (.sori, chars "sori"), (.koron, chars "koron")]
  -- `arrow-direction`, musicxml.xsd 1261-1280
  | .ArrowDirectionEnum => [(.left, chars "left"), (.up, chars "up"), (.right, chars "right"), (.down, chars "down"), (.northwest, chars "northwest"),
      (.northeast, chars "northeast"), (.southeast, chars "southeast"), (.southwest, chars "southwest"),
      (.leftRight, chars "left right"), (.upDown, chars "up down"), (.northwestSoutheast, chars "northwest southeast"),
      (.northeastSouthwest, chars "northeast southwest"), (.other, chars "other")]
  -- `arrow-style`, musicxml.xsd 1282-1295
  | .ArrowStyleEnum => [(.single, chars "single"), (.double_, chars "double"), (.filled, chars "filled"), (.hollow, chars "hollow"),
      (.paired, chars "paired"), (.combined, chars "combined"), (.other, chars "other")]
  -- `backward-forward`, musicxml.xsd 687-695
  | .BackwardForward => [(.backward, chars "backward"), (.forward, chars "forward")]
  -- `bar-style`, musicxml.xsd 697-714
  | .BarStyleEnum => [(.regular, chars "regular"), (.dotted, chars "dotted"), (.dashed, chars "dashed"), (.heavy, chars "heavy"),
      (.lightLight, chars "light-light"), (.lightHeavy, chars "light-heavy"), (.heavyLight, chars "heavy-light"),
      (.heavyHeavy, chars "heavy-heavy"), (.tick, chars "tick"), (.short_, chars "short"), (.none, chars "none")]
  -- `beam-value`, musicxml.xsd 1297-1308
  | .BeamValue => [(.begin, chars "begin"), (.continue_, chars "continue"), (.«end», chars "end"), (.forwardHook, chars "forward hook"),
      (.backwardHook, chars "backward hook")]
  -- `beater-value`, musicxml.xsd 772-795
  | .BeaterValue => [(.bow, chars "bow"), (.chimeHammer, chars "chime hammer"), (.coin, chars "coin"), (.finger, chars "finger"),
      (.fingernail, chars "fingernail"), (.fist, chars "fist"), (.guiroScraper, chars "guiro scraper"), (.hammer, chars "hammer"),
      (.hand, chars "hand"), (.jazzStick, chars "jazz stick"), (.knittingNeedle, chars "knitting needle"),
      (.metalHammer, chars "metal hammer"), (.snareStick, chars "snare stick"), (.spoonMallet, chars "spoon mallet"),
      (.triangleBeater, chars "triangle beater"), (.triangleBeaterPlain, chars "triangle beater plain"),
      (.wireBrush, chars "wire brush")]
  -- `breath-mark-value`, musicxml.xsd 1310-1319
  | .BreathMarkValue => [(.emptystring, chars ""), (.comma, chars "comma"), (.tick, chars "tick")]
  -- `cancel-location`, musicxml.xsd 567-576
  | .CancelLocation => [(.left, chars "left"), (.right, chars "right"), (.beforeBarline, chars "before-barline")]
  -- `circular-arrow`, musicxml.xsd 1321-1329
  | .CircularArrowEnum => [(.clockwise, chars "clockwise"), (.anticlockwise, chars "anticlockwise")]
  -- `clef-sign`, musicxml.xsd 578-591
  | .ClefSign => [(.g, chars "G"), (.f, chars "F"), (.c, chars "C"), (.percussion, chars "percussion"), (.tab, chars "TAB"),
      (.jianpu, chars "jianpu"), (.none, chars "none")]
  -- `css-font-size`, musicxml.xsd 70-83
  | .CssFontSize => [(.xxSmall, chars "xx-small"), (.xSmall, chars "x-small"), (.small, chars "small"), (.medium, chars "medium"),
      (.large, chars "large"), (.xLarge, chars "x-large"), (.xxLarge, chars "xx-large")]
  -- `degree-symbol-value`, musicxml.xsd 797-808
  | .DegreeSymbolValue => [(.major, chars "major"), (.minor, chars "minor"), (.augmented, chars "augmented"), (.diminished, chars "diminished"),
      (.halfDiminished, chars "half-diminished")]
  -- `degree-type-value`, musicxml.xsd 810-819
  | .DegreeTypeValue => [(.add, chars "add"), (.alter, chars "alter"), (.subtract, chars "subtract")]
  -- the values named in the documentation of `distance-type`, musicxml.xsd 1174-1179, and "other"
  | .DistanceTypeEnum => [(.beam, chars "beam"), (.hyphen, chars "hyphen"), (.other, chars "other")]
  -- the child elements of `dynamics`, Documents/musicxml.xsd 1991-2027
  | .DynamicsEnum => [(.p, chars "p"), (.pp, chars "pp"), (.ppp, chars "ppp"), (.pppp, chars "pppp"), (.ppppp, chars "ppppp"), (.pppppp, chars "pppppp"),
      (.f, chars "f"), (.ff, chars "ff"), (.fff, chars "fff"), (.ffff, chars "ffff"), (.fffff, chars "fffff"), (.ffffff, chars "ffffff"),
      (.mp, chars "mp"), (.mf, chars "mf"), (.sf, chars "sf"), (.sfp, chars "sfp"), (.sfpp, chars "sfpp"), (.fp, chars "fp"),
      (.rf, chars "rf"), (.rfz, chars "rfz"), (.sfz, chars "sfz"), (.sffz, chars "sffz"), (.fz, chars "fz"),
      (.otherDynamics, chars "other-dynamics")]
  -- `effect`, musicxml.xsd 821-841
  | .EffectEnum => [(.anvil, chars "anvil"), (.autoHorn, chars "auto horn"), (.birdWhistle, chars "bird whistle"), (.cannon, chars "cannon"),
      (.duckCall, chars "duck call"), (.gunShot, chars "gun shot"), (.klaxonHorn, chars "klaxon horn"), (.lionsRoar, chars "lions roar"),
      (.policeWhistle, chars "police whistle"), (.siren, chars "siren"), (.slideWhistle, chars "slide whistle"),
      (.thunderSheet, chars "thunder sheet"), (.windMachine, chars "wind machine"), (.windWhistle, chars "wind whistle")]
  -- `enclosure-shape`, musicxml.xsd 92-106
  | .EnclosureShape => [(.rectangle, chars "rectangle"), (.square, chars "square"), (.oval, chars "oval"), (.circle, chars "circle"),
      (.bracket, chars "bracket"), (.triangle, chars "triangle"), (.diamond, chars "diamond"), (.none, chars "none")]
  -- `fan`, musicxml.xsd 1331-1340
  | .Fan => [(.accel, chars "accel"), (.rit, chars "rit"), (.none, chars "none")]
  -- `fermata-shape`, musicxml.xsd 108-118
  | .FermataShape => [(.normal, chars "normal"), (.angled, chars "angled"), (.square, chars "square"), (.emptystring, chars "")]
  -- `font-style`, musicxml.xsd 127-135
  | .FontStyle => [(.normal, chars "normal"), (.italic, chars "italic")]
  -- `font-weight`, musicxml.xsd 137-145
  | .FontWeight => [(.normal, chars "normal"), (.bold, chars "bold")]
  -- `glass`, musicxml.xsd 843-850
  | .GlassEnum => [(.windChimes, chars "wind chimes")]
  -- `group-barline-value`, musicxml.xsd 1522-1531
  | .GroupBarlineValue => [(.yes, chars "yes"), (.no, chars "no"), (.mensurstrich, chars "Mensurstrich")]
  -- `group-symbol-value`, musicxml.xsd 1533-1544
  | .GroupSymbolValue => [(.none, chars "none"), (.brace, chars "brace"), (.line, chars "line"), (.bracket, chars "bracket"), (.square, chars "square")]
  -- `handbell-value`, musicxml.xsd 1342-1359
  | .HandbellValue => [(.damp, chars "damp"), (.echo, chars "echo"), (.gyro, chars "gyro"), (.handMartellato, chars "hand martellato"),
      (.malletLift, chars "mallet lift"), (.malletTable, chars "mallet table"), (.martellato, chars "martellato"),
      (.martellatoLift, chars "martellato lift"), (.mutedMartellato, chars "muted martellato"), (.pluckLift, chars "pluck lift"),
      (.swing, chars "swing")]
  -- `harmony-type`, musicxml.xsd 852-861
  | .HarmonyType => [(.explicit_, chars "explicit"), (.implied, chars "implied"), (.alternate, chars "alternate")]
  -- `hole-closed-location`, musicxml.xsd 1361-1371
  | .HoleClosedLocation => [(.right, chars "right"), (.bottom, chars "bottom"), (.left, chars "left"), (.top, chars "top")]
  -- `hole-closed-value`, musicxml.xsd 1373-1382
  | .HoleClosedValue => [(.yes, chars "yes"), (.no, chars "no"), (.half, chars "half")]
  -- `kind-value`, musicxml.xsd 863-945
  | .KindValue => [(.major, chars "major"), (.minor, chars "minor"), (.augmented, chars "augmented"), (.diminished, chars "diminished"),
      (.dominant, chars "dominant"), (.majorSeventh, chars "major-seventh"), (.minorSeventh, chars "minor-seventh"),
      (.diminishedSeventh, chars "diminished-seventh"), (.augmentedSeventh, chars "augmented-seventh"),
      (.halfDiminished, chars "half-diminished"), (.majorMinor, chars "major-minor"), (.majorSixth, chars "major-sixth"),
      (.minorSixth, chars "minor-sixth"), (.dominantNinth, chars "dominant-ninth"), (.majorNinth, chars "major-ninth"),
      (.minorNinth, chars "minor-ninth"), (.dominant11th, chars "dominant-11th"), (.major11th, chars "major-11th"),
      (.minor11th, chars "minor-11th"), (.dominant13th, chars "dominant-13th"), (.major13th, chars "major-13th"),
      (.minor13th, chars "minor-13th"), (.suspendedSecond, chars "suspended-second"), (.suspendedFourth, chars "suspended-fourth"),
      (.neapolitan, chars "Neapolitan"), (.italian, chars "Italian"), (.french, chars "French"), (.german, chars "German"),
      (.pedal, chars "pedal"), (.power, chars "power"), (.tristan, chars "Tristan"), (.other, chars "other"), (.none, chars "none")]
  -- `left-center-right`, musicxml.xsd 147-156
  | .LeftCenterRight => [(.left, chars "left"), (.center, chars "center"), (.right, chars "right")]
  -- `left-right`, musicxml.xsd 158-166
  | .LeftRight => [(.left, chars "left"), (.right, chars "right")]
  -- `line-end`, musicxml.xsd 947-958
  | .LineEnd => [(.up, chars "up"), (.down, chars "down"), (.both, chars "both"), (.arrow, chars "arrow"), (.none, chars "none")]
  -- `line-shape`, musicxml.xsd 168-176
  | .LineShape => [(.straight, chars "straight"), (.curved, chars "curved")]
  -- `line-type`, musicxml.xsd 178-188
  | .LineType => [(.solid, chars "solid"), (.dashed, chars "dashed"), (.dotted, chars "dotted"), (.wavy, chars "wavy")]
  -- the values named in the documentation of `line-width-type`, musicxml.xsd 1181-1186, and "other"
  | .LineWidthTypeEnum => [(.beam, chars "beam"), (.bracket, chars "bracket"), (.dashes, chars "dashes"), (.enclosure, chars "enclosure"),
      (.ending, chars "ending"), (.extend, chars "extend"), (.heavyBarline, chars "heavy barline"), (.leger, chars "leger"),
      (.lightBarline, chars "light barline"), (.octaveShift, chars "octave shift"), (.pedal, chars "pedal"),
      (.slurMiddle, chars "slur middle"), (.slurTip, chars "slur tip"), (.staff, chars "staff"), (.stem, chars "stem"),
      (.tieMiddle, chars "tie middle"), (.tieTip, chars "tie tip"), (.tupletBracket, chars "tuplet bracket"), (.wedge, chars "wedge"),
      (.other, chars "other")]
  -- `margin-type`, musicxml.xsd 1188-1197
  | .MarginType => [(.odd, chars "odd"), (.even, chars "even"), (.both, chars "both")]
  -- `measure-numbering-value`, musicxml.xsd 960-969
  | .MeasureNumberingValue => [(.none, chars "none"), (.measure, chars "measure"), (.system, chars "system")]
  -- `membrane`, musicxml.xsd 971-989
  | .MembraneEnum => [(.bassDrum, chars "bass drum"), (.bassDrumOnSide, chars "bass drum on side"), (.bongos, chars "bongos"),
      (.congaDrum, chars "conga drum"), (.gobletDrum, chars "goblet drum"), (.militaryDrum, chars "military drum"),
      (.snareDrum, chars "snare drum"), (.snareDrumSnaresOff, chars "snare drum snares off"), (.tambourine, chars "tambourine"),
      (.tenorDrum, chars "tenor drum"), (.timbales, chars "timbales"), (.tomtom, chars "tomtom")]
  -- `metal`, musicxml.xsd 991-1020
  | .MetalEnum => [(.almglocken, chars "almglocken"), (.bell, chars "bell"), (.bellPlate, chars "bell plate"), (.brakeDrum, chars "brake drum"),
      (.chineseCymbal, chars "Chinese cymbal"), (.cowbell, chars "cowbell"), (.crashCymbals, chars "crash cymbals"),
      (.crotale, chars "crotale"), (.cymbalTongs, chars "cymbal tongs"), (.domedGong, chars "domed gong"),
      (.fingerCymbals, chars "finger cymbals"), (.flexatone, chars "flexatone"), (.gong, chars "gong"), (.hiHat, chars "hi-hat"),
      (.highHatCymbals, chars "high-hat cymbals"), (.handbell, chars "handbell"), (.sistrum, chars "sistrum"),
      (.sizzleCymbal, chars "sizzle cymbal"), (.sleighBells, chars "sleigh bells"), (.suspendedCymbal, chars "suspended cymbal"),
      (.tamTam, chars "tam tam"), (.triangle, chars "triangle"), (.vietnameseHat, chars "Vietnamese hat")]
  -- the values named in the documentation of `mode`, musicxml.xsd 600-605, and "other"
  | .ModeEnum => [(.major, chars "major"), (.minor, chars "minor"), (.dorian, chars "dorian"), (.phrygian, chars "phrygian"),
      (.lydian, chars "lydian"), (.mixolydian, chars "mixolydian"), (.aeolian, chars "aeolian"), (.ionian, chars "ionian"),
      (.locrian, chars "locrian"), (.none, chars "none"), (.other, chars "other")]
  -- `mute`, musicxml.xsd 220-241
  | .MuteEnum => [(.on, chars "on"), (.off, chars "off"), (.straight, chars "straight"), (.cup, chars "cup"),
      (.harmonNoStem, chars "harmon-no-stem"), (.harmonStem, chars "harmon-stem"), (.bucket, chars "bucket"),
      (.plunger, chars "plunger"), (.hat, chars "hat"), (.solotone, chars "solotone"), (.practice, chars "practice"),
      (.stopMute, chars "stop-mute"), (.stopHand, chars "stop-hand"), (.echo, chars "echo"), (.palm, chars "palm")]
  -- `note-size-type`, musicxml.xsd 1206-1215
  | .NoteSizeType => [(.cue, chars "cue"), (.grace, chars "grace"), (.large, chars "large")]
  -- `note-type-value`, musicxml.xsd 1384-1404
  | .NoteTypeValue => [(.oneThousandTwentyFourth, chars "1024th"), (.fiveHundredTwelfth, chars "512th"), (.twoHundredFifthySixth, chars "256th"),
      (.oneHundredTwentyEighth, chars "128th"), (.sixtyFourth, chars "64th"), (.thirtySecond, chars "32nd"), (.sixteenth, chars "16th"),
      (.eighth, chars "eighth"), (.quarter, chars "quarter"), (.half, chars "half"), (.whole, chars "whole"), (.breve, chars "breve"),
      (.long_, chars "long"), (.maxima, chars "maxima")]
  -- `notehead-value`, musicxml.xsd 1406-1441
  | .NoteheadValue => [(.slash, chars "slash"), (.triangle, chars "triangle"), (.diamond, chars "diamond"), (.square, chars "square"),
      (.cross, chars "cross"), (.x, chars "x"), (.circleX, chars "circle-x"), (.invertedTriangle, chars "inverted triangle"),
      (.arrowDown, chars "arrow down"), (.arrowUp, chars "arrow up"), (.slashed, chars "slashed"), (.backSlashed, chars "back slashed"),
      (.normal, chars "normal"), (.cluster, chars "cluster"), (.circleDot, chars "circle dot"), (.leftTriangle, chars "left triangle"),
      (.rectangle, chars "rectangle"), (.none, chars "none"), (.do_, chars "do"), (.re, chars "re"), (.mi, chars "mi"),
      (.fa, chars "fa"), (.faUp, chars "fa up"), (.so, chars "so"), (.la, chars "la"), (.ti, chars "ti")]
  -- `on-off`, musicxml.xsd 1022-1030
  | .OnOff => [(.on, chars "on"), (.off, chars "off")]
  -- `over-under`, musicxml.xsd 285-293
  | .OverUnder => [(.over, chars "over"), (.under, chars "under")]
  -- `pitched`, musicxml.xsd 1032-1045
  | .PitchedEnum => [(.chimes, chars "chimes"), (.glockenspiel, chars "glockenspiel"), (.mallet, chars "mallet"), (.marimba, chars "marimba"),
      (.tubularChimes, chars "tubular chimes"), (.vibraphone, chars "vibraphone"), (.xylophone, chars "xylophone")]
  -- `principal-voice-symbol`, musicxml.xsd 1047-1057
  | .PrincipalVoiceSymbol => [(.hauptstimme, chars "Hauptstimme"), (.nebenstimme, chars "Nebenstimme"), (.plain, chars "plain"), (.none, chars "none")]
  -- `right-left-middle`, musicxml.xsd 725-734
  | .RightLeftMiddle => [(.right, chars "right"), (.left, chars "left"), (.middle, chars "middle")]
  -- `semi-pitched`, musicxml.xsd 346-358
  | .SemiPitchedEnum => [(.high, chars "high"), (.mediumHigh, chars "medium-high"), (.medium, chars "medium"), (.mediumLow, chars "medium-low"),
      (.low, chars "low"), (.veryLow, chars "very-low")]
  -- `show-frets`, musicxml.xsd 607-615
  | .ShowFrets => [(.numbers, chars "numbers"), (.letters, chars "letters")]
  -- `show-tuplet`, musicxml.xsd 1460-1469
  | .ShowTuplet => [(.actual, chars "actual"), (.both, chars "both"), (.none, chars "none")]
  -- `staff-type`, musicxml.xsd 631-642
  | .StaffTypeEnum => [(.ossia, chars "ossia"), (.cue, chars "cue"), (.editorial, chars "editorial"), (.regular, chars "regular"),
      (.alternate, chars "alternate")]
  -- `start-note`, musicxml.xsd 360-369
  | .StartNote => [(.upper, chars "upper"), (.main, chars "main"), (.below, chars "below")]
  -- `start-stop`, musicxml.xsd 371-381
  | .StartStop => [(.start, chars "start"), (.stop, chars "stop")]
  -- `start-stop-change-continue`, musicxml.xsd 1059-1069
  | .StartStopChangeContinue => [(.start, chars "start"), (.stop, chars "stop"), (.change, chars "change"), (.continue_, chars "continue")]
  -- `start-stop-continue`, musicxml.xsd 383-394
  | .StartStopContinue => [(.start, chars "start"), (.stop, chars "stop"), (.continue_, chars "continue")]
  -- `start-stop-discontinue`, musicxml.xsd 736-745
  | .StartStopDiscontinue => [(.start, chars "start"), (.stop, chars "stop"), (.discontinue, chars "discontinue")]
  -- `start-stop-single`, musicxml.xsd 396-405
  | .StartStopSingle => [(.start, chars "start"), (.stop, chars "stop"), (.single, chars "single")]
  -- `stem-value`, musicxml.xsd 1471-1481
  | .StemValue => [(.down, chars "down"), (.up, chars "up"), (.double_, chars "double"), (.none, chars "none")]
  -- `step`, musicxml.xsd 1483-1496
  | .StepEnum => [(.a, chars "A"), (.b, chars "B"), (.c, chars "C"), (.d, chars "D"), (.e, chars "E"), (.f, chars "F"), (.g, chars "G")]
  -- `stick-location`, musicxml.xsd 1087-1097
  | .StickLocationEnum => [(.center, chars "center"), (.rim, chars "rim"), (.cymbalBell, chars "cymbal bell"), (.cymbalEdge, chars "cymbal edge")]
  -- `stick-material`, musicxml.xsd 1099-1110
  | .StickMaterialEnum => [(.soft, chars "soft"), (.medium, chars "medium"), (.hard, chars "hard"), (.shaded, chars "shaded"), (.x, chars "x")]
  -- `stick-type`, musicxml.xsd 1112-1124
  | .StickTypeEnum => [(.bassDrum, chars "bass drum"), (.doubleBassDrum, chars "double bass drum"), (.timpani, chars "timpani"),
      (.xylophone, chars "xylophone"), (.yarn, chars "yarn")]
  -- `syllabic`, musicxml.xsd 1498-1508
  | .SyllabicEnum => [(.single, chars "single"), (.begin, chars "begin"), (.«end», chars "end"), (.middle, chars "middle")]
  -- `symbol-size`, musicxml.xsd 414-423
  | .SymbolSize => [(.full, chars "full"), (.cue, chars "cue"), (.large, chars "large")]
  -- `text-direction`, musicxml.xsd 434-444
  | .TextDirection => [(.ltr, chars "ltr"), (.rtl, chars "rtl"), (.lro, chars "lro"), (.rlo, chars "rlo")]
  -- `time-relation`, musicxml.xsd 644-656
  | .TimeRelationEnum => [(.parentheses, chars "parentheses"), (.bracket, chars "bracket"), (.equals, chars "equals"), (.slash, chars "slash"),
      (.space, chars "space"), (.hyphen, chars "hyphen")]
  -- `time-separator`, musicxml.xsd 658-669
  | .TimeSeparator => [(.none, chars "none"), (.horizontal, chars "horizontal"), (.diagonal, chars "diagonal"), (.vertical, chars "vertical"),
      (.adjacent, chars "adjacent")]
  -- `time-symbol`, musicxml.xsd 671-683
  | .TimeSymbol => [(.common, chars "common"), (.cut, chars "cut"), (.singleNumber, chars "single-number"), (.note, chars "note"),
      (.dottedNote, chars "dotted-note"), (.normal, chars "normal")]
  -- `tip-direction`, musicxml.xsd 1071-1085
  | .TipDirection => [(.up, chars "up"), (.down, chars "down"), (.left, chars "left"), (.right, chars "right"), (.northwest, chars "northwest"),
      (.northeast, chars "northeast"), (.southeast, chars "southeast"), (.southwest, chars "southwest")]
  -- `top-bottom`, musicxml.xsd 455-463
  | .TopBottom => [(.top, chars "top"), (.bottom, chars "bottom")]
  -- `trill-step`, musicxml.xsd 474-483
  | .TrillStep => [(.whole, chars "whole"), (.half, chars "half"), (.unison, chars "unison")]
  -- `two-note-turn`, musicxml.xsd 485-494
  | .TwoNoteTurn => [(.whole, chars "whole"), (.half, chars "half"), (.none, chars "none")]
  -- `up-down`, musicxml.xsd 496-504
  | .UpDown => [(.up, chars "up"), (.down, chars "down")]
  -- `up-down-stop-continue`, musicxml.xsd 1126-1136
  | .UpDownStopContinue => [(.up, chars "up"), (.down, chars "down"), (.stop, chars "stop"), (.continue_, chars "continue")]
  -- `upright-inverted`, musicxml.xsd 506-514
  | .UprightInverted => [(.upright, chars "upright"), (.inverted, chars "inverted")]
  -- `valign`, musicxml.xsd 516-526
  | .Valign => [(.top, chars "top"), (.middle, chars "middle"), (.bottom, chars "bottom"), (.baseline, chars "baseline")]
  -- `valign-image`, musicxml.xsd 528-537
  | .ValignImage => [(.top, chars "top"), (.middle, chars "middle"), (.bottom, chars "bottom")]
  -- `wedge-type`, musicxml.xsd 1138-1148
  | .WedgeType => [(.crescendo, chars "crescendo"), (.diminuendo, chars "diminuendo"), (.stop, chars "stop"), (.continue_, chars "continue")]
  -- `winged`, musicxml.xsd 747-758
  | .Winged => [(.none, chars "none"), (.straight, chars "straight"), (.curved, chars "curved"), (.doubleStraight, chars "double-straight"),
      (.doubleCurved, chars "double-curved")]
  -- `wood`, musicxml.xsd 1150-1170
  | .WoodEnum => [(.boardClapper, chars "board clapper"), (.cabasa, chars "cabasa"), (.castanets, chars "castanets"), (.claves, chars "claves"),
      (.guiro, chars "guiro"), (.logDrum, chars "log drum"), (.maraca, chars "maraca"), (.maracas, chars "maracas"),
      (.ratchet, chars "ratchet"), (.sandpaperBlocks, chars "sandpaper blocks"), (.slitDrum, chars "slit drum"),
      (.templeBlock, chars "temple block"), (.vibraslap, chars "vibraslap"), (.woodBlock, chars "wood block")]
  -- `yes-no`, musicxml.xsd 539-547
  | .YesNo => [(.yes, chars "yes"), (.no, chars "no")]
  -- XLink 1.1
  | .XlinkActuate => [(.onRequest, chars "onRequest"), (.onLoad, chars "onLoad"), (.other, chars "other"), (.none, chars "none")]
  -- XLink 1.1
  | .XlinkShow => [(.new_, chars "new"), (.replace, chars "replace"), (.embed, chars "embed"), (.other, chars "other"), (.none, chars "none")]
  -- XLink 1.1
  | .XlinkType => [(.simple, chars "simple"), (.extended, chars "extended"), (.title, chars "title"), (.resource, chars "resource"),
      (.locator, chars "locator"), (.arc, chars "arc")]
  -- XML 1.0
  | .XmlSpace => [(.default_, chars "default"), (.preserve, chars "preserve")]

end Mx.Spec
