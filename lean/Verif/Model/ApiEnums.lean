/-
GENERATED by a script from include/mx/api/*.h: the enumerations of the public interface (`SoundID` is in Sounds.lean).
-/
namespace Mx.Api

/-- `enum class Bool`, include/mx/api/ApiCommon.h 27-32. -/
inductive Bool where
  | unspecified | yes | no
deriving Repr, DecidableEq

/-- `enum class Placement`, include/mx/api/ApiCommon.h 38-43. -/
inductive Placement where
  | unspecified | above | below
deriving Repr, DecidableEq

/-- `enum class MeasureNumbering`, include/mx/api/ApiCommon.h 45-51. -/
inductive MeasureNumbering where
  | unspecified | none | measure | system
deriving Repr, DecidableEq

/-- `enum class BarlineType`, include/mx/api/BarlineData.h 15-28. -/
inductive BarlineType where
  | unspecified | unsupported | none | normal | lightLight | lightHeavy | heavyLight | dotted | dashed | heavy | heavyHeavy
deriving Repr, DecidableEq

/-- `enum class EndingType`, include/mx/api/BarlineData.h 30-36. -/
inductive EndingType where
  | none | start | stop | discontinue
deriving Repr, DecidableEq

/-- `enum class ChordKind`, include/mx/api/ChordData.h 16-52. -/
inductive ChordKind where
  | unspecified | major | minor | augmented | diminished | dominant | majorSeventh | minorSeventh | diminishedSeventh | augmentedSeventh
  | halfDiminished | majorMinor | majorSixth | minorSixth | dominantNinth | majorNinth | minorNinth | dominant11Th | major11Th | minor11Th
  | dominant13Th | major13Th | minor13Th | suspendedSecond | suspendedFourth | neapolitan | italian | french | german | pedal | power
  | tristan | other | none
deriving Repr, DecidableEq

/-- `enum class ExtensionType`, include/mx/api/ChordData.h 54-59. -/
inductive ExtensionType where
  | add | remove | alter
deriving Repr, DecidableEq

/-- `enum class ExtensionNumber`, include/mx/api/ChordData.h 61-73. -/
inductive ExtensionNumber where
  | first | second | third | fourth | fifth | sixth | seventh | ninth | eleventh | thirteenth
deriving Repr, DecidableEq

/-- `enum class ExtensionAlter`, include/mx/api/ChordData.h 75-82. -/
inductive ExtensionAlter where
  | none | flat | sharp | doubleFlat | doubleSharp
deriving Repr, DecidableEq

/-- `enum class ClefSymbol`, include/mx/api/ClefData.h 13-22. -/
inductive ClefSymbol where
  | none | g | f | c | percussion | tab | jianpu
deriving Repr, DecidableEq

/-- `enum class ClefLocation`, include/mx/api/ClefData.h 24-30. -/
inductive ClefLocation where
  | unspecified | beforeBarline | afterBarline | midMeasure
deriving Repr, DecidableEq

/-- `enum class CurveType`, include/mx/api/CurveData.h 44-49. -/
inductive CurveType where
  | unspecified | slur | tie
deriving Repr, DecidableEq

/-- `enum class CurveOrientation`, include/mx/api/CurveData.h 51-56. -/
inductive CurveOrientation where
  | unspecified | overhand | underhand
deriving Repr, DecidableEq

/-- `enum class DurationName`, include/mx/api/DurationData.h 16-33. -/
inductive DurationName where
  | unspecified | maxima | longa | breve | whole | half | quarter | eighth | dur16th | dur32nd | dur64th | dur128th | dur256th | dur512th
  | dur1024th
deriving Repr, DecidableEq

/-- `enum class FontSizeType`, include/mx/api/FontData.h 19-24. -/
inductive FontSizeType where
  | unspecified | css | point
deriving Repr, DecidableEq

/-- `enum class CssSize`, include/mx/api/FontData.h 27-37. -/
inductive CssSize where
  | unspecified | xxSmall | xSmall | small | medium | large | xLarge | xxLarge
deriving Repr, DecidableEq

/-- `enum class FontStyle`, include/mx/api/FontData.h 40-45. -/
inductive FontStyle where
  | unspecified | normal | italic
deriving Repr, DecidableEq

/-- `enum class FontWeight`, include/mx/api/FontData.h 48-53. -/
inductive FontWeight where
  | unspecified | normal | bold
deriving Repr, DecidableEq

/-- `enum class KeyMode`, include/mx/api/KeyData.h 12-18. -/
inductive KeyMode where
  | unspecified | unsupported | major | minor
deriving Repr, DecidableEq

/-- `enum class LineType`, include/mx/api/LineData.h 13-20. -/
inductive LineType where
  | unspecified | solid | dashed | dotted | wavy
deriving Repr, DecidableEq

/-- `enum class LineHook`, include/mx/api/LineData.h 22-30. -/
inductive LineHook where
  | unspecified | down | up | both | arrow | none
deriving Repr, DecidableEq

/-- `enum class MarkType`, include/mx/api/MarkData.h 16-190. -/
inductive MarkType where
  | unspecified | accent | strongAccent | staccato | tenuto | detachedLegato | staccatissimo | spiccato | scoop | plop | doit | falloff
  | breathMark | caesura | stress | unstress | otherArticulation | p | pp | ppp | pppp | ppppp | pppppp | f | ff | fff | ffff | fffff
  | ffffff | mp | mf | sf | sfp | sfpp | fp | rf | rfz | sfz | sffz | fz | otherDynamics | unknownDynamics | trillMark | turn | delayedTurn
  | invertedTurn | delayedInvertedTurn | verticalTurn | shake | wavyLine | mordent | invertedMordent | schleifer | tremoloSingleOne
  | tremoloSingleTwo | tremoloSingleThree | tremoloSingleFour | tremoloSingleFive | otherOrnament | unknownOrnament | accidentalMarkSharp
  | accidentalMarkNatural | accidentalMarkFlat | accidentalMarkDoubleSharp | accidentalMarkSharpSharp | accidentalMarkFlatFlat | accidentalMarkNaturalSharp
  | accidentalMarkNaturalFlat | accidentalMarkQuarterFlat | accidentalMarkQuarterSharp | accidentalMarkThreeQuartersFlat | accidentalMarkThreeQuartersSharp
  | accidentalMarkSharpDown | accidentalMarkSharpUp | accidentalMarkNaturalDown | accidentalMarkNaturalUp | accidentalMarkFlatDown
  | accidentalMarkFlatUp | accidentalMarkTripleSharp | accidentalMarkTripleFlat | accidentalMarkSlashQuarterSharp | accidentalMarkSlashSharp
  | accidentalMarkSlashFlat | accidentalMarkDoubleSlashFlat | accidentalMarkSharp1 | accidentalMarkSharp2 | accidentalMarkSharp3 | accidentalMarkSharp5
  | accidentalMarkFlat1 | accidentalMarkFlat2 | accidentalMarkFlat3 | accidentalMarkFlat4 | accidentalMarkSori | accidentalMarkKoron
  | accidentalUnknown | upBow | downBow | harmonic | openString | thumbPosition | doubleTongue | tripleTongue | stopped | snapPizzicato
  | heel | toe | fingernails | otherTechnical | unknownTechnical | fermata | fermataNormal | fermataAngled | fermataSquare | fermataUpright
  | fermataNormalUpright | fermataAngledUpright | fermataSquareUpright | fermataInverted | fermataNormalInverted | fermataAngledInverted
  | fermataSquareInverted | unknownFermata | pedal | damp | arpeggiate | arpeggiateDown | arpeggiateUp | nonArpeggiate | customErrorUnknown
  | customAccentTenuto
deriving Repr, DecidableEq

/-- `enum class NoteType`, include/mx/api/NoteData.h 20-25. -/
inductive NoteType where
  | normal | grace | cue
deriving Repr, DecidableEq

/-- `enum class Notehead`, include/mx/api/NoteData.h 27-55. -/
inductive Notehead where
  | slash | triangle | diamond | square | cross | x | circleX | invertedTriangle | arrowDown | arrowUp | slashed | backSlashed | normal
  | cluster | circleDot | leftTriangle | rectangle | none | do_ | re | mi | fa | faUp | so | la | ti
deriving Repr, DecidableEq

/-- `enum class Beam`, include/mx/api/NoteData.h 57-65. -/
inductive Beam where
  | unspecified | begin | «end» | extend | forwardBroken | backwardBroken
deriving Repr, DecidableEq

/-- `enum class Stem`, include/mx/api/NoteData.h 67-74. -/
inductive Stem where
  | unspecified | up | down | none | both
deriving Repr, DecidableEq

/-- `enum class OttavaType`, include/mx/api/OttavaData.h 12-19. -/
inductive OttavaType where
  | unspecified | o8va | o8vb | o15ma | o15mb
deriving Repr, DecidableEq

/-- `enum class SoloOrEnsemble`, include/mx/api/PartData.h 19-24. -/
inductive SoloOrEnsemble where
  | unspecified | solo | ensemble
deriving Repr, DecidableEq

/-- `enum class BracketType`, include/mx/api/PartGroupData.h 14-22. -/
inductive BracketType where
  | unspecified | none | brace | line | bracket | square
deriving Repr, DecidableEq

/-- `enum class Step`, include/mx/api/PitchData.h 13-23. -/
inductive Step where
  | c | d | e | f | g | a | b | unspecified
deriving Repr, DecidableEq

/-- `enum class Accidental`, include/mx/api/PitchData.h 25-65. -/
inductive Accidental where
  | none | sharp | natural | flat | doubleSharp | sharpSharp | flatFlat | naturalSharp | naturalFlat | quarterFlat | quarterSharp | threeQuartersFlat
  | threeQuartersSharp | sharpDown | sharpUp | naturalDown | naturalUp | flatDown | flatUp | tripleSharp | tripleFlat | slashQuarterSharp
  | slashSharp | slashFlat | doubleSlashFlat | sharp1 | sharp2 | sharp3 | sharp5 | flat1 | flat2 | flat3 | flat4 | sori | koron
deriving Repr, DecidableEq

/-- `enum class VerticalAlignment`, include/mx/api/PositionData.h 77-84. -/
inductive VerticalAlignment where
  | unspecified | top | middle | bottom | baseline
deriving Repr, DecidableEq

/-- `enum class HorizontalAlignment`, include/mx/api/PositionData.h 86-92. -/
inductive HorizontalAlignment where
  | unspecified | left | center | right
deriving Repr, DecidableEq

/-- `enum class MusicXmlVersion`, include/mx/api/ScoreData.h 24-28. -/
inductive MusicXmlVersion where
  | unspecified | ThreePointZero
deriving Repr, DecidableEq

/-- `enum class TempoType`, include/mx/api/TempoData.h 14-20. -/
inductive TempoType where
  | unspecified | beatsPerMinute | metricModulation | tempoText
deriving Repr, DecidableEq

/-- `enum class TimeSignatureSymbol`, include/mx/api/TimeSignatureData.h 15-20. -/
inductive TimeSignatureSymbol where
  | unspecified | common | cut
deriving Repr, DecidableEq

/-- `enum class WedgeType`, include/mx/api/WedgeData.h 16-21. -/
inductive WedgeType where
  | unspecified | crescendo | diminuendo
deriving Repr, DecidableEq

end Mx.Api
