import Verif.Model.AttributeTables

/-
The element classes of private/mx/core/elements (one .cpp file per class; the classes for groups and choices without a name of their own are left out):
the XML name written by `streamName`, the attribute struct behind `hasAttributes`, `streamAttributes`, and whether `fromXElementImpl` reads the attributes.
Generated from the source by a script.
-/
namespace Mx

/-- An element class. -/
structure ElementClass where
  xmlName : Str
  attributes : Option AttrStruct
  /-- `fromXElementImpl` passes the attributes on to `fromXElement` of the struct. -/
  readsAttributes : Bool

namespace ElementTables

/-- Accent.cpp to DegreeAlter.cpp in private/mx/core/elements. -/
def part1 : List ElementClass := [
  ⟨chars "accent", some .EmptyPlacementAttributes, true⟩,  -- Accent
  ⟨chars "accidental", some .AccidentalAttributes, true⟩,  -- Accidental
  ⟨chars "accidental-mark", some .AccidentalMarkAttributes, true⟩,  -- AccidentalMark
  ⟨chars "accidental-text", some .AccidentalTextAttributes, true⟩,  -- AccidentalText
  ⟨chars "accord", some .AccordAttributes, true⟩,  -- Accord
  ⟨chars "accordion-high", none, false⟩,  -- AccordionHigh
  ⟨chars "accordion-low", none, false⟩,  -- AccordionLow
  ⟨chars "accordion-middle", none, false⟩,  -- AccordionMiddle
  ⟨chars "accordion-registration", some .AccordionRegistrationAttributes, true⟩,  -- AccordionRegistration
  ⟨chars "actual-notes", none, false⟩,  -- ActualNotes
  ⟨chars "alter", none, false⟩,  -- Alter
  ⟨chars "appearance", none, false⟩,  -- Appearance
  ⟨chars "arpeggiate", some .ArpeggiateAttributes, true⟩,  -- Arpeggiate
  ⟨chars "arrow", some .ArrowAttributes, true⟩,  -- Arrow
  ⟨chars "arrow-direction", none, false⟩,  -- ArrowDirection
  ⟨chars "arrow-style", none, false⟩,  -- ArrowStyle
  ⟨chars "articulations", none, false⟩,  -- Articulations
  ⟨chars "artificial", none, false⟩,  -- Artificial
  ⟨chars "backup", none, false⟩,  -- Backup
  ⟨chars "bar-style", some .BarStyleAttributes, true⟩,  -- BarStyle
  ⟨chars "barline", some .BarlineAttributes, true⟩,  -- Barline
  ⟨chars "barre", some .BarreAttributes, true⟩,  -- Barre
  ⟨chars "base-pitch", none, false⟩,  -- BasePitch
  ⟨chars "bass", none, false⟩,  -- Bass
  ⟨chars "bass-alter", some .BassAlterAttributes, true⟩,  -- BassAlter
  ⟨chars "bass-step", some .BassStepAttributes, true⟩,  -- BassStep
  ⟨chars "beam", some .BeamAttributes, true⟩,  -- Beam
  ⟨chars "beat-repeat", some .BeatRepeatAttributes, true⟩,  -- BeatRepeat
  ⟨chars "beat-type", none, false⟩,  -- BeatType
  ⟨chars "beat-unit", none, false⟩,  -- BeatUnit
  ⟨chars "beat-unit-dot", none, false⟩,  -- BeatUnitDot
  ⟨chars "beater", some .BeaterAttributes, true⟩,  -- Beater
  ⟨chars "beats", none, false⟩,  -- Beats
  ⟨chars "bend", some .BendAttributes, true⟩,  -- Bend
  ⟨chars "bend-alter", none, false⟩,  -- BendAlter
  ⟨chars "bookmark", some .BookmarkAttributes, true⟩,  -- Bookmark
  ⟨chars "bottom-margin", none, false⟩,  -- BottomMargin
  ⟨chars "bracket", some .BracketAttributes, true⟩,  -- Bracket
  ⟨chars "breath-mark", some .BreathMarkAttributes, true⟩,  -- BreathMark
  ⟨chars "caesura", some .EmptyPlacementAttributes, true⟩,  -- Caesura
  ⟨chars "cancel", some .CancelAttributes, true⟩,  -- Cancel
  ⟨chars "capo", none, false⟩,  -- Capo
  ⟨chars "chord", none, false⟩,  -- Chord
  ⟨chars "chromatic", none, false⟩,  -- Chromatic
  ⟨chars "circular-arrow", none, false⟩,  -- CircularArrow
  ⟨chars "clef", some .ClefAttributes, true⟩,  -- Clef
  ⟨chars "clef-octave-change", none, false⟩,  -- ClefOctaveChange
  ⟨chars "coda", some .EmptyPrintObjectStyleAlignAttributes, true⟩,  -- Coda
  ⟨chars "creator", some .CreatorAttributes, true⟩,  -- Creator
  ⟨chars "credit", some .CreditAttributes, true⟩,  -- Credit
  ⟨chars "credit-image", some .CreditImageAttributes, true⟩,  -- CreditImage
  ⟨chars "credit-type", none, false⟩,  -- CreditType
  ⟨chars "credit-words", some .CreditWordsAttributes, true⟩,  -- CreditWords
  ⟨chars "cue", none, false⟩,  -- Cue
  ⟨chars "damp", some .EmptyPrintObjectStyleAlignAttributes, true⟩,  -- Damp
  ⟨chars "damp-all", some .EmptyPrintObjectStyleAlignAttributes, true⟩,  -- DampAll
  ⟨chars "dashes", some .DashesAttributes, true⟩,  -- Dashes
  ⟨chars "defaults", none, false⟩,  -- Defaults
  ⟨chars "degree", some .DegreeAttributes, true⟩,  -- Degree
  ⟨chars "degree-alter", some .DegreeAlterAttributes, true⟩]  -- DegreeAlter

/-- DegreeType.cpp to GroupName.cpp in private/mx/core/elements. -/
def part2 : List ElementClass := [
  ⟨chars "degree-type", some .DegreeTypeAttributes, true⟩,  -- DegreeType
  ⟨chars "degree-value", some .DegreeValueAttributes, true⟩,  -- DegreeValue
  ⟨chars "delayed-inverted-turn", some .DelayedInvertedTurnAttributes, true⟩,  -- DelayedInvertedTurn
  ⟨chars "delayed-turn", some .DelayedTurnAttributes, true⟩,  -- DelayedTurn
  ⟨chars "detached-legato", some .EmptyPlacementAttributes, true⟩,  -- DetachedLegato
  ⟨chars "diatonic", none, false⟩,  -- Diatonic
  ⟨chars "direction", some .DirectionAttributes, true⟩,  -- Direction
  ⟨chars "direction-type", none, false⟩,  -- DirectionType
  ⟨chars "directive", some .DirectiveAttributes, true⟩,  -- Directive
  ⟨chars "display-octave", none, false⟩,  -- DisplayOctave
  ⟨chars "display-step", none, false⟩,  -- DisplayStep
  ⟨chars "display-text", some .DisplayTextAttributes, true⟩,  -- DisplayText
  ⟨chars "distance", some .DistanceAttributes, true⟩,  -- Distance
  ⟨chars "divisions", none, false⟩,  -- Divisions
  ⟨chars "doit", some .EmptyLineAttributes, true⟩,  -- Doit
  ⟨chars "dot", some .EmptyPlacementAttributes, true⟩,  -- Dot
  ⟨chars "double", none, false⟩,  -- Double
  ⟨chars "double-tongue", some .EmptyPlacementAttributes, true⟩,  -- DoubleTongue
  ⟨chars "down-bow", some .EmptyPlacementAttributes, true⟩,  -- DownBow
  ⟨chars "duration", none, false⟩,  -- Duration
  ⟨chars "dynamics", some .DynamicsAttributes, true⟩,  -- Dynamics
  ⟨chars "effect", none, false⟩,  -- Effect
  ⟨chars "elevation", none, false⟩,  -- Elevation
  ⟨chars "elision", some .ElisionAttributes, true⟩,  -- Elision
  ⟨chars "encoder", some .EncoderAttributes, true⟩,  -- Encoder
  ⟨chars "encoding", none, false⟩,  -- Encoding
  ⟨chars "encoding-date", none, false⟩,  -- EncodingDate
  ⟨chars "encoding-description", none, false⟩,  -- EncodingDescription
  ⟨chars "end-line", none, false⟩,  -- EndLine
  ⟨chars "end-paragraph", none, false⟩,  -- EndParagraph
  ⟨chars "ending", some .EndingAttributes, true⟩,  -- Ending
  ⟨chars "ensemble", none, false⟩,  -- Ensemble
  ⟨chars "extend", some .ExtendAttributes, true⟩,  -- Extend
  ⟨chars "eyeglasses", some .EmptyPrintObjectStyleAlignAttributes, true⟩,  -- Eyeglasses
  ⟨chars "falloff", some .EmptyLineAttributes, true⟩,  -- Falloff
  ⟨chars "feature", some .FeatureAttributes, true⟩,  -- Feature
  ⟨chars "fermata", some .FermataAttributes, true⟩,  -- Fermata
  ⟨chars "fifths", none, false⟩,  -- Fifths
  ⟨chars "figure", none, false⟩,  -- Figure
  ⟨chars "figure-number", some .FigureNumberAttributes, true⟩,  -- FigureNumber
  ⟨chars "figured-bass", some .FiguredBassAttributes, true⟩,  -- FiguredBass
  ⟨chars "fingering", some .FingeringAttributes, true⟩,  -- Fingering
  ⟨chars "fingernails", some .EmptyPlacementAttributes, true⟩,  -- Fingernails
  ⟨chars "first-fret", some .FirstFretAttributes, true⟩,  -- FirstFret
  ⟨chars "footnote", some .FootnoteAttributes, true⟩,  -- Footnote
  ⟨chars "forward", none, false⟩,  -- Forward
  ⟨chars "frame", some .FrameAttributes, true⟩,  -- Frame
  ⟨chars "frame-frets", none, false⟩,  -- FrameFrets
  ⟨chars "frame-note", none, false⟩,  -- FrameNote
  ⟨chars "frame-strings", none, false⟩,  -- FrameStrings
  ⟨chars "fret", some .FretAttributes, true⟩,  -- Fret
  ⟨chars "function", some .FunctionAttributes, true⟩,  -- Function
  ⟨chars "glass", none, false⟩,  -- Glass
  ⟨chars "glissando", some .GlissandoAttributes, true⟩,  -- Glissando
  ⟨chars "grace", some .GraceAttributes, true⟩,  -- Grace
  ⟨chars "group", none, false⟩,  -- Group
  ⟨chars "group-abbreviation", some .GroupAbbreviationAttributes, true⟩,  -- GroupAbbreviation
  ⟨chars "group-abbreviation-display", some .GroupAbbreviationDisplayAttributes, true⟩,  -- GroupAbbreviationDisplay
  ⟨chars "group-barline", some .GroupBarlineAttributes, true⟩,  -- GroupBarline
  ⟨chars "group-name", some .GroupNameAttributes, true⟩]  -- GroupName

/-- GroupNameDisplay.cpp to MidiDevice.cpp in private/mx/core/elements. -/
def part3 : List ElementClass := [
  ⟨chars "group-name-display", some .GroupNameDisplayAttributes, true⟩,  -- GroupNameDisplay
  ⟨chars "group-symbol", some .GroupSymbolAttributes, true⟩,  -- GroupSymbol
  ⟨chars "group-time", none, false⟩,  -- GroupTime
  ⟨chars "grouping", some .GroupingAttributes, true⟩,  -- Grouping
  ⟨chars "hammer-on", some .HammerOnAttributes, true⟩,  -- HammerOn
  ⟨chars "handbell", some .HandbellAttributes, true⟩,  -- Handbell
  ⟨chars "harmonic", some .HarmonicAttributes, true⟩,  -- Harmonic
  ⟨chars "harmony", some .HarmonyAttributes, true⟩,  -- Harmony
  ⟨chars "harp-pedals", some .HarpPedalsAttributes, true⟩,  -- HarpPedals
  ⟨chars "heel", some .HeelAttributes, true⟩,  -- Heel
  ⟨chars "hole", some .HoleAttributes, true⟩,  -- Hole
  ⟨chars "hole-closed", some .HoleClosedAttributes, false⟩,  -- HoleClosed
  ⟨chars "hole-shape", none, false⟩,  -- HoleShape
  ⟨chars "hole-type", none, false⟩,  -- HoleType
  ⟨chars "humming", none, false⟩,  -- Humming
  ⟨chars "identification", none, false⟩,  -- Identification
  ⟨chars "image", some .ImageAttributes, true⟩,  -- Image
  ⟨chars "instrument", some .InstrumentAttributes, true⟩,  -- Instrument
  ⟨chars "instrument-abbreviation", none, false⟩,  -- InstrumentAbbreviation
  ⟨chars "instrument-name", none, false⟩,  -- InstrumentName
  ⟨chars "instrument-sound", none, false⟩,  -- InstrumentSound
  ⟨chars "instruments", none, false⟩,  -- Instruments
  ⟨chars "interchangeable", some .InterchangeableAttributes, true⟩,  -- Interchangeable
  ⟨chars "inversion", some .InversionAttributes, true⟩,  -- Inversion
  ⟨chars "inverted-mordent", some .InvertedMordentAttributes, true⟩,  -- InvertedMordent
  ⟨chars "inverted-turn", some .InvertedTurnAttributes, true⟩,  -- InvertedTurn
  ⟨chars "ipa", none, false⟩,  -- Ipa
  ⟨chars "key", some .KeyAttributes, true⟩,  -- Key
  ⟨chars "key-accidental", none, false⟩,  -- KeyAccidental
  ⟨chars "key-alter", none, false⟩,  -- KeyAlter
  ⟨chars "key-octave", some .KeyOctaveAttributes, true⟩,  -- KeyOctave
  ⟨chars "key-step", none, false⟩,  -- KeyStep
  ⟨chars "kind", some .KindAttributes, true⟩,  -- Kind
  ⟨chars "laughing", none, false⟩,  -- Laughing
  ⟨chars "left-divider", some .EmptyPrintObjectStyleAlignAttributes, true⟩,  -- LeftDivider
  ⟨chars "left-margin", none, false⟩,  -- LeftMargin
  ⟨chars "level", some .LevelAttributes, true⟩,  -- Level
  ⟨chars "line", none, false⟩,  -- Line
  ⟨chars "line-width", some .LineWidthAttributes, true⟩,  -- LineWidth
  ⟨chars "link", some .LinkAttributes, true⟩,  -- Link
  ⟨chars "lyric", some .LyricAttributes, true⟩,  -- Lyric
  ⟨chars "lyric-font", some .LyricFontAttributes, true⟩,  -- LyricFont
  ⟨chars "lyric-language", some .LyricLanguageAttributes, true⟩,  -- LyricLanguage
  ⟨chars "measure-distance", none, false⟩,  -- MeasureDistance
  ⟨chars "measure-layout", none, false⟩,  -- MeasureLayout
  ⟨chars "measure-numbering", some .MeasureNumberingAttributes, true⟩,  -- MeasureNumbering
  ⟨chars "measure-repeat", some .MeasureRepeatAttributes, true⟩,  -- MeasureRepeat
  ⟨chars "measure-style", some .MeasureStyleAttributes, true⟩,  -- MeasureStyle
  ⟨chars "membrane", none, false⟩,  -- Membrane
  ⟨chars "metal", none, false⟩,  -- Metal
  ⟨chars "metronome", some .MetronomeAttributes, true⟩,  -- Metronome
  ⟨chars "metronome-beam", some .MetronomeBeamAttributes, true⟩,  -- MetronomeBeam
  ⟨chars "metronome-dot", none, false⟩,  -- MetronomeDot
  ⟨chars "metronome-note", none, false⟩,  -- MetronomeNote
  ⟨chars "metronome-relation", none, false⟩,  -- MetronomeRelation
  ⟨chars "metronome-tuplet", some .MetronomeTupletAttributes, true⟩,  -- MetronomeTuplet
  ⟨chars "metronome-type", none, false⟩,  -- MetronomeType
  ⟨chars "midi-bank", none, false⟩,  -- MidiBank
  ⟨chars "midi-channel", none, false⟩,  -- MidiChannel
  ⟨chars "midi-device", some .MidiDeviceAttributes, true⟩]  -- MidiDevice

/-- MidiInstrument.cpp to Pitch.cpp in private/mx/core/elements. -/
def part4 : List ElementClass := [
  ⟨chars "midi-instrument", some .MidiInstrumentAttributes, true⟩,  -- MidiInstrument
  ⟨chars "midi-name", none, false⟩,  -- MidiName
  ⟨chars "midi-program", none, false⟩,  -- MidiProgram
  ⟨chars "midi-unpitched", none, false⟩,  -- MidiUnpitched
  ⟨chars "millimeters", none, false⟩,  -- Millimeters
  ⟨chars "miscellaneous", none, false⟩,  -- Miscellaneous
  ⟨chars "miscellaneous-field", some .MiscellaneousFieldAttributes, true⟩,  -- MiscellaneousField
  ⟨chars "mode", none, false⟩,  -- Mode
  ⟨chars "mordent", some .MordentAttributes, true⟩,  -- Mordent
  ⟨chars "movement-number", none, false⟩,  -- MovementNumber
  ⟨chars "movement-title", none, false⟩,  -- MovementTitle
  ⟨chars "multiple-rest", some .MultipleRestAttributes, true⟩,  -- MultipleRest
  ⟨chars "music-font", some .EmptyFontAttributes, true⟩,  -- MusicFont
  ⟨chars "mute", none, false⟩,  -- Mute
  ⟨chars "natural", none, false⟩,  -- Natural
  ⟨chars "non-arpeggiate", some .NonArpeggiateAttributes, true⟩,  -- NonArpeggiate
  ⟨chars "normal-dot", none, false⟩,  -- NormalDot
  ⟨chars "normal-notes", none, false⟩,  -- NormalNotes
  ⟨chars "normal-type", none, false⟩,  -- NormalType
  ⟨chars "notations", some .NotationsAttributes, true⟩,  -- Notations
  ⟨chars "note", some .NoteAttributes, true⟩,  -- Note
  ⟨chars "note-size", some .NoteSizeAttributes, true⟩,  -- NoteSize
  ⟨chars "notehead", some .NoteheadAttributes, true⟩,  -- Notehead
  ⟨chars "notehead-text", none, false⟩,  -- NoteheadText
  ⟨chars "octave", none, false⟩,  -- Octave
  ⟨chars "octave-change", none, false⟩,  -- OctaveChange
  ⟨chars "octave-shift", some .OctaveShiftAttributes, true⟩,  -- OctaveShift
  ⟨chars "offset", some .OffsetAttributes, true⟩,  -- Offset
  ⟨chars "open-string", some .EmptyPlacementAttributes, true⟩,  -- OpenString
  ⟨chars "opus", some .OpusAttributes, true⟩,  -- Opus
  ⟨chars "ornaments", none, false⟩,  -- Ornaments
  ⟨chars "other-appearance", some .OtherAppearanceAttributes, true⟩,  -- OtherAppearance
  ⟨chars "other-articulation", some .OtherArticulationAttributes, true⟩,  -- OtherArticulation
  ⟨chars "other-direction", some .OtherDirectionAttributes, true⟩,  -- OtherDirection
  ⟨chars "other-notation", some .OtherNotationAttributes, true⟩,  -- OtherNotation
  ⟨chars "other-ornament", some .OtherOrnamentAttributes, true⟩,  -- OtherOrnament
  ⟨chars "other-percussion", none, false⟩,  -- OtherPercussion
  ⟨chars "other-play", some .OtherPlayAttributes, true⟩,  -- OtherPlay
  ⟨chars "other-technical", some .OtherTechnicalAttributes, true⟩,  -- OtherTechnical
  ⟨chars "page-height", none, false⟩,  -- PageHeight
  ⟨chars "page-layout", none, false⟩,  -- PageLayout
  ⟨chars "page-margins", some .PageMarginsAttributes, true⟩,  -- PageMargins
  ⟨chars "page-width", none, false⟩,  -- PageWidth
  ⟨chars "pan", none, false⟩,  -- Pan
  ⟨chars "part-abbreviation", some .PartAbbreviationAttributes, true⟩,  -- PartAbbreviation
  ⟨chars "part-abbreviation-display", some .PartAbbreviationDisplayAttributes, true⟩,  -- PartAbbreviationDisplay
  ⟨chars "part-group", some .PartGroupAttributes, true⟩,  -- PartGroup
  ⟨chars "part-list", none, false⟩,  -- PartList
  ⟨chars "part-name", some .PartNameAttributes, true⟩,  -- PartName
  ⟨chars "part-name-display", some .PartNameDisplayAttributes, true⟩,  -- PartNameDisplay
  ⟨chars "part-symbol", some .PartSymbolAttributes, true⟩,  -- PartSymbol
  ⟨chars "measure", some .MeasureAttributes, true⟩,  -- PartwiseMeasure
  ⟨chars "part", some .PartAttributes, true⟩,  -- PartwisePart
  ⟨chars "pedal", some .PedalAttributes, true⟩,  -- Pedal
  ⟨chars "pedal-alter", none, false⟩,  -- PedalAlter
  ⟨chars "pedal-step", none, false⟩,  -- PedalStep
  ⟨chars "pedal-tuning", none, false⟩,  -- PedalTuning
  ⟨chars "per-minute", some .PerMinuteAttributes, true⟩,  -- PerMinute
  ⟨chars "percussion", some .PercussionAttributes, true⟩,  -- Percussion
  ⟨chars "pitch", none, false⟩]  -- Pitch

/-- Pitched.cpp to Stick.cpp in private/mx/core/elements. -/
def part5 : List ElementClass := [
  ⟨chars "pitched", none, false⟩,  -- Pitched
  ⟨chars "play", some .PlayAttributes, false⟩,  -- Play
  ⟨chars "plop", some .EmptyLineAttributes, true⟩,  -- Plop
  ⟨chars "pluck", some .PluckAttributes, true⟩,  -- Pluck
  ⟨chars "pre-bend", none, false⟩,  -- PreBend
  ⟨chars "prefix", some .PrefixAttributes, true⟩,  -- Prefix
  ⟨chars "principal-voice", some .PrincipalVoiceAttributes, true⟩,  -- PrincipalVoice
  ⟨chars "print", some .PrintAttributes, true⟩,  -- Print
  ⟨chars "attributes", none, false⟩,  -- Properties
  ⟨chars "pull-off", some .PullOffAttributes, true⟩,  -- PullOff
  ⟨chars "rehearsal", some .RehearsalAttributes, true⟩,  -- Rehearsal
  ⟨chars "relation", some .RelationAttributes, true⟩,  -- Relation
  ⟨chars "release", none, false⟩,  -- Release
  ⟨chars "repeat", some .RepeatAttributes, true⟩,  -- Repeat
  ⟨chars "rest", some .RestAttributes, true⟩,  -- Rest
  ⟨chars "right-divider", some .EmptyPrintObjectStyleAlignAttributes, true⟩,  -- RightDivider
  ⟨chars "right-margin", none, false⟩,  -- RightMargin
  ⟨chars "rights", some .RightsAttributes, true⟩,  -- Rights
  ⟨chars "root", none, false⟩,  -- Root
  ⟨chars "root-alter", some .RootAlterAttributes, true⟩,  -- RootAlter
  ⟨chars "root-step", some .RootStepAttributes, true⟩,  -- RootStep
  ⟨chars "scaling", none, false⟩,  -- Scaling
  ⟨chars "schleifer", some .EmptyPlacementAttributes, true⟩,  -- Schleifer
  ⟨chars "scoop", some .EmptyLineAttributes, true⟩,  -- Scoop
  ⟨chars "scordatura", none, false⟩,  -- Scordatura
  ⟨chars "score-instrument", some .ScoreInstrumentAttributes, true⟩,  -- ScoreInstrument
  ⟨chars "score-part", some .ScorePartAttributes, true⟩,  -- ScorePart
  ⟨chars "score-partwise", some .ScorePartwiseAttributes, true⟩,  -- ScorePartwise
  ⟨chars "score-timewise", some .ScoreTimewiseAttributes, true⟩,  -- ScoreTimewise
  ⟨chars "segno", some .EmptyPrintObjectStyleAlignAttributes, true⟩,  -- Segno
  ⟨chars "semi-pitched", none, false⟩,  -- SemiPitched
  ⟨chars "senza-misura", none, false⟩,  -- SenzaMisura
  ⟨chars "shake", some .EmptyTrillSoundAttributes, true⟩,  -- Shake
  ⟨chars "sign", none, false⟩,  -- Sign
  ⟨chars "slash", some .SlashAttributes, true⟩,  -- Slash
  ⟨chars "slash-dot", none, false⟩,  -- SlashDot
  ⟨chars "slash-type", none, false⟩,  -- SlashType
  ⟨chars "slide", some .SlideAttributes, true⟩,  -- Slide
  ⟨chars "slur", some .SlurAttributes, true⟩,  -- Slur
  ⟨chars "snap-pizzicato", some .EmptyPlacementAttributes, true⟩,  -- SnapPizzicato
  ⟨chars "software", none, false⟩,  -- Software
  ⟨chars "solo", none, false⟩,  -- Solo
  ⟨chars "sound", some .SoundAttributes, true⟩,  -- Sound
  ⟨chars "sounding-pitch", none, false⟩,  -- SoundingPitch
  ⟨chars "source", none, false⟩,  -- Source
  ⟨chars "spiccato", some .EmptyPlacementAttributes, true⟩,  -- Spiccato
  ⟨chars "staccatissimo", some .EmptyPlacementAttributes, true⟩,  -- Staccatissimo
  ⟨chars "staccato", some .EmptyPlacementAttributes, true⟩,  -- Staccato
  ⟨chars "staff", none, false⟩,  -- Staff
  ⟨chars "staff-details", some .StaffDetailsAttributes, true⟩,  -- StaffDetails
  ⟨chars "staff-distance", none, false⟩,  -- StaffDistance
  ⟨chars "staff-layout", some .StaffLayoutAttributes, true⟩,  -- StaffLayout
  ⟨chars "staff-lines", none, false⟩,  -- StaffLines
  ⟨chars "staff-size", none, false⟩,  -- StaffSize
  ⟨chars "staff-tuning", some .StaffTuningAttributes, true⟩,  -- StaffTuning
  ⟨chars "staff-type", none, false⟩,  -- StaffType
  ⟨chars "staves", none, false⟩,  -- Staves
  ⟨chars "stem", some .StemAttributes, true⟩,  -- Stem
  ⟨chars "step", none, false⟩,  -- Step
  ⟨chars "stick", some .StickAttributes, true⟩]  -- Stick

/-- StickLocation.cpp to WithBar.cpp in private/mx/core/elements. -/
def part6 : List ElementClass := [
  ⟨chars "stick-location", none, false⟩,  -- StickLocation
  ⟨chars "stick-material", none, false⟩,  -- StickMaterial
  ⟨chars "stick-type", none, false⟩,  -- StickType
  ⟨chars "stopped", some .EmptyPlacementAttributes, true⟩,  -- Stopped
  ⟨chars "stress", some .EmptyPlacementAttributes, true⟩,  -- Stress
  ⟨chars "string", some .StringAttributes, true⟩,  -- String
  ⟨chars "string-mute", some .StringMuteAttributes, true⟩,  -- StringMute
  ⟨chars "strong-accent", some .StrongAccentAttributes, true⟩,  -- StrongAccent
  ⟨chars "suffix", some .SuffixAttributes, true⟩,  -- Suffix
  ⟨chars "supports", some .SupportsAttributes, true⟩,  -- Supports
  ⟨chars "syllabic", none, false⟩,  -- Syllabic
  ⟨chars "system-distance", none, false⟩,  -- SystemDistance
  ⟨chars "system-dividers", none, false⟩,  -- SystemDividers
  ⟨chars "system-layout", none, false⟩,  -- SystemLayout
  ⟨chars "system-margins", none, false⟩,  -- SystemMargins
  ⟨chars "tap", some .TapAttributes, true⟩,  -- Tap
  ⟨chars "technical", none, false⟩,  -- Technical
  ⟨chars "tenths", none, false⟩,  -- Tenths
  ⟨chars "tenuto", some .EmptyPlacementAttributes, true⟩,  -- Tenuto
  ⟨chars "text", some .TextAttributes, true⟩,  -- Text
  ⟨chars "thumb-position", some .EmptyPlacementAttributes, true⟩,  -- ThumbPosition
  ⟨chars "tie", some .TieAttributes, true⟩,  -- Tie
  ⟨chars "tied", some .TiedAttributes, true⟩,  -- Tied
  ⟨chars "time", some .TimeAttributes, true⟩,  -- Time
  ⟨chars "time-modification", none, false⟩,  -- TimeModification
  ⟨chars "time-relation", none, false⟩,  -- TimeRelation
  ⟨chars "measure", some .MeasureAttributes, true⟩,  -- TimewiseMeasure
  ⟨chars "part", some .PartAttributes, true⟩,  -- TimewisePart
  ⟨chars "timpani", none, false⟩,  -- Timpani
  ⟨chars "toe", some .ToeAttributes, true⟩,  -- Toe
  ⟨chars "top-margin", none, false⟩,  -- TopMargin
  ⟨chars "top-system-distance", none, false⟩,  -- TopSystemDistance
  ⟨chars "touching-pitch", none, false⟩,  -- TouchingPitch
  ⟨chars "transpose", some .TransposeAttributes, true⟩,  -- Transpose
  ⟨chars "tremolo", some .TremoloAttributes, true⟩,  -- Tremolo
  ⟨chars "trill-mark", some .EmptyTrillSoundAttributes, true⟩,  -- TrillMark
  ⟨chars "triple-tongue", some .EmptyPlacementAttributes, true⟩,  -- TripleTongue
  ⟨chars "tuning-alter", none, false⟩,  -- TuningAlter
  ⟨chars "tuning-octave", none, false⟩,  -- TuningOctave
  ⟨chars "tuning-step", none, false⟩,  -- TuningStep
  ⟨chars "tuplet", some .TupletAttributes, true⟩,  -- Tuplet
  ⟨chars "tuplet-actual", none, false⟩,  -- TupletActual
  ⟨chars "tuplet-dot", some .TupletDotAttributes, true⟩,  -- TupletDot
  ⟨chars "tuplet-normal", none, false⟩,  -- TupletNormal
  ⟨chars "tuplet-number", some .TupletNumberAttributes, true⟩,  -- TupletNumber
  ⟨chars "tuplet-type", some .TupletTypeAttributes, true⟩,  -- TupletType
  ⟨chars "turn", some .TurnAttributes, true⟩,  -- Turn
  ⟨chars "type", some .TypeAttributes, true⟩,  -- Type
  ⟨chars "unpitched", none, false⟩,  -- Unpitched
  ⟨chars "unstress", some .EmptyPlacementAttributes, true⟩,  -- Unstress
  ⟨chars "up-bow", some .EmptyPlacementAttributes, true⟩,  -- UpBow
  ⟨chars "vertical-turn", some .EmptyTrillSoundAttributes, true⟩,  -- VerticalTurn
  ⟨chars "virtual-instrument", none, false⟩,  -- VirtualInstrument
  ⟨chars "virtual-library", none, false⟩,  -- VirtualLibrary
  ⟨chars "virtual-name", none, false⟩,  -- VirtualName
  ⟨chars "voice", none, false⟩,  -- Voice
  ⟨chars "volume", none, false⟩,  -- Volume
  ⟨chars "wavy-line", some .WavyLineAttributes, true⟩,  -- WavyLine
  ⟨chars "wedge", some .WedgeAttributes, true⟩,  -- Wedge
  ⟨chars "with-bar", some .WithBarAttributes, true⟩]  -- WithBar

/-- Wood.cpp to WorkTitle.cpp in private/mx/core/elements. -/
def part7 : List ElementClass := [
  ⟨chars "wood", none, false⟩,  -- Wood
  ⟨chars "word-font", some .EmptyFontAttributes, true⟩,  -- WordFont
  ⟨chars "words", some .WordsAttributes, true⟩,  -- Words
  ⟨chars "work", none, false⟩,  -- Work
  ⟨chars "work-number", none, false⟩,  -- WorkNumber
  ⟨chars "work-title", none, false⟩]  -- WorkTitle

end ElementTables

open ElementTables in
/-- All element classes. -/
def elementClasses : List ElementClass :=
  part1 ++ part2 ++ part3 ++ part4 ++ part5 ++ part6 ++ part7

end Mx
