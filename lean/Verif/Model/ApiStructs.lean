import Verif.Model.StringEnum

/-
The structs of the api: their members, and which of them their `operator==` compares.
-/
namespace Mx.ApiEq

/-- The structs and classes with public members in include/mx/api, except `DocumentManager` and `Version`, which have none. -/
inductive Struct where
  | AppearanceData
  | BarlineData
  | Extension
  | ChordData
  | ClefData
  | CodaData
  | ColorData
  | CurvePoints
  | CurveStart
  | CurveContinue
  | CurveStop
  | DefaultsData
  | DirectionData
  | DurationData
  | SupportedItem
  | MiscellaneousField
  | EncodingDate
  | EncodingData
  | FontData
  | KeyComponent
  | KeyData
  | LayoutData
  | LeftRight
  | LineData
  | LyricData
  | MarginsData
  | MarkData
  | MeasureData
  | MeasureLocation
  | MiscData
  | NoteAttachmentData
  | NoteData
  | OttavaStart
  | PageData
  | PageLayoutData
  | PageMarginsData
  | PageTextData
  | MidiData
  | InstrumentData
  | PartData
  | PartGroupData
  | PitchData
  | PositionData
  | PrintData
  | RehearsalData
  | ScoreData
  | SegnoData
  | SizeData
  | SpannerStart
  | SpannerStop
  | StaffData
  | SystemData
  | SystemLayoutData
  | BeatsPerMinute
  | MetricModulation
  | TempoText
  | TempoData
  | TimeSignatureData
  | TransposeData
  | TupletStart
  | TupletStop
  | VoiceData
  | WedgeStart
  | WedgeStop
  | WordsData
deriving DecidableEq, Repr

/-- The list of them. -/
def Struct.all : List Struct := [.AppearanceData, .BarlineData, .Extension, .ChordData, .ClefData, .CodaData, .ColorData, .CurvePoints, .CurveStart, .CurveContinue, .CurveStop, .DefaultsData, .DirectionData, .DurationData, .SupportedItem, .MiscellaneousField, .EncodingDate, .EncodingData, .FontData, .KeyComponent, .KeyData, .LayoutData, .LeftRight, .LineData, .LyricData, .MarginsData, .MarkData, .MeasureData, .MeasureLocation, .MiscData, .NoteAttachmentData, .NoteData, .OttavaStart, .PageData, .PageLayoutData, .PageMarginsData, .PageTextData, .MidiData, .InstrumentData, .PartData, .PartGroupData, .PitchData, .PositionData, .PrintData, .RehearsalData, .ScoreData, .SegnoData, .SizeData, .SpannerStart, .SpannerStop, .StaffData, .SystemData, .SystemLayoutData, .BeatsPerMinute, .MetricModulation, .TempoText, .TempoData, .TimeSignatureData, .TransposeData, .TupletStart, .TupletStop, .VoiceData, .WedgeStart, .WedgeStop, .WordsData]

/-- Types of members.  `plain`: numbers that are not floating point numbers, truth values, enumerations and texts. -/
inductive Ty where
  | plain
  | real
  | of (s : Struct)
  | vec (t : Ty)
  | opt (t : Ty)
  | intMap (t : Ty)
deriving DecidableEq, Repr

/-- How two members are compared: with `==`, `MXAPI_EQUALS_MEMBER` include/mx/api/ApiEquality.h 96-101, or up to `MX_API_EQUALITY_EPSILON`, `MXAPI_DOUBLES_EQUALS_MEMBER` 103-108. -/
inductive How where
  | eq
  | near
deriving DecidableEq, Repr

/-- The members, in the order of declaration, with their types.  The line numbers beside each struct are those of its declaration in include/mx/api. -/
def Struct.members : Struct → List (Str × Ty)
  -- include/mx/api/AppearanceData.h 43-52
  | .AppearanceData => [(chars "appearanceType", .plain), (chars "appearanceSubType", .plain), (chars "value", .real)]
  -- include/mx/api/BarlineData.h 39-58
  | .BarlineData => [(chars "tickTimePosition", .plain), (chars "barlineType", .plain), (chars "endingType", .plain), (chars "endingNumber", .plain), (chars "repeat", .plain), (chars "location", .plain)]
  -- include/mx/api/ChordData.h 84-130
  | .Extension => [(chars "extensionType", .plain), (chars "extensionAlter", .plain), (chars "extensionNumber", .plain), (chars "printObject", .plain)]
  -- include/mx/api/ChordData.h 140-156
  | .ChordData => [(chars "root", .plain), (chars "rootAlter", .plain), (chars "chordKind", .plain), (chars "text", .plain), (chars "useSymbols", .plain), (chars "bass", .plain), (chars "bassAlter", .plain), (chars "extensions", .vec (.of .Extension)), (chars "miscData", .vec (.of .MiscData)), (chars "positionData", .of .PositionData)]
  -- include/mx/api/ClefData.h 37-68
  | .ClefData => [(chars "symbol", .plain), (chars "line", .plain), (chars "octaveChange", .plain), (chars "tickTimePosition", .plain), (chars "location", .plain)]
  -- include/mx/api/CodaData.h 15-28
  | .CodaData => [(chars "positionData", .of .PositionData), (chars "isColorSpecified", .plain), (chars "colorData", .of .ColorData)]
  -- include/mx/api/ColorData.h 13-31
  | .ColorData => [(chars "red", .plain), (chars "green", .plain), (chars "blue", .plain), (chars "isAlphaSpecified", .plain), (chars "alpha", .plain)]
  -- include/mx/api/CurveData.h 58-98
  | .CurvePoints => [(chars "positionData", .of .PositionData), (chars "isBezierXSpecified", .plain), (chars "bezierX", .real), (chars "isBezierYSpecified", .plain), (chars "bezierY", .real), (chars "isBezierOffsetSpecified", .plain), (chars "bezierOffset", .plain)]
  -- include/mx/api/CurveData.h 100-123
  | .CurveStart => [(chars "curveType", .plain), (chars "numberLevel", .plain), (chars "curvePoints", .of .CurvePoints), (chars "curveOrientation", .plain), (chars "placement", .plain), (chars "lineData", .of .LineData), (chars "isColorSpecified", .plain), (chars "colorData", .of .ColorData)]
  -- include/mx/api/CurveData.h 126-151
  | .CurveContinue => [(chars "curveType", .plain), (chars "numberLevel", .plain), (chars "curvePoints", .of .CurvePoints), (chars "isBezierX2Specified", .plain), (chars "bezierX2", .real), (chars "isBezierY2Specified", .plain), (chars "bezierY2", .real), (chars "isBezierOffset2Specified", .plain), (chars "bezierOffset2", .real)]
  -- include/mx/api/CurveData.h 154-167
  | .CurveStop => [(chars "curveType", .plain), (chars "numberLevel", .plain), (chars "curvePoints", .of .CurvePoints)]
  -- include/mx/api/DefaultsData.h 23-123
  | .DefaultsData => [(chars "scalingMillimeters", .real), (chars "scalingTenths", .real), (chars "pageLayout", .of .PageLayoutData), (chars "systemLayout", .of .SystemLayoutData), (chars "appearance", .vec (.of .AppearanceData)), (chars "measureNumbering", .plain)]
  -- include/mx/api/DirectionData.h 30-90
  | .DirectionData => [(chars "tickTimePosition", .plain), (chars "placement", .plain), (chars "voice", .plain), (chars "isStaffValueSpecified", .plain), (chars "tempos", .vec (.of .TempoData)), (chars "marks", .vec (.of .MarkData)), (chars "wedgeStarts", .vec (.of .WedgeStart)), (chars "wedgeStops", .vec (.of .WedgeStop)), (chars "ottavaStarts", .vec (.of .OttavaStart)), (chars "ottavaStops", .vec (.of .SpannerStop)), (chars "bracketStarts", .vec (.of .SpannerStart)), (chars "bracketStops", .vec (.of .SpannerStop)), (chars "words", .vec (.of .WordsData)), (chars "chords", .vec (.of .ChordData)), (chars "segnos", .vec (.of .SegnoData)), (chars "codas", .vec (.of .CodaData)), (chars "rehearsals", .vec (.of .RehearsalData))]
  -- include/mx/api/DurationData.h 65-77
  | .DurationData => [(chars "durationName", .plain), (chars "durationDots", .plain), (chars "durationTimeTicks", .plain), (chars "isTied", .plain), (chars "timeModificationActualNotes", .plain), (chars "timeModificationNormalNotes", .plain), (chars "timeModificationNormalType", .plain), (chars "timeModificationNormalTypeDots", .plain)]
  -- include/mx/api/EncodingData.h 16-32
  | .SupportedItem => [(chars "elementName", .plain), (chars "attributeName", .plain), (chars "specificValue", .plain), (chars "isSupported", .plain)]
  -- include/mx/api/EncodingData.h 34-46
  | .MiscellaneousField => [(chars "key", .plain), (chars "value", .plain)]
  -- include/mx/api/EncodingData.h 48-56
  | .EncodingDate => [(chars "year", .plain), (chars "month", .plain), (chars "day", .plain)]
  -- include/mx/api/EncodingData.h 58-67
  | .EncodingData => [(chars "encodingDate", .of .EncodingDate), (chars "encoder", .plain), (chars "encodingDescription", .plain), (chars "software", .vec .plain), (chars "supportedItems", .vec (.of .SupportedItem)), (chars "miscelaneousFields", .vec (.of .MiscellaneousField))]
  -- include/mx/api/FontData.h 56-88
  | .FontData => [(chars "sizeType", .plain), (chars "sizePoint", .real), (chars "sizeCss", .plain), (chars "style", .plain), (chars "weight", .plain), (chars "fontFamily", .vec .plain), (chars "underline", .plain), (chars "overline", .plain), (chars "lineThrough", .plain)]
  -- include/mx/api/KeyComponent.h 16-48
  | .KeyComponent => [(chars "step", .plain), (chars "alter", .plain), (chars "cents", .real), (chars "accidental", .plain)]
  -- include/mx/api/KeyData.h 43-90
  | .KeyData => [(chars "fifths", .plain), (chars "cancel", .plain), (chars "mode", .plain), (chars "tickTimePosition", .plain), (chars "staffIndex", .plain), (chars "nonTraditional", .vec (.of .KeyComponent))]
  -- include/mx/api/LayoutData.h 25-71
  | .LayoutData => [(chars "system", .of .SystemData), (chars "page", .of .PageData)]
  -- include/mx/api/LeftRight.h 19-41
  | .LeftRight => [(chars "left", .real), (chars "right", .real)]
  -- include/mx/api/LineData.h 32-62
  | .LineData => [(chars "lineType", .plain), (chars "lineHook", .plain), (chars "isStopLengthSpecified", .plain), (chars "endLength", .real), (chars "isDashLengthSpecified", .plain), (chars "dashLength", .real), (chars "isSpaceLengthSpecified", .plain), (chars "spaceLength", .real)]
  -- include/mx/api/LyricData.h 13-19
  | .LyricData => [(chars "text", .plain)]
  -- include/mx/api/MarginsData.h 18-40
  | .MarginsData => [(chars "left", .real), (chars "right", .real), (chars "top", .real), (chars "bottom", .real)]
  -- include/mx/api/MarkData.h 210-221
  | .MarkData => [(chars "markType", .plain), (chars "name", .plain), (chars "tickTimePosition", .plain), (chars "printData", .of .PrintData), (chars "positionData", .of .PositionData)]
  -- include/mx/api/MeasureData.h 25-104
  | .MeasureData => [(chars "staves", .vec (.of .StaffData)), (chars "timeSignature", .of .TimeSignatureData), (chars "number", .plain), (chars "measureNumbering", .plain), (chars "multiMeasureRest", .plain), (chars "implicit", .plain), (chars "nonControlling", .plain), (chars "width", .real), (chars "keys", .vec (.of .KeyData)), (chars "barlines", .vec (.of .BarlineData))]
  -- include/mx/api/MeasureLocation.h 15-27
  | .MeasureLocation => [(chars "partIndex", .plain), (chars "staffIndex", .plain), (chars "measureIndex", .plain)]
  -- include/mx/api/MiscData.h 15-20
  | .MiscData => [(chars "name", .plain), (chars "data", .plain)]
  -- include/mx/api/NoteAttachmentData.h 15-26
  | .NoteAttachmentData => [(chars "marks", .vec (.of .MarkData)), (chars "curveStarts", .vec (.of .CurveStart)), (chars "curveContinuations", .vec (.of .CurveContinue)), (chars "curveStops", .vec (.of .CurveStop)), (chars "tupletStarts", .vec (.of .TupletStart)), (chars "tupletStops", .vec (.of .TupletStop))]
  -- include/mx/api/NoteData.h 76-129
  | .NoteData => [(chars "isRest", .plain), (chars "isMeasureRest", .plain), (chars "isUnpitched", .plain), (chars "isDisplayStepOctaveSpecified", .plain), (chars "isChord", .plain), (chars "isTieStart", .plain), (chars "isTieStop", .plain), (chars "noteType", .plain), (chars "notehead", .plain), (chars "pitchData", .of .PitchData), (chars "userRequestedVoiceNumber", .plain), (chars "stem", .plain), (chars "tickTimePosition", .plain), (chars "durationData", .of .DurationData), (chars "beams", .vec .plain), (chars "positionData", .of .PositionData), (chars "printData", .of .PrintData), (chars "noteAttachmentData", .of .NoteAttachmentData), (chars "miscData", .vec .plain)]
  -- include/mx/api/OttavaData.h 21-33
  | .OttavaStart => [(chars "spannerStart", .of .SpannerStart), (chars "ottavaType", .plain)]
  -- include/mx/api/PageData.h 21-53
  | .PageData => [(chars "newPage", .plain), (chars "pageLayoutData", .of .PageLayoutData), (chars "pageNumber", .opt .plain)]
  -- include/mx/api/PageLayoutData.h 20-41
  | .PageLayoutData => [(chars "size", .opt (.of .SizeData)), (chars "margins", .of .PageMarginsData)]
  -- include/mx/api/PageMarginsData.h 21-49
  | .PageMarginsData => [(chars "odd", .opt (.of .MarginsData)), (chars "even", .opt (.of .MarginsData))]
  -- include/mx/api/PageTextData.h 21-29
  | .PageTextData => [(chars "text", .plain), (chars "pageNumber", .plain), (chars "positionData", .of .PositionData), (chars "fontData", .of .FontData), (chars "description", .plain)]
  -- include/mx/api/PartData.h 26-75
  | .MidiData => [(chars "virtualLibrary", .plain), (chars "virtualName", .plain), (chars "device", .plain), (chars "name", .plain), (chars "bank", .plain), (chars "channel", .plain), (chars "program", .plain), (chars "unpitched", .plain), (chars "volume", .real), (chars "isVolumeSpecified", .plain), (chars "pan", .real), (chars "isPanSpecified", .plain), (chars "elevation", .real), (chars "isElevationSpecified", .plain)]
  -- include/mx/api/PartData.h 77-96
  | .InstrumentData => [(chars "uniqueId", .plain), (chars "name", .plain), (chars "abbreviation", .plain), (chars "soundID", .plain), (chars "soloOrEnsemble", .plain), (chars "midiData", .of .MidiData)]
  -- include/mx/api/PartData.h 98-177
  | .PartData => [(chars "uniqueId", .plain), (chars "name", .plain), (chars "abbreviation", .plain), (chars "displayName", .plain), (chars "displayNamePrintData", .of .PrintData), (chars "displayNamePositionData", .of .PositionData), (chars "displayAbbreviation", .plain), (chars "displayAbbreviationPrintData", .of .PrintData), (chars "displayAbbreviationPositionData", .of .PositionData), (chars "instrumentData", .of .InstrumentData), (chars "transposition", .opt (.of .TransposeData)), (chars "measures", .vec (.of .MeasureData))]
  -- include/mx/api/PartGroupData.h 39-66
  | .PartGroupData => [(chars "firstPartIndex", .plain), (chars "lastPartIndex", .plain), (chars "name", .plain), (chars "displayName", .plain), (chars "abbreviation", .plain), (chars "displayAbbreviation", .plain), (chars "bracketType", .plain), (chars "number", .plain)]
  -- include/mx/api/PitchData.h 67-138
  | .PitchData => [(chars "step", .plain), (chars "alter", .plain), (chars "cents", .real), (chars "accidental", .plain), (chars "isAccidentalParenthetical", .plain), (chars "isAccidentalCautionary", .plain), (chars "isAccidentalEditorial", .plain), (chars "isAccidentalBracketed", .plain), (chars "octave", .plain)]
  -- include/mx/api/PositionData.h 94-127
  | .PositionData => [(chars "defaultX", .real), (chars "isDefaultXSpecified", .plain), (chars "defaultY", .real), (chars "isDefaultYSpecified", .plain), (chars "relativeX", .real), (chars "isRelativeXSpecified", .plain), (chars "relativeY", .real), (chars "isRelativeYSpecified", .plain), (chars "placement", .plain), (chars "verticalAlignment", .plain), (chars "horizontalAlignmnet", .plain)]
  -- include/mx/api/PrintData.h 16-31
  | .PrintData => [(chars "printObject", .plain), (chars "fontData", .of .FontData), (chars "isColorSpecified", .plain), (chars "color", .of .ColorData)]
  -- include/mx/api/RehearsalData.h 15-35
  | .RehearsalData => [(chars "text", .plain), (chars "positionData", .of .PositionData), (chars "isColorSpecified", .plain), (chars "colorData", .of .ColorData), (chars "fontData", .of .FontData)]
  -- include/mx/api/ScoreData.h 30-69
  | .ScoreData => [(chars "musicXmlVersion", .plain), (chars "musicXmlType", .plain), (chars "workTitle", .plain), (chars "workNumber", .plain), (chars "movementTitle", .plain), (chars "movementNumber", .plain), (chars "composer", .plain), (chars "lyricist", .plain), (chars "arranger", .plain), (chars "publisher", .plain), (chars "copyright", .plain), (chars "encoding", .of .EncodingData), (chars "pageTextItems", .vec (.of .PageTextData)), (chars "defaults", .of .DefaultsData), (chars "parts", .vec (.of .PartData)), (chars "partGroups", .vec (.of .PartGroupData)), (chars "ticksPerQuarter", .plain), (chars "layout", .intMap (.of .LayoutData))]
  -- include/mx/api/SegnoData.h 15-28
  | .SegnoData => [(chars "positionData", .of .PositionData), (chars "isColorSpecified", .plain), (chars "colorData", .of .ColorData)]
  -- include/mx/api/SizeData.h 20-41
  | .SizeData => [(chars "height", .real), (chars "width", .real)]
  -- include/mx/api/SpannerData.h 18-35
  | .SpannerStart => [(chars "numberLevel", .plain), (chars "tickTimePosition", .plain), (chars "positionData", .of .PositionData), (chars "printData", .of .PrintData), (chars "lineData", .of .LineData)]
  -- include/mx/api/SpannerData.h 37-50
  | .SpannerStop => [(chars "numberLevel", .plain), (chars "tickTimePosition", .plain), (chars "positionData", .of .PositionData)]
  -- include/mx/api/StaffData.h 18-30
  | .StaffData => [(chars "clefs", .vec (.of .ClefData)), (chars "keys", .vec (.of .KeyData)), (chars "directions", .vec (.of .DirectionData)), (chars "voices", .intMap (.of .VoiceData))]
  -- include/mx/api/SystemData.h 29-55
  | .SystemData => [(chars "newSystem", .plain), (chars "layout", .of .SystemLayoutData)]
  -- include/mx/api/SystemLayoutData.h 20-52
  | .SystemLayoutData => [(chars "margins", .opt (.of .LeftRight)), (chars "systemDistance", .opt .real), (chars "topSystemDistance", .opt .real), (chars "staffDistance", .opt .real)]
  -- include/mx/api/TempoData.h 22-35
  | .BeatsPerMinute => [(chars "durationName", .plain), (chars "dots", .plain), (chars "beatsPerMinute", .plain)]
  -- include/mx/api/TempoData.h 37-54
  | .MetricModulation => [(chars "leftDurationName", .plain), (chars "leftDots", .plain), (chars "rightDurationName", .plain), (chars "rightDots", .plain), (chars "playbackBeatsPerMinute", .of .BeatsPerMinute)]
  -- include/mx/api/TempoData.h 56-60
  | .TempoText => [(chars "tempoText", .plain), (chars "playbackBeatsPerMinute", .of .BeatsPerMinute)]
  -- include/mx/api/TempoData.h 62-79
  | .TempoData => [(chars "tickTime", .plain), (chars "isParenthetical", .plain), (chars "printData", .of .PrintData), (chars "positionData", .of .PositionData), (chars "tempoType", .plain), (chars "beatsPerMinute", .of .BeatsPerMinute), (chars "metricModulation", .of .MetricModulation), (chars "tempoText", .of .TempoText)]
  -- include/mx/api/TimeSignatureData.h 22-58
  | .TimeSignatureData => [(chars "symbol", .plain), (chars "beats", .plain), (chars "beatType", .plain), (chars "isImplicit", .plain), (chars "display", .plain)]
  -- include/mx/api/TransposeData.h 49-74
  | .TransposeData => [(chars "chromatic", .plain), (chars "diatonic", .plain)]
  -- include/mx/api/TupletData.h 21-65
  | .TupletStart => [(chars "numberLevel", .plain), (chars "positionData", .of .PositionData), (chars "actualNumber", .plain), (chars "actualDurationName", .plain), (chars "actualDots", .plain), (chars "normalNumber", .plain), (chars "normalDurationName", .plain), (chars "normalDots", .plain), (chars "showActualNumber", .plain), (chars "showNormalNumber", .plain), (chars "bracket", .plain)]
  -- include/mx/api/TupletData.h 67-82
  | .TupletStop => [(chars "numberLevel", .plain), (chars "positionData", .of .PositionData)]
  -- include/mx/api/VoiceData.h 16-20
  | .VoiceData => [(chars "notes", .vec (.of .NoteData))]
  -- include/mx/api/WedgeData.h 23-44
  | .WedgeStart => [(chars "numberLevel", .plain), (chars "wedgeType", .plain), (chars "isSpreadSpecified", .plain), (chars "spread", .real), (chars "lineData", .of .LineData), (chars "positionData", .of .PositionData), (chars "colorData", .of .ColorData)]
  -- include/mx/api/WedgeData.h 46-61
  | .WedgeStop => [(chars "numberLevel", .plain), (chars "positionData", .of .PositionData), (chars "isSpreadSpecified", .plain), (chars "spread", .real)]
  -- include/mx/api/WordsData.h 16-34
  | .WordsData => [(chars "text", .plain), (chars "positionData", .of .PositionData), (chars "fontData", .of .FontData), (chars "isColorSpecified", .plain), (chars "colorData", .of .ColorData)]

/-- The members that `operator==` compares, in the order of the comparison, and how.  The line numbers are those of the comparison in include/mx/api. -/
def Struct.compared : Struct → List (Str × How)
  -- include/mx/api/AppearanceData.h 54-58
  | .AppearanceData => [(chars "appearanceType", .eq), (chars "appearanceSubType", .eq), (chars "value", .eq)]
  -- include/mx/api/BarlineData.h 60-67
  | .BarlineData => [(chars "tickTimePosition", .eq), (chars "barlineType", .eq), (chars "endingType", .eq), (chars "endingNumber", .eq), (chars "repeat", .eq), (chars "location", .eq)]
  -- include/mx/api/ChordData.h 132-137
  | .Extension => [(chars "extensionType", .eq), (chars "extensionAlter", .eq), (chars "extensionNumber", .eq), (chars "printObject", .eq)]
  -- include/mx/api/ChordData.h 158-169
  | .ChordData => [(chars "root", .eq), (chars "rootAlter", .eq), (chars "chordKind", .eq), (chars "text", .eq), (chars "useSymbols", .eq), (chars "bass", .eq), (chars "bassAlter", .eq), (chars "extensions", .eq), (chars "miscData", .eq), (chars "positionData", .eq)]
  -- include/mx/api/ClefData.h 70-77
  | .ClefData => [(chars "symbol", .eq), (chars "line", .eq), (chars "octaveChange", .eq), (chars "tickTimePosition", .eq), (chars "location", .eq)]
  -- include/mx/api/CodaData.h 30-34
  | .CodaData => [(chars "positionData", .eq), (chars "isColorSpecified", .eq), (chars "colorData", .eq)]
  -- include/mx/api/ColorData.h 33-39
  | .ColorData => [(chars "red", .eq), (chars "green", .eq), (chars "blue", .eq), (chars "isAlphaSpecified", .eq), (chars "alpha", .eq)]
  -- include/mx/api/CurveData.h 169-177
  | .CurvePoints => [(chars "positionData", .eq), (chars "isBezierXSpecified", .eq), (chars "bezierX", .eq), (chars "isBezierYSpecified", .eq), (chars "bezierY", .eq), (chars "isBezierOffsetSpecified", .eq), (chars "bezierOffset", .eq)]
  -- include/mx/api/CurveData.h 180-189
  | .CurveStart => [(chars "curveType", .eq), (chars "numberLevel", .eq), (chars "curvePoints", .eq), (chars "curveOrientation", .eq), (chars "placement", .eq), (chars "lineData", .eq), (chars "isColorSpecified", .eq), (chars "colorData", .eq)]
  -- include/mx/api/CurveData.h 192-202
  | .CurveContinue => [(chars "curveType", .eq), (chars "numberLevel", .eq), (chars "curvePoints", .eq), (chars "isBezierX2Specified", .eq), (chars "bezierX2", .eq), (chars "isBezierY2Specified", .eq), (chars "bezierY2", .eq), (chars "isBezierOffset2Specified", .eq), (chars "bezierOffset2", .eq)]
  -- include/mx/api/CurveData.h 205-209
  | .CurveStop => [(chars "curveType", .eq), (chars "numberLevel", .eq), (chars "curvePoints", .eq)]
  -- include/mx/api/DefaultsData.h 125-130
  | .DefaultsData => [(chars "pageLayout", .eq), (chars "systemLayout", .eq), (chars "appearance", .eq), (chars "measureNumbering", .eq)]
  -- include/mx/api/DirectionData.h 108-125
  | .DirectionData => [(chars "tickTimePosition", .eq), (chars "placement", .eq), (chars "voice", .eq), (chars "isStaffValueSpecified", .eq), (chars "tempos", .eq), (chars "marks", .eq), (chars "wedgeStarts", .eq), (chars "wedgeStops", .eq), (chars "ottavaStarts", .eq), (chars "ottavaStops", .eq), (chars "bracketStarts", .eq), (chars "bracketStops", .eq), (chars "words", .eq), (chars "chords", .eq), (chars "segnos", .eq), (chars "codas", .eq)]
  -- include/mx/api/DurationData.h 79-88
  | .DurationData => [(chars "durationName", .eq), (chars "durationDots", .eq), (chars "durationTimeTicks", .eq), (chars "isTied", .eq), (chars "timeModificationActualNotes", .eq), (chars "timeModificationNormalNotes", .eq), (chars "timeModificationNormalType", .eq), (chars "timeModificationNormalTypeDots", .eq)]
  -- include/mx/api/EncodingData.h 69-74
  | .SupportedItem => [(chars "elementName", .eq), (chars "attributeName", .eq), (chars "specificValue", .eq), (chars "isSupported", .eq)]
  -- include/mx/api/EncodingData.h 77-80
  | .MiscellaneousField => [(chars "key", .eq), (chars "value", .eq)]
  -- include/mx/api/EncodingData.h 83-87
  | .EncodingDate => [(chars "year", .eq), (chars "month", .eq), (chars "day", .eq)]
  -- include/mx/api/EncodingData.h 90-97
  | .EncodingData => [(chars "encodingDate", .eq), (chars "encoder", .eq), (chars "encodingDescription", .eq), (chars "software", .eq), (chars "supportedItems", .eq), (chars "miscelaneousFields", .eq)]
  -- include/mx/api/FontData.h 91-105
  | .FontData => [(chars "sizeType", .eq), (chars "sizePoint", .eq), (chars "sizeCss", .eq), (chars "style", .eq), (chars "weight", .eq), (chars "fontFamily", .eq), (chars "underline", .eq), (chars "overline", .eq), (chars "lineThrough", .eq)]
  -- include/mx/api/KeyComponent.h 51-56
  | .KeyComponent => [(chars "step", .eq), (chars "alter", .eq), (chars "cents", .eq), (chars "accidental", .eq)]
  -- include/mx/api/KeyData.h 92-99
  | .KeyData => [(chars "fifths", .eq), (chars "cancel", .eq), (chars "mode", .eq), (chars "tickTimePosition", .eq), (chars "staffIndex", .eq), (chars "nonTraditional", .eq)]
  -- include/mx/api/LayoutData.h 73-76
  | .LayoutData => [(chars "system", .eq), (chars "page", .eq)]
  -- include/mx/api/LeftRight.h 43-46
  | .LeftRight => [(chars "left", .eq), (chars "right", .eq)]
  -- include/mx/api/LineData.h 64-73
  | .LineData => [(chars "lineType", .eq), (chars "lineHook", .eq), (chars "isStopLengthSpecified", .eq), (chars "endLength", .eq), (chars "isDashLengthSpecified", .eq), (chars "dashLength", .eq), (chars "isSpaceLengthSpecified", .eq), (chars "spaceLength", .eq)]
  -- include/mx/api/LyricData.h 21-22
  | .LyricData => []
  -- include/mx/api/MarginsData.h 42-47
  | .MarginsData => [(chars "left", .eq), (chars "right", .eq), (chars "top", .eq), (chars "bottom", .eq)]
  -- include/mx/api/MarkData.h 223-229
  | .MarkData => [(chars "markType", .eq), (chars "name", .eq), (chars "tickTimePosition", .eq), (chars "printData", .eq), (chars "positionData", .eq)]
  -- include/mx/api/MeasureData.h 106-117
  | .MeasureData => [(chars "staves", .eq), (chars "timeSignature", .eq), (chars "number", .eq), (chars "measureNumbering", .eq), (chars "multiMeasureRest", .eq), (chars "implicit", .eq), (chars "nonControlling", .eq), (chars "width", .eq), (chars "keys", .eq), (chars "barlines", .eq)]
  -- include/mx/api/MeasureLocation.h 29-33
  | .MeasureLocation => [(chars "partIndex", .eq), (chars "staffIndex", .eq), (chars "measureIndex", .eq)]
  -- include/mx/api/MiscData.h 22-25
  | .MiscData => [(chars "name", .eq), (chars "data", .eq)]
  -- include/mx/api/NoteAttachmentData.h 28-37
  | .NoteAttachmentData => [(chars "marks", .eq), (chars "curveStarts", .eq), (chars "curveContinuations", .eq), (chars "curveStops", .eq), (chars "tupletStarts", .eq), (chars "tupletStops", .eq)]
  -- include/mx/api/NoteData.h 132-151
  | .NoteData => [(chars "isRest", .eq), (chars "isMeasureRest", .eq), (chars "isUnpitched", .eq), (chars "isDisplayStepOctaveSpecified", .eq), (chars "isChord", .eq), (chars "isTieStart", .eq), (chars "isTieStop", .eq), (chars "noteType", .eq), (chars "pitchData", .eq), (chars "userRequestedVoiceNumber", .eq), (chars "stem", .eq), (chars "tickTimePosition", .eq), (chars "durationData", .eq), (chars "beams", .eq), (chars "positionData", .eq), (chars "printData", .eq), (chars "noteAttachmentData", .eq), (chars "miscData", .eq)]
  -- include/mx/api/OttavaData.h 37-40
  | .OttavaStart => [(chars "spannerStart", .eq), (chars "ottavaType", .eq)]
  -- include/mx/api/PageData.h 55-59
  | .PageData => [(chars "newPage", .eq), (chars "pageLayoutData", .eq), (chars "pageNumber", .eq)]
  -- include/mx/api/PageLayoutData.h 43-46
  | .PageLayoutData => [(chars "size", .eq), (chars "margins", .eq)]
  -- include/mx/api/PageMarginsData.h 51-54
  | .PageMarginsData => [(chars "odd", .eq), (chars "even", .eq)]
  -- include/mx/api/PageTextData.h 31-37
  | .PageTextData => [(chars "text", .eq), (chars "pageNumber", .eq), (chars "positionData", .eq), (chars "fontData", .eq), (chars "description", .eq)]
  -- include/mx/api/PartData.h 179-194
  | .MidiData => [(chars "virtualLibrary", .eq), (chars "virtualName", .eq), (chars "device", .eq), (chars "name", .eq), (chars "bank", .eq), (chars "channel", .eq), (chars "program", .eq), (chars "unpitched", .eq), (chars "volume", .eq), (chars "isVolumeSpecified", .eq), (chars "pan", .eq), (chars "isPanSpecified", .eq), (chars "elevation", .eq), (chars "isElevationSpecified", .eq)]
  -- include/mx/api/PartData.h 197-204
  | .InstrumentData => [(chars "uniqueId", .eq), (chars "name", .eq), (chars "abbreviation", .eq), (chars "soundID", .eq), (chars "soloOrEnsemble", .eq), (chars "midiData", .eq)]
  -- include/mx/api/PartData.h 207-220
  | .PartData => [(chars "uniqueId", .eq), (chars "name", .eq), (chars "abbreviation", .eq), (chars "displayName", .eq), (chars "displayNamePrintData", .eq), (chars "displayNamePositionData", .eq), (chars "displayAbbreviation", .eq), (chars "displayAbbreviationPrintData", .eq), (chars "displayAbbreviationPositionData", .eq), (chars "instrumentData", .eq), (chars "transposition", .eq), (chars "measures", .eq)]
  -- include/mx/api/PartGroupData.h 68-75
  | .PartGroupData => [(chars "firstPartIndex", .eq), (chars "lastPartIndex", .eq), (chars "name", .eq), (chars "displayName", .eq), (chars "abbreviation", .eq), (chars "displayAbbreviation", .eq)]
  -- include/mx/api/PitchData.h 140-150
  | .PitchData => [(chars "step", .eq), (chars "alter", .eq), (chars "cents", .near), (chars "accidental", .eq), (chars "isAccidentalParenthetical", .eq), (chars "isAccidentalCautionary", .eq), (chars "isAccidentalEditorial", .eq), (chars "isAccidentalBracketed", .eq), (chars "octave", .eq)]
  -- include/mx/api/PositionData.h 130-142
  | .PositionData => [(chars "defaultX", .near), (chars "isDefaultXSpecified", .eq), (chars "defaultY", .near), (chars "isDefaultYSpecified", .eq), (chars "relativeX", .near), (chars "isRelativeXSpecified", .eq), (chars "relativeY", .near), (chars "isRelativeYSpecified", .eq), (chars "placement", .eq), (chars "verticalAlignment", .eq), (chars "horizontalAlignmnet", .eq)]
  -- include/mx/api/PrintData.h 33-38
  | .PrintData => [(chars "printObject", .eq), (chars "fontData", .eq), (chars "isColorSpecified", .eq), (chars "color", .eq)]
  -- include/mx/api/RehearsalData.h 37-43
  | .RehearsalData => [(chars "text", .eq), (chars "positionData", .eq), (chars "isColorSpecified", .eq), (chars "colorData", .eq), (chars "fontData", .eq)]
  -- include/mx/api/ScoreData.h 73-92
  | .ScoreData => [(chars "musicXmlVersion", .eq), (chars "musicXmlType", .eq), (chars "workTitle", .eq), (chars "workNumber", .eq), (chars "movementTitle", .eq), (chars "movementNumber", .eq), (chars "composer", .eq), (chars "lyricist", .eq), (chars "arranger", .eq), (chars "publisher", .eq), (chars "copyright", .eq), (chars "encoding", .eq), (chars "pageTextItems", .eq), (chars "defaults", .eq), (chars "parts", .eq), (chars "partGroups", .eq), (chars "ticksPerQuarter", .eq), (chars "layout", .eq)]
  -- include/mx/api/SegnoData.h 30-34
  | .SegnoData => [(chars "positionData", .eq), (chars "isColorSpecified", .eq), (chars "colorData", .eq)]
  -- include/mx/api/SizeData.h 43-46
  | .SizeData => [(chars "height", .eq), (chars "width", .eq)]
  -- include/mx/api/SpannerData.h 52-58
  | .SpannerStart => [(chars "numberLevel", .eq), (chars "tickTimePosition", .eq), (chars "positionData", .eq), (chars "printData", .eq), (chars "lineData", .eq)]
  -- include/mx/api/SpannerData.h 61-65
  | .SpannerStop => [(chars "numberLevel", .eq), (chars "tickTimePosition", .eq), (chars "positionData", .eq)]
  -- include/mx/api/StaffData.h 55-64
  | .StaffData => [(chars "clefs", .eq), (chars "keys", .eq), (chars "directions", .eq), (chars "voices", .eq)]
  -- include/mx/api/SystemData.h 57-60
  | .SystemData => [(chars "newSystem", .eq), (chars "layout", .eq)]
  -- include/mx/api/SystemLayoutData.h 54-59
  | .SystemLayoutData => [(chars "margins", .eq), (chars "systemDistance", .eq), (chars "topSystemDistance", .eq), (chars "staffDistance", .eq)]
  -- include/mx/api/TempoData.h 81-85
  | .BeatsPerMinute => [(chars "durationName", .eq), (chars "dots", .eq), (chars "beatsPerMinute", .eq)]
  -- include/mx/api/TempoData.h 88-94
  | .MetricModulation => [(chars "leftDurationName", .eq), (chars "leftDots", .eq), (chars "rightDurationName", .eq), (chars "rightDots", .eq), (chars "playbackBeatsPerMinute", .eq)]
  -- include/mx/api/TempoData.h 97-100
  | .TempoText => [(chars "tempoText", .eq), (chars "playbackBeatsPerMinute", .eq)]
  -- include/mx/api/TempoData.h 103-112
  | .TempoData => [(chars "tickTime", .eq), (chars "isParenthetical", .eq), (chars "printData", .eq), (chars "positionData", .eq), (chars "tempoType", .eq), (chars "beatsPerMinute", .eq), (chars "metricModulation", .eq), (chars "tempoText", .eq)]
  -- include/mx/api/TimeSignatureData.h 60-66
  | .TimeSignatureData => [(chars "symbol", .eq), (chars "beats", .eq), (chars "beatType", .eq), (chars "isImplicit", .eq), (chars "display", .eq)]
  -- include/mx/api/TransposeData.h 76-79
  | .TransposeData => [(chars "chromatic", .eq), (chars "diatonic", .eq)]
  -- include/mx/api/TupletData.h 84-96
  | .TupletStart => [(chars "numberLevel", .eq), (chars "positionData", .eq), (chars "actualNumber", .eq), (chars "actualDurationName", .eq), (chars "actualDots", .eq), (chars "normalNumber", .eq), (chars "normalDurationName", .eq), (chars "normalDots", .eq), (chars "showActualNumber", .eq), (chars "showNormalNumber", .eq), (chars "bracket", .eq)]
  -- include/mx/api/TupletData.h 99-102
  | .TupletStop => [(chars "numberLevel", .eq), (chars "positionData", .eq)]
  -- include/mx/api/VoiceData.h 23-26
  | .VoiceData => [(chars "notes", .eq)]
  -- include/mx/api/WedgeData.h 63-71
  | .WedgeStart => [(chars "numberLevel", .eq), (chars "wedgeType", .eq), (chars "isSpreadSpecified", .eq), (chars "spread", .eq), (chars "lineData", .eq), (chars "positionData", .eq), (chars "colorData", .eq)]
  -- include/mx/api/WedgeData.h 74-79
  | .WedgeStop => [(chars "numberLevel", .eq), (chars "positionData", .eq), (chars "isSpreadSpecified", .eq), (chars "spread", .eq)]
  -- include/mx/api/WordsData.h 36-41
  | .WordsData => [(chars "positionData", .eq), (chars "fontData", .eq), (chars "isColorSpecified", .eq), (chars "colorData", .eq)]

end Mx.ApiEq
