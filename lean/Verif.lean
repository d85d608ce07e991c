import Verif.Audit
import Verif.Model.ApiData
import Verif.Model.ApiEnums
import Verif.Model.ApiEquality
import Verif.Model.ApiQueries
import Verif.Model.ApiStructs
import Verif.Model.AttributeTables
import Verif.Model.Attributes
import Verif.Model.Barline
import Verif.Model.Basic
import Verif.Model.Color
import Verif.Model.ContentReader
import Verif.Model.ContentTables
import Verif.Model.ContentTree
import Verif.Model.ConverterTables
import Verif.Model.CoreEnums
import Verif.Model.CurvesThrough
import Verif.Model.Date
import Verif.Model.Decimals
import Verif.Model.Directions
import Verif.Model.DirectionsThrough
import Verif.Model.DocumentContent
import Verif.Model.DocumentData
import Verif.Model.DocumentManager
import Verif.Model.Elements
import Verif.Model.Ezxml
import Verif.Model.FloatDecimals
import Verif.Model.FloatPitch
import Verif.Model.FloatReals
import Verif.Model.FloatTimes
import Verif.Model.Floating
import Verif.Model.HeaderThrough
import Verif.Model.HeadersThrough
import Verif.Model.Instruments
import Verif.Model.Integers
import Verif.Model.Layout
import Verif.Model.LayoutThrough
import Verif.Model.LazyMembers
import Verif.Model.LcmGcd
import Verif.Model.Marks
import Verif.Model.MarksThrough
import Verif.Model.MeasureOverflow
import Verif.Model.MeasureReader
import Verif.Model.MeasureTypes
import Verif.Model.MeasureWriter
import Verif.Model.Notations
import Verif.Model.NotationsThrough
import Verif.Model.NoteDetails
import Verif.Model.NotesThrough
import Verif.Model.OpenEnums
import Verif.Model.PartGroups
import Verif.Model.PartListThrough
import Verif.Model.PartStaves
import Verif.Model.Properties
import Verif.Model.ReaderTables
import Verif.Model.ScoreConversions
import Verif.Model.ScoreHeader
import Verif.Model.ScorePartThrough
import Verif.Model.ScoreTime
import Verif.Model.ScoreWriting
import Verif.Model.SignaturesThrough
import Verif.Model.Sounds
import Verif.Model.StringEnum
import Verif.Model.Strings
import Verif.Model.TimesThrough
import Verif.Model.TupletsThrough
import Verif.Model.WholeNote
import Verif.Model.WholeNotesThrough
import Verif.Model.XmlDocument
import Verif.Model.XmlParser
import Verif.Model.XmlPrinter
import Verif.Model.XmlSettings
import Verif.Proofs.ApiData
import Verif.Proofs.ApiEnums
import Verif.Proofs.ApiEquality
import Verif.Proofs.ApiQueries
import Verif.Proofs.AttributeErrors
import Verif.Proofs.AttributeObjects
import Verif.Proofs.AttributeTables
import Verif.Proofs.Attributes
import Verif.Proofs.BarlineClock
import Verif.Proofs.BarlinePass
import Verif.Proofs.BarlineRead
import Verif.Proofs.Blocked
import Verif.Proofs.ChordSaid
import Verif.Proofs.ClefClock
import Verif.Proofs.ClefPass
import Verif.Proofs.ClefRead
import Verif.Proofs.Color
import Verif.Proofs.Content
import Verif.Proofs.ContentCareful
import Verif.Proofs.ContentChecks
import Verif.Proofs.ContentSamples
import Verif.Proofs.ContentValid
import Verif.Proofs.ContentWhole
import Verif.Proofs.CoreEnums
import Verif.Proofs.CurvesSaid
import Verif.Proofs.Date
import Verif.Proofs.Decimals
import Verif.Proofs.DirectionClock
import Verif.Proofs.DirectionPass
import Verif.Proofs.DirectionRead
import Verif.Proofs.DirectionSaid
import Verif.Proofs.Directions
import Verif.Proofs.DirectionsPlain
import Verif.Proofs.DocumentData
import Verif.Proofs.DocumentManager
import Verif.Proofs.Ezxml
import Verif.Proofs.FloatDecimals
import Verif.Proofs.FloatPitch
import Verif.Proofs.FloatReals
import Verif.Proofs.FloatScore
import Verif.Proofs.FloatTimes
import Verif.Proofs.FloatTimesNear
import Verif.Proofs.Floating
import Verif.Proofs.GroupsSaid
import Verif.Proofs.HeaderSaid
import Verif.Proofs.HeadersSaid
import Verif.Proofs.Inclusion
import Verif.Proofs.Instruments
import Verif.Proofs.Integers
import Verif.Proofs.KeyClock
import Verif.Proofs.KeyPass
import Verif.Proofs.KeyRead
import Verif.Proofs.Layout
import Verif.Proofs.LayoutSaid
import Verif.Proofs.LazyMembers
import Verif.Proofs.LcmGcd
import Verif.Proofs.Loaded
import Verif.Proofs.LoadedGroups
import Verif.Proofs.LoadedMain
import Verif.Proofs.LoadedSettles
import Verif.Proofs.LoadedValid
import Verif.Proofs.Marks
import Verif.Proofs.MarksSaid
import Verif.Proofs.MeasureClock
import Verif.Proofs.MeasureComplete
import Verif.Proofs.MeasureOverflow
import Verif.Proofs.MeasureReader
import Verif.Proofs.MeasureReaderClock
import Verif.Proofs.MeasureReaderRounding
import Verif.Proofs.MeasureRenumbered
import Verif.Proofs.MeasureRoundTrip
import Verif.Proofs.MeasureRoundTripVoices
import Verif.Proofs.MeasureSettles
import Verif.Proofs.MeasureVoices
import Verif.Proofs.MeasureWriter
import Verif.Proofs.Notations
import Verif.Proofs.NotationsSaid
import Verif.Proofs.NoteDetails
import Verif.Proofs.NoteKept
import Verif.Proofs.NotesThrough
import Verif.Proofs.OpenEnums
import Verif.Proofs.PartGroups
import Verif.Proofs.PartStaves
import Verif.Proofs.PassAgain
import Verif.Proofs.PassThrough
import Verif.Proofs.Properties
import Verif.Proofs.ReaderBasics
import Verif.Proofs.ReaderChoices
import Verif.Proofs.ReaderGroups
import Verif.Proofs.ReaderLoop
import Verif.Proofs.ReaderMain
import Verif.Proofs.ReaderNote
import Verif.Proofs.ReaderParts
import Verif.Proofs.ReaderPlain
import Verif.Proofs.ReaderSamples
import Verif.Proofs.ReaderScore
import Verif.Proofs.ReaderServe
import Verif.Proofs.ReaderSpecialA
import Verif.Proofs.ReaderSpecialB
import Verif.Proofs.ReaderSpecialC
import Verif.Proofs.ReaderSpecialD
import Verif.Proofs.ReaderSpecialE
import Verif.Proofs.ReaderSpecialF
import Verif.Proofs.ReaderSpecialG
import Verif.Proofs.ReaderSpecialH
import Verif.Proofs.ReaderSpecialI
import Verif.Proofs.ReaderSpecialJ
import Verif.Proofs.ReaderSpecialK
import Verif.Proofs.ReaderStmts
import Verif.Proofs.SchemaEnums
import Verif.Proofs.ScoreConversions
import Verif.Proofs.ScoreHeader
import Verif.Proofs.ScorePartSaid
import Verif.Proofs.ScoreSettles
import Verif.Proofs.ScoreTime
import Verif.Proofs.ScoreWriting
import Verif.Proofs.SignaturesSaid
import Verif.Proofs.Sounds
import Verif.Proofs.StableBase
import Verif.Proofs.StableFrame
import Verif.Proofs.StableGroups
import Verif.Proofs.StableLyric
import Verif.Proofs.StableMain
import Verif.Proofs.StableMend
import Verif.Proofs.StableRead
import Verif.Proofs.StableSpecial
import Verif.Proofs.StableValid
import Verif.Proofs.StringEnum
import Verif.Proofs.StringLists
import Verif.Proofs.Strings
import Verif.Proofs.Supported
import Verif.Proofs.SupportedSamples
import Verif.Proofs.Text
import Verif.Proofs.TimesSaid
import Verif.Proofs.Transposition
import Verif.Proofs.TupletsSaid
import Verif.Proofs.Unknown
import Verif.Proofs.Variants
import Verif.Proofs.WholeFile
import Verif.Proofs.WholeNoteSaid
import Verif.Proofs.WholeNotesThrough
import Verif.Proofs.WrittenForward
import Verif.Proofs.XmlBroken
import Verif.Proofs.XmlChars
import Verif.Proofs.XmlCut
import Verif.Proofs.XmlCutDoc
import Verif.Proofs.XmlCutTree
import Verif.Proofs.XmlForeign
import Verif.Proofs.XmlParse
import Verif.Proofs.XmlProlog
import Verif.Proofs.XmlRead
import Verif.Proofs.XmlSave
import Verif.Proofs.XmlSettings
import Verif.Proofs.XmlSpell
import Verif.Proofs.XmlWrite
import Verif.Props.ApiDataProps
import Verif.Props.ApiEqualityProps
import Verif.Props.ApiQueryProps
import Verif.Props.AttributeProps
import Verif.Props.BarlineProps
import Verif.Props.ChordFileProps
import Verif.Props.ClefTimeProps
import Verif.Props.ColorProps
import Verif.Props.ContentProps
import Verif.Props.CurveFileProps
import Verif.Props.DateProps
import Verif.Props.DecimalProps
import Verif.Props.DirectionFileProps
import Verif.Props.DirectionProps
import Verif.Props.DirectionTimeProps
import Verif.Props.DocumentDataProps
import Verif.Props.DocumentProps
import Verif.Props.EnumProps
import Verif.Props.EzxmlProps
import Verif.Props.FloatPitchProps
import Verif.Props.FloatProps
import Verif.Props.FloatRealsProps
import Verif.Props.FloatTimesProps
import Verif.Props.HeaderFileProps
import Verif.Props.HeaderTextFileProps
import Verif.Props.InstrumentProps
import Verif.Props.IntegerProps
import Verif.Props.KeyTimeProps
import Verif.Props.LayoutFileProps
import Verif.Props.LayoutProps
import Verif.Props.LazyProps
import Verif.Props.LoadedProps
import Verif.Props.MarkFileProps
import Verif.Props.MarkProps
import Verif.Props.MeasureCompleteProps
import Verif.Props.MeasureProps
import Verif.Props.NotationFileProps
import Verif.Props.NotationProps
import Verif.Props.NoteFileProps
import Verif.Props.NoteProps
import Verif.Props.NotesThroughProps
import Verif.Props.OverflowProps
import Verif.Props.PartListFileProps
import Verif.Props.PartProps
import Verif.Props.PassThroughProps
import Verif.Props.ReaderProps
import Verif.Props.RoundTripProps
import Verif.Props.ScoreHeaderProps
import Verif.Props.ScorePartFileProps
import Verif.Props.ScoreSettlesProps
import Verif.Props.ScoreTimeProps
import Verif.Props.ScoreWritingProps
import Verif.Props.SettlesProps
import Verif.Props.SignatureFileProps
import Verif.Props.SignatureProps
import Verif.Props.StableProps
import Verif.Props.StaffProps
import Verif.Props.StringProps
import Verif.Props.SupportedProps
import Verif.Props.TimesFileProps
import Verif.Props.TupletFileProps
import Verif.Props.UnknownProps
import Verif.Props.WholeFileProps
import Verif.Props.WholeNoteProps
import Verif.Props.WholeNotesThroughProps
import Verif.Props.XmlBrokenProps
import Verif.Props.XmlCutProps
import Verif.Props.XmlFileProps
import Verif.Props.XmlSettingsProps
import Verif.Spec.ApiData
import Verif.Spec.ApiEquality
import Verif.Spec.ApiQueries
import Verif.Spec.ApiTexts
import Verif.Spec.AttributeLimits
import Verif.Spec.Attributes
import Verif.Spec.BarlineTime
import Verif.Spec.Calendar
import Verif.Spec.ChordSaid
import Verif.Spec.ClefTime
import Verif.Spec.Content
import Verif.Spec.CurvesSaid
import Verif.Spec.Decimal
import Verif.Spec.DecimalRanges
import Verif.Spec.DirectionSaid
import Verif.Spec.DirectionTime
import Verif.Spec.Directions
import Verif.Spec.DocumentData
import Verif.Spec.DocumentManager
import Verif.Spec.Ezxml
import Verif.Spec.FloatRange
import Verif.Spec.FloatReals
import Verif.Spec.FloatTimes
import Verif.Spec.GroupsSaid
import Verif.Spec.HeaderSaid
import Verif.Spec.HeadersSaid
import Verif.Spec.Instruments
import Verif.Spec.KeyTime
import Verif.Spec.Layout
import Verif.Spec.LayoutSaid
import Verif.Spec.LazyMembers
import Verif.Spec.Loaded
import Verif.Spec.Marks
import Verif.Spec.MarksSaid
import Verif.Spec.MeasureComplete
import Verif.Spec.MeasureOverflow
import Verif.Spec.MeasurePlan
import Verif.Spec.MeasureRoundTrip
import Verif.Spec.MeasureRounding
import Verif.Spec.MeasureSettles
import Verif.Spec.MusicXMLClock
import Verif.Spec.Notations
import Verif.Spec.NotationsSaid
import Verif.Spec.NoteDetails
import Verif.Spec.NoteSaid
import Verif.Spec.NotesThrough
import Verif.Spec.OpenEnums
import Verif.Spec.PartGroups
import Verif.Spec.PartStaves
import Verif.Spec.PassThrough
import Verif.Spec.Properties
import Verif.Spec.Reader
import Verif.Spec.Regular
import Verif.Spec.SchemaAttributes
import Verif.Spec.SchemaContent
import Verif.Spec.SchemaEnums
import Verif.Spec.ScoreConversions
import Verif.Spec.ScoreHeader
import Verif.Spec.ScorePartSaid
import Verif.Spec.ScoreSettles
import Verif.Spec.ScoreTime
import Verif.Spec.ScoreWriting
import Verif.Spec.SignaturesSaid
import Verif.Spec.Stable
import Verif.Spec.Supported
import Verif.Spec.Text
import Verif.Spec.TimesSaid
import Verif.Spec.Tokens
import Verif.Spec.TupletsSaid
import Verif.Spec.Unknown
import Verif.Spec.WholeFile
import Verif.Spec.WholeNoteSaid
import Verif.Spec.WholeNotesThrough
import Verif.Spec.XmlBroken
import Verif.Spec.XmlFile
import Verif.Spec.XmlSaved
import Verif.Spec.XmlSettings
import Verif.Spec.XmlText
