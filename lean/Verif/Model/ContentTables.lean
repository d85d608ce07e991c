import Verif.Spec.Regular

/-
The classes of private/mx/core/elements whose objects have children (one .cpp file per class): their members, `hasContents` and `streamContents` as data.
Generated from the source by a script.
-/
namespace Mx.Content

/-- The classes. Those with name 0 in the table below stand for a group or a choice and are written as part of their owner. -/
inductive Cls where
  | Accord | AccordionRegistration | Appearance | Arrow | ArrowGroup | Articulations | ArticulationsChoice | Backup
  | Barline | Bass | BeatRepeat | BeatUnitGroup | BeatUnitPer | BeatUnitPerOrNoteRelationNoteChoice | Bend | BendChoice
  | Clef | Credit | CreditChoice | CreditWordsGroup | CueNoteGroup | Defaults | Degree | Direction
  | DirectionType | DisplayStepOctaveGroup | DisplayTextOrAccidentalText | Dynamics | EditorialGroup | EditorialVoiceDirectionGroup | EditorialVoiceGroup | ElisionSyllabicGroup
  | ElisionSyllabicTextGroup | Encoding | EncodingChoice | Figure | FiguredBass | Forward | Frame | FrameNote
  | FullNoteGroup | FullNoteTypeChoice | GraceNoteGroup | GroupAbbreviationDisplay | GroupNameDisplay | Grouping | Harmonic | HarmonicInfoChoice
  | HarmonicTypeChoice | Harmony | HarmonyChordGroup | HarpPedals | Hole | Identification | Interchangeable | Key
  | KeyChoice | LayoutGroup | Lyric | LyricTextChoice | MeasureLayout | MeasureStyle | MeasureStyleChoice | Metronome
  | MetronomeNote | MetronomeRelationGroup | MetronomeTuplet | MidiDeviceInstrumentGroup | MidiInstrument | Miscellaneous | MusicDataChoice | MusicDataGroup
  | NonTraditionalKey | NormalNoteGroup | NormalTypeNormalDotGroup | Notations | NotationsChoice | Note | NoteChoice | NoteRelationNote
  | NoteheadText | NoteheadTextChoice | Ornaments | OrnamentsChoice | PageLayout | PageMargins | PartAbbreviationDisplay | PartGroup
  | PartGroupOrScorePart | PartList | PartNameDisplay | PartwiseMeasure | PartwisePart | PedalTuning | PerMinuteOrBeatUnitChoice | Percussion
  | PercussionChoice | Pitch | Play | Print | Properties | Rest | Root | Scaling
  | Scordatura | ScoreHeaderGroup | ScoreInstrument | ScorePart | ScorePartwise | ScoreTimewise | Slash | SoloOrEnsembleChoice
  | Sound | StaffDetails | StaffLayout | StaffTuning | Stick | SyllabicTextGroup | SystemDividers | SystemLayout
  | SystemMargins | Technical | TechnicalChoice | Time | TimeChoice | TimeModification | TimeModificationNormalTypeNormalDot | TimeSignatureGroup
  | TimewiseMeasure | TimewisePart | TraditionalKey | Transpose | Tuplet | TupletActual | TupletNormal | Unpitched
  | VirtualInstrument | Work
  deriving DecidableEq, Repr

/-- What a member points to: an element without children (its name, the constant returned by its `hasContents`) or an object of a class of the table. -/
inductive Kind where
  | leaf (tag : Nat) (hasContents : Bool)
  | comp (c : Cls)
  deriving DecidableEq

/-- How a vector member is changed: its size after the constructor, the size at which `addX` stops adding (if any), the size at which `removeX` stops
removing, and the size after `clearXSet`. -/
structure SetCode where
  start : Nat
  most : Option Nat
  least : Nat
  clear : Nat
  deriving DecidableEq

/-- `one`: a pointer; `opt`: a pointer `myX` with a flag `myHasX`; `set`: a vector. -/
inductive Mult where
  | one
  | opt
  | set (s : SetCode)
  deriving DecidableEq

structure Member where
  kind : Kind
  mult : Mult

/-- Conditions: a flag of a member, the value of `myChoice`, `hasContents()` of the object. -/
inductive Cond where
  | flag (i : Nat)
  | choice (k : Nat)
  | self

/-- `toStream`, `streamContents`, or `if ( x->hasContents() ) x->streamContents`. -/
inductive How where
  | element
  | body
  | bodyIf

/-- A statement of `streamContents`: under the conditions, write the member (all items of a vector). -/
structure Stmt where
  conds : List Cond
  slot : Nat
  how : How

/-- Parts of the formula of `hasContents`: a flag, a non-empty vector, `hasContents` of a member, the value of `myChoice`. -/
inductive HasAtom where
  | flag (i : Nat)
  | size (i : Nat)
  | kid (i : Nat)
  | choice (k : Nat)

/-- A class. `has` is a disjunction of conjunctions; `choices` is the number of values of `myChoice` (0 if there is no such member).
Conditions that only test a pointer are left out, since the setters never store a null pointer; statements that only write white space are left out. -/
structure ClassInfo where
  name : Nat
  choices : Nat
  members : List Member
  has : List (List HasAtom)
  stmts : List Stmt

/-- `Accord`: `hasContents` private/mx/core/elements/Accord.cpp 44-47, `streamContents` 50-64. Members: TuningStep, TuningAlter, TuningOctave. -/
def c_Accord : ClassInfo where
  name := nm! "accord"
  choices := 0
  members := [⟨.leaf (nm! "tuning-step") true, .one⟩, ⟨.leaf (nm! "tuning-alter") true, .opt⟩, ⟨.leaf (nm! "tuning-octave") true, .one⟩]
  has := [[]]
  stmts := [⟨[], 0, .element⟩, ⟨[.flag 1], 1, .element⟩, ⟨[], 2, .element⟩]

/-- `AccordionRegistration`: `hasContents` private/mx/core/elements/AccordionRegistration.cpp 46-49, `streamContents` 52-75. Members: AccordionHigh, AccordionMiddle, AccordionLow. -/
def c_AccordionRegistration : ClassInfo where
  name := nm! "accordion-registration"
  choices := 0
  members := [⟨.leaf (nm! "accordion-high") false, .opt⟩, ⟨.leaf (nm! "accordion-middle") true, .opt⟩, ⟨.leaf (nm! "accordion-low") false, .opt⟩]
  has := [[.flag 0], [.flag 1], [.flag 2]]
  stmts := [⟨[.flag 0], 0, .element⟩, ⟨[.flag 1], 1, .element⟩, ⟨[.flag 2], 2, .element⟩]

/-- `Appearance`: `hasContents` private/mx/core/elements/Appearance.cpp 44-50, `streamContents` 53-81. Members: LineWidthSet, NoteSizeSet, DistanceSet, OtherAppearanceSet. -/
def c_Appearance : ClassInfo where
  name := nm! "appearance"
  choices := 0
  members := [⟨.leaf (nm! "line-width") true, (.set ⟨0, none, 0, 0⟩)⟩, ⟨.leaf (nm! "note-size") true, (.set ⟨0, none, 0, 0⟩)⟩,
    ⟨.leaf (nm! "distance") true, (.set ⟨0, none, 0, 0⟩)⟩, ⟨.leaf (nm! "other-appearance") true, (.set ⟨0, none, 0, 0⟩)⟩]
  has := [[.size 0], [.size 1], [.size 2], [.size 3]]
  stmts := [⟨[], 0, .element⟩, ⟨[], 1, .element⟩, ⟨[], 2, .element⟩, ⟨[], 3, .element⟩]

/-- `Arrow`: `hasContents` private/mx/core/elements/Arrow.cpp 42-45, `streamContents` 48-72. Members: ArrowGroup, CircularArrow. Choices: arrowGroup, circularArrow. -/
def c_Arrow : ClassInfo where
  name := nm! "arrow"
  choices := 2
  members := [⟨.comp .ArrowGroup, .one⟩, ⟨.leaf (nm! "circular-arrow") true, .one⟩]
  has := [[]]
  stmts := [⟨[.choice 0], 0, .body⟩, ⟨[.choice 1], 1, .element⟩]

/-- `ArrowGroup`: `hasContents` private/mx/core/elements/ArrowGroup.cpp 40-43, `streamContents` 46-56. Members: ArrowDirection, ArrowStyle. -/
def c_ArrowGroup : ClassInfo where
  name := 0
  choices := 0
  members := [⟨.leaf (nm! "arrow-direction") true, .one⟩, ⟨.leaf (nm! "arrow-style") true, .opt⟩]
  has := [[]]
  stmts := [⟨[], 0, .element⟩, ⟨[.flag 1], 1, .element⟩]

/-- `Articulations`: `hasContents` private/mx/core/elements/Articulations.cpp 37-40, `streamContents` 43-60. Members: ArticulationsChoiceSet. -/
def c_Articulations : ClassInfo where
  name := nm! "articulations"
  choices := 0
  members := [⟨.comp .ArticulationsChoice, (.set ⟨0, none, 0, 0⟩)⟩]
  has := [[.size 0]]
  stmts := [⟨[.self], 0, .body⟩]

/-- `ArticulationsChoice`: `hasContents` private/mx/core/elements/ArticulationsChoice.cpp 69-72, `streamContents` 75-165. Members: Accent, StrongAccent, Staccato, Tenuto, DetachedLegato, Staccatissimo, Spiccato, Scoop, Plop, Doit, Falloff, BreathMark, Caesura, Stress, Unstress, OtherArticulation. Choices: accent, strongAccent, staccato, tenuto, detachedLegato, staccatissimo, spiccato, scoop, plop, doit, falloff, breathMark, caesura, stress, unstress, otherArticulation. -/
def c_ArticulationsChoice : ClassInfo where
  name := 0
  choices := 16
  members := [⟨.leaf (nm! "accent") false, .one⟩, ⟨.leaf (nm! "strong-accent") false, .one⟩, ⟨.leaf (nm! "staccato") false, .one⟩,
    ⟨.leaf (nm! "tenuto") false, .one⟩, ⟨.leaf (nm! "detached-legato") false, .one⟩, ⟨.leaf (nm! "staccatissimo") false, .one⟩,
    ⟨.leaf (nm! "spiccato") false, .one⟩, ⟨.leaf (nm! "scoop") false, .one⟩, ⟨.leaf (nm! "plop") false, .one⟩, ⟨.leaf (nm! "doit") false, .one⟩,
    ⟨.leaf (nm! "falloff") false, .one⟩, ⟨.leaf (nm! "breath-mark") true, .one⟩, ⟨.leaf (nm! "caesura") false, .one⟩, ⟨.leaf (nm! "stress") false, .one⟩,
    ⟨.leaf (nm! "unstress") false, .one⟩, ⟨.leaf (nm! "other-articulation") true, .one⟩]
  has := [[]]
  stmts := [⟨[.choice 0], 0, .element⟩, ⟨[.choice 1], 1, .element⟩, ⟨[.choice 2], 2, .element⟩, ⟨[.choice 3], 3, .element⟩, ⟨[.choice 4], 4, .element⟩,
    ⟨[.choice 5], 5, .element⟩, ⟨[.choice 6], 6, .element⟩, ⟨[.choice 7], 7, .element⟩, ⟨[.choice 8], 8, .element⟩, ⟨[.choice 9], 9, .element⟩,
    ⟨[.choice 10], 10, .element⟩, ⟨[.choice 11], 11, .element⟩, ⟨[.choice 12], 12, .element⟩, ⟨[.choice 13], 13, .element⟩, ⟨[.choice 14], 14, .element⟩,
    ⟨[.choice 15], 15, .element⟩]

/-- `Backup`: `hasContents` private/mx/core/elements/Backup.cpp 40-43, `streamContents` 46-58. Members: Duration, EditorialGroup. -/
def c_Backup : ClassInfo where
  name := nm! "backup"
  choices := 0
  members := [⟨.leaf (nm! "duration") true, .one⟩, ⟨.comp .EditorialGroup, .one⟩]
  has := [[]]
  stmts := [⟨[], 0, .element⟩, ⟨[], 1, .body⟩]

/-- `Barline`: `hasContents` private/mx/core/elements/Barline.cpp 59-69, `streamContents` 72-120. Members: BarStyle, EditorialGroup, WavyLine, Segno, Coda, FermataSet, Ending, Repeat. -/
def c_Barline : ClassInfo where
  name := nm! "barline"
  choices := 0
  members := [⟨.leaf (nm! "bar-style") true, .opt⟩, ⟨.comp .EditorialGroup, .one⟩, ⟨.leaf (nm! "wavy-line") false, .opt⟩, ⟨.leaf (nm! "segno") false, .opt⟩,
    ⟨.leaf (nm! "coda") false, .opt⟩, ⟨.leaf (nm! "fermata") true, (.set ⟨0, some 2, 0, 0⟩)⟩, ⟨.leaf (nm! "ending") true, .opt⟩,
    ⟨.leaf (nm! "repeat") false, .opt⟩]
  has := [[.flag 0], [.kid 1], [.flag 2], [.flag 3], [.flag 4], [.size 5], [.flag 6], [.flag 7]]
  stmts := [⟨[.flag 0], 0, .element⟩, ⟨[], 1, .bodyIf⟩, ⟨[.flag 2], 2, .element⟩, ⟨[.flag 3], 3, .element⟩, ⟨[.flag 4], 4, .element⟩, ⟨[], 5, .element⟩,
    ⟨[.flag 6], 6, .element⟩, ⟨[.flag 7], 7, .element⟩]

/-- `Bass`: `hasContents` private/mx/core/elements/Bass.cpp 41-44, `streamContents` 47-59. Members: BassStep, BassAlter. -/
def c_Bass : ClassInfo where
  name := nm! "bass"
  choices := 0
  members := [⟨.leaf (nm! "bass-step") true, .one⟩, ⟨.leaf (nm! "bass-alter") true, .opt⟩]
  has := [[]]
  stmts := [⟨[], 0, .element⟩, ⟨[.flag 1], 1, .element⟩]

/-- `BeatRepeat`: `hasContents` private/mx/core/elements/BeatRepeat.cpp 41-44, `streamContents` 47-62. Members: SlashType, SlashDotSet. -/
def c_BeatRepeat : ClassInfo where
  name := nm! "beat-repeat"
  choices := 0
  members := [⟨.leaf (nm! "slash-type") true, .one⟩, ⟨.leaf (nm! "slash-dot") false, (.set ⟨0, none, 0, 0⟩)⟩]
  has := [[]]
  stmts := [⟨[], 0, .element⟩, ⟨[], 1, .element⟩]

/-- `BeatUnitGroup`: `hasContents` private/mx/core/elements/BeatUnitGroup.cpp 39-42, `streamContents` 45-55. Members: BeatUnit, BeatUnitDotSet. -/
def c_BeatUnitGroup : ClassInfo where
  name := 0
  choices := 0
  members := [⟨.leaf (nm! "beat-unit") true, .one⟩, ⟨.leaf (nm! "beat-unit-dot") false, (.set ⟨0, none, 0, 0⟩)⟩]
  has := [[]]
  stmts := [⟨[], 0, .element⟩, ⟨[], 1, .element⟩]

/-- `BeatUnitPer`: `hasContents` private/mx/core/elements/BeatUnitPer.cpp 39-42, `streamContents` 45-52. Members: BeatUnitGroup, PerMinuteOrBeatUnitChoice. -/
def c_BeatUnitPer : ClassInfo where
  name := 0
  choices := 0
  members := [⟨.comp .BeatUnitGroup, .one⟩, ⟨.comp .PerMinuteOrBeatUnitChoice, .one⟩]
  has := [[]]
  stmts := [⟨[], 0, .body⟩, ⟨[], 1, .body⟩]

/-- `BeatUnitPerOrNoteRelationNoteChoice`: `hasContents` private/mx/core/elements/BeatUnitPerOrNoteRelationNoteChoice.cpp 40-43, `streamContents` 46-65. Members: BeatUnitPer, NoteRelationNote. Choices: beatUnitPer, noteRelationNote. -/
def c_BeatUnitPerOrNoteRelationNoteChoice : ClassInfo where
  name := 0
  choices := 2
  members := [⟨.comp .BeatUnitPer, .one⟩, ⟨.comp .NoteRelationNote, .one⟩]
  has := [[]]
  stmts := [⟨[.choice 0], 0, .body⟩, ⟨[.choice 1], 1, .body⟩]

/-- `Bend`: `hasContents` private/mx/core/elements/Bend.cpp 47-50, `streamContents` 53-73. Members: BendAlter, BendChoice, WithBar. -/
def c_Bend : ClassInfo where
  name := nm! "bend"
  choices := 0
  members := [⟨.leaf (nm! "bend-alter") true, .one⟩, ⟨.comp .BendChoice, .opt⟩, ⟨.leaf (nm! "with-bar") true, .opt⟩]
  has := [[]]
  stmts := [⟨[], 0, .element⟩, ⟨[.flag 1], 1, .body⟩, ⟨[.flag 2], 2, .element⟩]

/-- `BendChoice`: `hasContents` private/mx/core/elements/BendChoice.cpp 40-43, `streamContents` 46-65. Members: PreBend, Release. Choices: preBend, release. -/
def c_BendChoice : ClassInfo where
  name := 0
  choices := 2
  members := [⟨.leaf (nm! "pre-bend") false, .one⟩, ⟨.leaf (nm! "release") false, .one⟩]
  has := [[]]
  stmts := [⟨[.choice 0], 0, .element⟩, ⟨[.choice 1], 1, .element⟩]

/-- `Clef`: `hasContents` private/mx/core/elements/Clef.cpp 45-48, `streamContents` 51-68. Members: Sign, Line, ClefOctaveChange. -/
def c_Clef : ClassInfo where
  name := nm! "clef"
  choices := 0
  members := [⟨.leaf (nm! "sign") true, .one⟩, ⟨.leaf (nm! "line") true, .opt⟩, ⟨.leaf (nm! "clef-octave-change") true, .opt⟩]
  has := [[]]
  stmts := [⟨[], 0, .element⟩, ⟨[.flag 1], 1, .element⟩, ⟨[.flag 2], 2, .element⟩]

/-- `Credit`: `hasContents` private/mx/core/elements/Credit.cpp 48-51, `streamContents` 54-76. Members: CreditTypeSet, LinkSet, BookmarkSet, CreditChoice. -/
def c_Credit : ClassInfo where
  name := nm! "credit"
  choices := 0
  members := [⟨.leaf (nm! "credit-type") true, (.set ⟨0, none, 0, 0⟩)⟩, ⟨.leaf (nm! "link") false, (.set ⟨0, none, 0, 0⟩)⟩,
    ⟨.leaf (nm! "bookmark") false, (.set ⟨0, none, 0, 0⟩)⟩, ⟨.comp .CreditChoice, .one⟩]
  has := [[]]
  stmts := [⟨[], 0, .element⟩, ⟨[], 1, .element⟩, ⟨[], 2, .element⟩, ⟨[], 3, .body⟩]

/-- `CreditChoice`: `hasContents` private/mx/core/elements/CreditChoice.cpp 44-47, `streamContents` 50-78. Members: CreditImage, CreditWords, CreditWordsGroupSet. Choices: creditImage, creditWords. -/
def c_CreditChoice : ClassInfo where
  name := 0
  choices := 2
  members := [⟨.leaf (nm! "credit-image") false, .one⟩, ⟨.leaf (nm! "credit-words") true, .one⟩, ⟨.comp .CreditWordsGroup, (.set ⟨0, none, 0, 0⟩)⟩]
  has := [[]]
  stmts := [⟨[.choice 0], 0, .element⟩, ⟨[.choice 1], 1, .element⟩, ⟨[.choice 1], 2, .body⟩]

/-- `CreditWordsGroup`: `hasContents` private/mx/core/elements/CreditWordsGroup.cpp 41-44, `streamContents` 47-75. Members: LinkSet, BookmarkSet, CreditWords. -/
def c_CreditWordsGroup : ClassInfo where
  name := 0
  choices := 0
  members := [⟨.leaf (nm! "link") false, (.set ⟨0, none, 0, 0⟩)⟩, ⟨.leaf (nm! "bookmark") false, (.set ⟨0, none, 0, 0⟩)⟩, ⟨.leaf (nm! "credit-words") true, .one⟩]
  has := [[]]
  stmts := [⟨[], 0, .element⟩, ⟨[], 1, .element⟩, ⟨[], 2, .element⟩]

/-- `CueNoteGroup`: `hasContents` private/mx/core/elements/CueNoteGroup.cpp 41-44, `streamContents` 47-56. Members: Cue, FullNoteGroup, Duration. -/
def c_CueNoteGroup : ClassInfo where
  name := 0
  choices := 0
  members := [⟨.leaf (nm! "cue") false, .one⟩, ⟨.comp .FullNoteGroup, .one⟩, ⟨.leaf (nm! "duration") true, .one⟩]
  has := [[]]
  stmts := [⟨[], 0, .element⟩, ⟨[], 1, .body⟩, ⟨[], 2, .element⟩]

/-- `Defaults`: `hasContents` private/mx/core/elements/Defaults.cpp 54-63, `streamContents` 66-113. Members: Scaling, LayoutGroup, Appearance, MusicFont, WordFont, LyricFontSet, LyricLanguageSet. -/
def c_Defaults : ClassInfo where
  name := nm! "defaults"
  choices := 0
  members := [⟨.comp .Scaling, .opt⟩, ⟨.comp .LayoutGroup, .one⟩, ⟨.comp .Appearance, .opt⟩, ⟨.leaf (nm! "music-font") false, .opt⟩,
    ⟨.leaf (nm! "word-font") false, .opt⟩, ⟨.leaf (nm! "lyric-font") false, (.set ⟨0, none, 0, 0⟩)⟩,
    ⟨.leaf (nm! "lyric-language") false, (.set ⟨0, none, 0, 0⟩)⟩]
  has := [[.flag 0], [.kid 1], [.flag 2], [.flag 3], [.flag 4], [.size 5], [.size 6]]
  stmts := [⟨[.self, .flag 0], 0, .element⟩, ⟨[.self], 1, .bodyIf⟩, ⟨[.self, .flag 2], 2, .element⟩, ⟨[.self, .flag 3], 3, .element⟩,
    ⟨[.self, .flag 4], 4, .element⟩, ⟨[.self], 5, .element⟩, ⟨[.self], 6, .element⟩]

/-- `Degree`: `hasContents` private/mx/core/elements/Degree.cpp 43-46, `streamContents` 49-60. Members: DegreeValue, DegreeAlter, DegreeType. -/
def c_Degree : ClassInfo where
  name := nm! "degree"
  choices := 0
  members := [⟨.leaf (nm! "degree-value") true, .one⟩, ⟨.leaf (nm! "degree-alter") true, .one⟩, ⟨.leaf (nm! "degree-type") true, .one⟩]
  has := [[]]
  stmts := [⟨[], 0, .element⟩, ⟨[], 1, .element⟩, ⟨[], 2, .element⟩]

/-- `Direction`: `hasContents` private/mx/core/elements/Direction.cpp 125-128, `streamContents` 131-161. Members: DirectionTypeSet, Offset, EditorialVoiceDirectionGroup, Staff, Sound. -/
def c_Direction : ClassInfo where
  name := nm! "direction"
  choices := 0
  members := [⟨.comp .DirectionType, (.set ⟨1, none, 1, 1⟩)⟩, ⟨.leaf (nm! "offset") true, .opt⟩, ⟨.comp .EditorialVoiceDirectionGroup, .one⟩,
    ⟨.leaf (nm! "staff") true, .opt⟩, ⟨.comp .Sound, .opt⟩]
  has := [[]]
  stmts := [⟨[], 0, .element⟩, ⟨[.flag 1], 1, .element⟩, ⟨[], 2, .bodyIf⟩, ⟨[.flag 3], 3, .element⟩, ⟨[.flag 4], 4, .element⟩]

/-- `DirectionType`: `hasContents` private/mx/core/elements/DirectionType.cpp 88-91, `streamContents` 94-259. Members: RehearsalSet, SegnoSet, WordsSet, CodaSet, Wedge, DynamicsSet, Dashes, Bracket, Pedal, Metronome, OctaveShift, HarpPedals, Damp, DampAll, Eyeglasses, StringMute, Scordatura, Image, PrincipalVoice, AccordionRegistration, PercussionSet, OtherDirection. Choices: rehearsal, segno, words, coda, wedge, dynamics, dashes, bracket, pedal, metronome, octaveShift, harpPedals, damp, dampAll, eyeglasses, stringMute, scordatura, image, principalVoice, accordionRegistration, percussion, otherDirection. -/
def c_DirectionType : ClassInfo where
  name := nm! "direction-type"
  choices := 22
  members := [⟨.leaf (nm! "rehearsal") true, (.set ⟨1, none, 1, 1⟩)⟩, ⟨.leaf (nm! "segno") false, (.set ⟨1, none, 1, 1⟩)⟩,
    ⟨.leaf (nm! "words") true, (.set ⟨1, none, 1, 1⟩)⟩, ⟨.leaf (nm! "coda") false, (.set ⟨1, none, 1, 1⟩)⟩, ⟨.leaf (nm! "wedge") false, .one⟩,
    ⟨.comp .Dynamics, (.set ⟨1, none, 1, 1⟩)⟩, ⟨.leaf (nm! "dashes") false, .one⟩, ⟨.leaf (nm! "bracket") false, .one⟩, ⟨.leaf (nm! "pedal") false, .one⟩,
    ⟨.comp .Metronome, .one⟩, ⟨.leaf (nm! "octave-shift") false, .one⟩, ⟨.comp .HarpPedals, .one⟩, ⟨.leaf (nm! "damp") false, .one⟩,
    ⟨.leaf (nm! "damp-all") false, .one⟩, ⟨.leaf (nm! "eyeglasses") false, .one⟩, ⟨.leaf (nm! "string-mute") false, .one⟩, ⟨.comp .Scordatura, .one⟩,
    ⟨.leaf (nm! "image") false, .one⟩, ⟨.leaf (nm! "principal-voice") true, .one⟩, ⟨.comp .AccordionRegistration, .one⟩,
    ⟨.comp .Percussion, (.set ⟨1, none, 1, 1⟩)⟩, ⟨.leaf (nm! "other-direction") true, .one⟩]
  has := [[]]
  stmts := [⟨[.choice 0], 0, .element⟩, ⟨[.choice 1], 1, .element⟩, ⟨[.choice 2], 2, .element⟩, ⟨[.choice 3], 3, .element⟩, ⟨[.choice 4], 4, .element⟩,
    ⟨[.choice 5], 5, .element⟩, ⟨[.choice 6], 6, .element⟩, ⟨[.choice 7], 7, .element⟩, ⟨[.choice 8], 8, .element⟩, ⟨[.choice 9], 9, .element⟩,
    ⟨[.choice 10], 10, .element⟩, ⟨[.choice 11], 11, .element⟩, ⟨[.choice 12], 12, .element⟩, ⟨[.choice 13], 13, .element⟩, ⟨[.choice 14], 14, .element⟩,
    ⟨[.choice 15], 15, .element⟩, ⟨[.choice 16], 16, .element⟩, ⟨[.choice 17], 17, .element⟩, ⟨[.choice 18], 18, .element⟩, ⟨[.choice 19], 19, .element⟩,
    ⟨[.choice 20], 20, .element⟩, ⟨[.choice 21], 21, .element⟩]

/-- `DisplayStepOctaveGroup`: `hasContents` private/mx/core/elements/DisplayStepOctaveGroup.cpp 39-42, `streamContents` 45-52. Members: DisplayStep, DisplayOctave. -/
def c_DisplayStepOctaveGroup : ClassInfo where
  name := 0
  choices := 0
  members := [⟨.leaf (nm! "display-step") true, .one⟩, ⟨.leaf (nm! "display-octave") true, .one⟩]
  has := [[]]
  stmts := [⟨[], 0, .element⟩, ⟨[], 1, .element⟩]

/-- `DisplayTextOrAccidentalText`: `hasContents` private/mx/core/elements/DisplayTextOrAccidentalText.cpp 40-51, `streamContents` 54-76. Members: DisplayText, AccidentalText. Choices: displayText, accidentalText. -/
def c_DisplayTextOrAccidentalText : ClassInfo where
  name := 0
  choices := 2
  members := [⟨.leaf (nm! "display-text") true, .one⟩, ⟨.leaf (nm! "accidental-text") true, .one⟩]
  has := [[.choice 1, .kid 1], [.choice 0, .kid 0]]
  stmts := [⟨[.self, .choice 1], 1, .element⟩, ⟨[.self, .choice 0], 0, .element⟩]

/-- `Dynamics`: `hasContents` private/mx/core/elements/Dynamics.cpp 68-71, `streamContents` 29-53; the names of the values private/mx/core/Enums.cpp 894-924.
The one child is named after the value; it is modelled as a choice. Values: p, pp, ppp, pppp, ppppp, pppppp, f, ff, fff, ffff, fffff, ffffff, mp, mf, sf, sfp, sfpp, fp, rf, rfz, sfz, sffz, fz, otherDynamics. -/
def c_Dynamics : ClassInfo where
  name := nm! "dynamics"
  choices := 24
  members := [⟨.leaf (nm! "p") false, .one⟩, ⟨.leaf (nm! "pp") false, .one⟩, ⟨.leaf (nm! "ppp") false, .one⟩, ⟨.leaf (nm! "pppp") false, .one⟩,
    ⟨.leaf (nm! "ppppp") false, .one⟩, ⟨.leaf (nm! "pppppp") false, .one⟩, ⟨.leaf (nm! "f") false, .one⟩, ⟨.leaf (nm! "ff") false, .one⟩,
    ⟨.leaf (nm! "fff") false, .one⟩, ⟨.leaf (nm! "ffff") false, .one⟩, ⟨.leaf (nm! "fffff") false, .one⟩, ⟨.leaf (nm! "ffffff") false, .one⟩,
    ⟨.leaf (nm! "mp") false, .one⟩, ⟨.leaf (nm! "mf") false, .one⟩, ⟨.leaf (nm! "sf") false, .one⟩, ⟨.leaf (nm! "sfp") false, .one⟩,
    ⟨.leaf (nm! "sfpp") false, .one⟩, ⟨.leaf (nm! "fp") false, .one⟩, ⟨.leaf (nm! "rf") false, .one⟩, ⟨.leaf (nm! "rfz") false, .one⟩,
    ⟨.leaf (nm! "sfz") false, .one⟩, ⟨.leaf (nm! "sffz") false, .one⟩, ⟨.leaf (nm! "fz") false, .one⟩, ⟨.leaf (nm! "other-dynamics") true, .one⟩]
  has := [[]]
  stmts := [⟨[.choice 0], 0, .element⟩, ⟨[.choice 1], 1, .element⟩, ⟨[.choice 2], 2, .element⟩, ⟨[.choice 3], 3, .element⟩, ⟨[.choice 4], 4, .element⟩,
    ⟨[.choice 5], 5, .element⟩, ⟨[.choice 6], 6, .element⟩, ⟨[.choice 7], 7, .element⟩, ⟨[.choice 8], 8, .element⟩, ⟨[.choice 9], 9, .element⟩,
    ⟨[.choice 10], 10, .element⟩, ⟨[.choice 11], 11, .element⟩, ⟨[.choice 12], 12, .element⟩, ⟨[.choice 13], 13, .element⟩, ⟨[.choice 14], 14, .element⟩,
    ⟨[.choice 15], 15, .element⟩, ⟨[.choice 16], 16, .element⟩, ⟨[.choice 17], 17, .element⟩, ⟨[.choice 18], 18, .element⟩, ⟨[.choice 19], 19, .element⟩,
    ⟨[.choice 20], 20, .element⟩, ⟨[.choice 21], 21, .element⟩, ⟨[.choice 22], 22, .element⟩, ⟨[.choice 23], 23, .element⟩]

/-- `EditorialGroup`: `hasContents` private/mx/core/elements/EditorialGroup.cpp 41-44, `streamContents` 47-64. Members: Footnote, Level. -/
def c_EditorialGroup : ClassInfo where
  name := 0
  choices := 0
  members := [⟨.leaf (nm! "footnote") true, .opt⟩, ⟨.leaf (nm! "level") true, .opt⟩]
  has := [[.flag 0], [.flag 1]]
  stmts := [⟨[.flag 0], 0, .element⟩, ⟨[.flag 1], 1, .element⟩]

/-- `EditorialVoiceDirectionGroup`: `hasContents` private/mx/core/elements/EditorialVoiceDirectionGroup.cpp 44-47, `streamContents` 50-73. Members: Footnote, Level, Voice. -/
def c_EditorialVoiceDirectionGroup : ClassInfo where
  name := 0
  choices := 0
  members := [⟨.leaf (nm! "footnote") true, .opt⟩, ⟨.leaf (nm! "level") true, .opt⟩, ⟨.leaf (nm! "voice") true, .opt⟩]
  has := [[.flag 0], [.flag 1], [.flag 2]]
  stmts := [⟨[.flag 0], 0, .element⟩, ⟨[.flag 1], 1, .element⟩, ⟨[.flag 2], 2, .element⟩]

/-- `EditorialVoiceGroup`: `hasContents` private/mx/core/elements/EditorialVoiceGroup.cpp 44-47, `streamContents` 50-73. Members: Footnote, Level, Voice. -/
def c_EditorialVoiceGroup : ClassInfo where
  name := 0
  choices := 0
  members := [⟨.leaf (nm! "footnote") true, .opt⟩, ⟨.leaf (nm! "level") true, .opt⟩, ⟨.leaf (nm! "voice") true, .opt⟩]
  has := [[.flag 0], [.flag 1], [.flag 2]]
  stmts := [⟨[.flag 0], 0, .element⟩, ⟨[.flag 1], 1, .element⟩, ⟨[.flag 2], 2, .element⟩]

/-- `ElisionSyllabicGroup`: `hasContents` private/mx/core/elements/ElisionSyllabicGroup.cpp 40-43, `streamContents` 46-57. Members: Elision, Syllabic. -/
def c_ElisionSyllabicGroup : ClassInfo where
  name := 0
  choices := 0
  members := [⟨.leaf (nm! "elision") true, .one⟩, ⟨.leaf (nm! "syllabic") true, .opt⟩]
  has := [[]]
  stmts := [⟨[], 0, .element⟩, ⟨[.flag 1], 1, .element⟩]

/-- `ElisionSyllabicTextGroup`: `hasContents` private/mx/core/elements/ElisionSyllabicTextGroup.cpp 40-43, `streamContents` 46-57. Members: ElisionSyllabicGroup, Text. -/
def c_ElisionSyllabicTextGroup : ClassInfo where
  name := 0
  choices := 0
  members := [⟨.comp .ElisionSyllabicGroup, .opt⟩, ⟨.leaf (nm! "text") true, .one⟩]
  has := [[]]
  stmts := [⟨[.flag 0], 0, .body⟩, ⟨[], 1, .element⟩]

/-- `Encoding`: `hasContents` private/mx/core/elements/Encoding.cpp 38-41, `streamContents` 44-62. Members: EncodingChoiceSet. -/
def c_Encoding : ClassInfo where
  name := nm! "encoding"
  choices := 0
  members := [⟨.comp .EncodingChoice, (.set ⟨0, none, 0, 0⟩)⟩]
  has := [[.size 0]]
  stmts := [⟨[], 0, .body⟩]

/-- `EncodingChoice`: `hasContents` private/mx/core/elements/EncodingChoice.cpp 47-50, `streamContents` 53-88. Members: EncodingDate, Encoder, Software, EncodingDescription, Supports. Choices: encodingDate, encoder, software, encodingDescription, supports. -/
def c_EncodingChoice : ClassInfo where
  name := 0
  choices := 5
  members := [⟨.leaf (nm! "encoding-date") true, .one⟩, ⟨.leaf (nm! "encoder") true, .one⟩, ⟨.leaf (nm! "software") true, .one⟩,
    ⟨.leaf (nm! "encoding-description") true, .one⟩, ⟨.leaf (nm! "supports") false, .one⟩]
  has := [[]]
  stmts := [⟨[.choice 0], 0, .element⟩, ⟨[.choice 1], 1, .element⟩, ⟨[.choice 2], 2, .element⟩, ⟨[.choice 3], 3, .element⟩, ⟨[.choice 4], 4, .element⟩]

/-- `Figure`: `hasContents` private/mx/core/elements/Figure.cpp 48-51, `streamContents` 54-86. Members: Prefix, FigureNumber, Suffix, Extend. -/
def c_Figure : ClassInfo where
  name := nm! "figure"
  choices := 0
  members := [⟨.leaf (nm! "prefix") true, .opt⟩, ⟨.leaf (nm! "figure-number") true, .opt⟩, ⟨.leaf (nm! "suffix") true, .opt⟩, ⟨.leaf (nm! "extend") false, .opt⟩]
  has := [[.flag 0], [.flag 1], [.flag 2], [.flag 3]]
  stmts := [⟨[.flag 0], 0, .element⟩, ⟨[.flag 1], 1, .element⟩, ⟨[.flag 2], 2, .element⟩, ⟨[.flag 3], 3, .element⟩]

/-- `FiguredBass`: `hasContents` private/mx/core/elements/FiguredBass.cpp 46-49, `streamContents` 52-72. Members: FigureSet, Duration, EditorialGroup. -/
def c_FiguredBass : ClassInfo where
  name := nm! "figured-bass"
  choices := 0
  members := [⟨.comp .Figure, (.set ⟨1, none, 1, 1⟩)⟩, ⟨.leaf (nm! "duration") true, .opt⟩, ⟨.comp .EditorialGroup, .one⟩]
  has := [[]]
  stmts := [⟨[], 0, .element⟩, ⟨[.flag 1], 1, .element⟩, ⟨[], 2, .bodyIf⟩]

/-- `Forward`: `hasContents` private/mx/core/elements/Forward.cpp 43-46, `streamContents` 49-66. Members: Duration, EditorialVoiceGroup, Staff. -/
def c_Forward : ClassInfo where
  name := nm! "forward"
  choices := 0
  members := [⟨.leaf (nm! "duration") true, .one⟩, ⟨.comp .EditorialVoiceGroup, .one⟩, ⟨.leaf (nm! "staff") true, .opt⟩]
  has := [[]]
  stmts := [⟨[], 0, .element⟩, ⟨[], 1, .bodyIf⟩, ⟨[.flag 2], 2, .element⟩]

/-- `Frame`: `hasContents` private/mx/core/elements/Frame.cpp 48-51, `streamContents` 54-73. Members: FrameStrings, FrameFrets, FirstFret, FrameNoteSet. -/
def c_Frame : ClassInfo where
  name := nm! "frame"
  choices := 0
  members := [⟨.leaf (nm! "frame-strings") true, .one⟩, ⟨.leaf (nm! "frame-frets") true, .one⟩, ⟨.leaf (nm! "first-fret") true, .opt⟩,
    ⟨.comp .FrameNote, (.set ⟨1, none, 1, 1⟩)⟩]
  has := [[]]
  stmts := [⟨[], 0, .element⟩, ⟨[], 1, .element⟩, ⟨[.flag 2], 2, .element⟩, ⟨[], 3, .element⟩]

/-- `FrameNote`: `hasContents` private/mx/core/elements/FrameNote.cpp 46-49, `streamContents` 52-71. Members: String, Fret, Fingering, Barre. -/
def c_FrameNote : ClassInfo where
  name := nm! "frame-note"
  choices := 0
  members := [⟨.leaf (nm! "string") true, .one⟩, ⟨.leaf (nm! "fret") true, .one⟩, ⟨.leaf (nm! "fingering") true, .opt⟩, ⟨.leaf (nm! "barre") false, .opt⟩]
  has := [[]]
  stmts := [⟨[], 0, .element⟩, ⟨[], 1, .element⟩, ⟨[.flag 2], 2, .element⟩, ⟨[.flag 3], 3, .element⟩]

/-- `FullNoteGroup`: `hasContents` private/mx/core/elements/FullNoteGroup.cpp 40-43, `streamContents` 46-56. Members: Chord, FullNoteTypeChoice. -/
def c_FullNoteGroup : ClassInfo where
  name := 0
  choices := 0
  members := [⟨.leaf (nm! "chord") false, .opt⟩, ⟨.comp .FullNoteTypeChoice, .one⟩]
  has := [[]]
  stmts := [⟨[.flag 0], 0, .element⟩, ⟨[], 1, .body⟩]

/-- `FullNoteTypeChoice`: `hasContents` private/mx/core/elements/FullNoteTypeChoice.cpp 42-45, `streamContents` 48-69. Members: Pitch, Unpitched, Rest. Choices: pitch, unpitched, rest. -/
def c_FullNoteTypeChoice : ClassInfo where
  name := 0
  choices := 3
  members := [⟨.comp .Pitch, .one⟩, ⟨.comp .Unpitched, .one⟩, ⟨.comp .Rest, .one⟩]
  has := [[]]
  stmts := [⟨[.choice 0], 0, .element⟩, ⟨[.choice 1], 1, .element⟩, ⟨[.choice 2], 2, .element⟩]

/-- `GraceNoteGroup`: `hasContents` private/mx/core/elements/GraceNoteGroup.cpp 41-44, `streamContents` 47-59. Members: Grace, FullNoteGroup, TieSet. -/
def c_GraceNoteGroup : ClassInfo where
  name := 0
  choices := 0
  members := [⟨.leaf (nm! "grace") false, .one⟩, ⟨.comp .FullNoteGroup, .one⟩, ⟨.leaf (nm! "tie") false, (.set ⟨0, some 2, 0, 0⟩)⟩]
  has := [[]]
  stmts := [⟨[], 0, .element⟩, ⟨[], 1, .body⟩, ⟨[], 2, .element⟩]

/-- `GroupAbbreviationDisplay`: `hasContents` private/mx/core/elements/GroupAbbreviationDisplay.cpp 39-42, `streamContents` 45-59. Members: DisplayTextOrAccidentalTextSet. Choices: displayText, accidentalText. -/
def c_GroupAbbreviationDisplay : ClassInfo where
  name := nm! "group-abbreviation-display"
  choices := 2
  members := [⟨.comp .DisplayTextOrAccidentalText, (.set ⟨0, none, 0, 0⟩)⟩]
  has := [[.size 0]]
  stmts := [⟨[.self], 0, .body⟩]

/-- `GroupNameDisplay`: `hasContents` private/mx/core/elements/GroupNameDisplay.cpp 39-42, `streamContents` 45-59. Members: DisplayTextOrAccidentalTextSet. -/
def c_GroupNameDisplay : ClassInfo where
  name := nm! "group-name-display"
  choices := 0
  members := [⟨.comp .DisplayTextOrAccidentalText, (.set ⟨0, none, 0, 0⟩)⟩]
  has := [[.size 0]]
  stmts := [⟨[.self], 0, .body⟩]

/-- `Grouping`: `hasContents` private/mx/core/elements/Grouping.cpp 39-42, `streamContents` 45-62. Members: FeatureSet. -/
def c_Grouping : ClassInfo where
  name := nm! "grouping"
  choices := 0
  members := [⟨.leaf (nm! "feature") true, (.set ⟨0, none, 0, 0⟩)⟩]
  has := [[.size 0]]
  stmts := [⟨[.self], 0, .element⟩]

/-- `Harmonic`: `hasContents` private/mx/core/elements/Harmonic.cpp 48-51, `streamContents` 54-76. Members: HarmonicTypeChoice, HarmonicInfoChoice. -/
def c_Harmonic : ClassInfo where
  name := nm! "harmonic"
  choices := 0
  members := [⟨.comp .HarmonicTypeChoice, .opt⟩, ⟨.comp .HarmonicInfoChoice, .opt⟩]
  has := [[.flag 0], [.flag 1]]
  stmts := [⟨[.self, .flag 0], 0, .body⟩, ⟨[.self, .flag 1], 1, .body⟩]

/-- `HarmonicInfoChoice`: `hasContents` private/mx/core/elements/HarmonicInfoChoice.cpp 42-45, `streamContents` 48-66. Members: BasePitch, TouchingPitch, SoundingPitch. Choices: basePitch, touchingPitch, soundingPitch. -/
def c_HarmonicInfoChoice : ClassInfo where
  name := 0
  choices := 3
  members := [⟨.leaf (nm! "base-pitch") false, .one⟩, ⟨.leaf (nm! "touching-pitch") false, .one⟩, ⟨.leaf (nm! "sounding-pitch") false, .one⟩]
  has := [[]]
  stmts := [⟨[.choice 0], 0, .element⟩, ⟨[.choice 1], 1, .element⟩, ⟨[.choice 2], 2, .element⟩]

/-- `HarmonicTypeChoice`: `hasContents` private/mx/core/elements/HarmonicTypeChoice.cpp 40-43, `streamContents` 46-61. Members: Natural, Artificial. Choices: natural, artificial. -/
def c_HarmonicTypeChoice : ClassInfo where
  name := 0
  choices := 2
  members := [⟨.leaf (nm! "natural") false, .one⟩, ⟨.leaf (nm! "artificial") false, .one⟩]
  has := [[]]
  stmts := [⟨[.choice 0], 0, .element⟩, ⟨[.choice 1], 1, .element⟩]

/-- `Harmony`: `hasContents` private/mx/core/elements/Harmony.cpp 58-61, `streamContents` 64-94. Members: HarmonyChordGroupSet, Frame, Offset, EditorialGroup, Staff. -/
def c_Harmony : ClassInfo where
  name := nm! "harmony"
  choices := 0
  members := [⟨.comp .HarmonyChordGroup, (.set ⟨1, none, 1, 1⟩)⟩, ⟨.comp .Frame, .opt⟩, ⟨.leaf (nm! "offset") true, .opt⟩, ⟨.comp .EditorialGroup, .one⟩,
    ⟨.leaf (nm! "staff") true, .opt⟩]
  has := [[]]
  stmts := [⟨[], 0, .body⟩, ⟨[.flag 1], 1, .element⟩, ⟨[.flag 2], 2, .element⟩, ⟨[], 3, .bodyIf⟩, ⟨[.flag 4], 4, .element⟩]

/-- `HarmonyChordGroup`: `hasContents` private/mx/core/elements/HarmonyChordGroup.cpp 50-53, `streamContents` 56-88. Members: Root, Function, Kind, Inversion, Bass, DegreeSet. Choices: root, function. -/
def c_HarmonyChordGroup : ClassInfo where
  name := 0
  choices := 2
  members := [⟨.comp .Root, .one⟩, ⟨.leaf (nm! "function") true, .one⟩, ⟨.leaf (nm! "kind") true, .one⟩, ⟨.leaf (nm! "inversion") true, .opt⟩, ⟨.comp .Bass, .opt⟩,
    ⟨.comp .Degree, (.set ⟨0, none, 0, 0⟩)⟩]
  has := [[]]
  stmts := [⟨[.choice 0], 0, .element⟩, ⟨[.choice 1], 1, .element⟩, ⟨[], 2, .element⟩, ⟨[.flag 3], 3, .element⟩, ⟨[.flag 4], 4, .element⟩, ⟨[], 5, .element⟩]

/-- `HarpPedals`: `hasContents` private/mx/core/elements/HarpPedals.cpp 41-44, `streamContents` 47-57. Members: PedalTuningSet. -/
def c_HarpPedals : ClassInfo where
  name := nm! "harp-pedals"
  choices := 0
  members := [⟨.comp .PedalTuning, (.set ⟨1, none, 1, 1⟩)⟩]
  has := [[]]
  stmts := [⟨[], 0, .element⟩]

/-- `Hole`: `hasContents` private/mx/core/elements/Hole.cpp 45-48, `streamContents` 51-68. Members: HoleType, HoleClosed, HoleShape. -/
def c_Hole : ClassInfo where
  name := nm! "hole"
  choices := 0
  members := [⟨.leaf (nm! "hole-type") true, .opt⟩, ⟨.leaf (nm! "hole-closed") true, .one⟩, ⟨.leaf (nm! "hole-shape") true, .opt⟩]
  has := [[]]
  stmts := [⟨[.flag 0], 0, .element⟩, ⟨[], 1, .element⟩, ⟨[.flag 2], 2, .element⟩]

/-- `Identification`: `hasContents` private/mx/core/elements/Identification.cpp 51-59, `streamContents` 62-104. Members: CreatorSet, RightsSet, Encoding, Source, RelationSet, Miscellaneous. -/
def c_Identification : ClassInfo where
  name := nm! "identification"
  choices := 0
  members := [⟨.leaf (nm! "creator") true, (.set ⟨0, none, 0, 0⟩)⟩, ⟨.leaf (nm! "rights") true, (.set ⟨0, none, 0, 0⟩)⟩, ⟨.comp .Encoding, .opt⟩,
    ⟨.leaf (nm! "source") true, .opt⟩, ⟨.leaf (nm! "relation") true, (.set ⟨0, none, 0, 0⟩)⟩, ⟨.comp .Miscellaneous, .opt⟩]
  has := [[.size 0], [.size 1], [.flag 2], [.flag 3], [.size 4], [.flag 5]]
  stmts := [⟨[.self], 0, .element⟩, ⟨[.self], 1, .element⟩, ⟨[.self, .flag 2], 2, .element⟩, ⟨[.self, .flag 3], 3, .element⟩, ⟨[.self], 4, .element⟩,
    ⟨[.self, .flag 5], 5, .element⟩]

/-- `Interchangeable`: `hasContents` private/mx/core/elements/Interchangeable.cpp 44-47, `streamContents` 50-64. Members: TimeRelation, Beats, BeatType. -/
def c_Interchangeable : ClassInfo where
  name := nm! "interchangeable"
  choices := 0
  members := [⟨.leaf (nm! "time-relation") true, .opt⟩, ⟨.leaf (nm! "beats") true, .one⟩, ⟨.leaf (nm! "beat-type") true, .one⟩]
  has := [[]]
  stmts := [⟨[.flag 0], 0, .element⟩, ⟨[], 1, .element⟩, ⟨[], 2, .element⟩]

/-- `Key`: `hasContents` private/mx/core/elements/Key.cpp 49-52, `streamContents` 55-86. Members: KeyChoice, KeyOctaveSet. -/
def c_Key : ClassInfo where
  name := nm! "key"
  choices := 0
  members := [⟨.comp .KeyChoice, .one⟩, ⟨.leaf (nm! "key-octave") true, (.set ⟨0, none, 0, 0⟩)⟩]
  has := [[.kid 0], [.size 1]]
  stmts := [⟨[], 0, .bodyIf⟩, ⟨[], 1, .element⟩]

/-- `KeyChoice`: `hasContents` private/mx/core/elements/KeyChoice.cpp 40-43, `streamContents` 46-73. Members: TraditionalKey, NonTraditionalKeySet. Choices: traditionalKey, nonTraditionalKey. -/
def c_KeyChoice : ClassInfo where
  name := 0
  choices := 2
  members := [⟨.comp .TraditionalKey, .one⟩, ⟨.comp .NonTraditionalKey, (.set ⟨0, none, 0, 0⟩)⟩]
  has := [[]]
  stmts := [⟨[.choice 0], 0, .body⟩, ⟨[.choice 1], 1, .body⟩]

/-- `LayoutGroup`: `hasContents` private/mx/core/elements/LayoutGroup.cpp 44-47, `streamContents` 50-96. Members: PageLayout, SystemLayout, StaffLayoutSet. -/
def c_LayoutGroup : ClassInfo where
  name := 0
  choices := 0
  members := [⟨.comp .PageLayout, .opt⟩, ⟨.comp .SystemLayout, .opt⟩, ⟨.comp .StaffLayout, (.set ⟨0, none, 0, 0⟩)⟩]
  has := [[.flag 0], [.flag 1], [.size 2]]
  stmts := [⟨[.self, .flag 0], 0, .element⟩, ⟨[.self, .flag 1], 1, .element⟩, ⟨[.self], 2, .element⟩]

/-- `Lyric`: `hasContents` private/mx/core/elements/Lyric.cpp 54-57, `streamContents` 75-97. Members: LyricTextChoice, EndLine, EndParagraph, EditorialGroup. -/
def c_Lyric : ClassInfo where
  name := nm! "lyric"
  choices := 0
  members := [⟨.comp .LyricTextChoice, .one⟩, ⟨.leaf (nm! "end-line") false, .opt⟩, ⟨.leaf (nm! "end-paragraph") false, .opt⟩, ⟨.comp .EditorialGroup, .one⟩]
  has := [[]]
  stmts := [⟨[], 0, .body⟩, ⟨[.flag 1], 1, .element⟩, ⟨[.flag 2], 2, .element⟩, ⟨[], 3, .body⟩]

/-- `LyricTextChoice`: `hasContents` private/mx/core/elements/LyricTextChoice.cpp 44-47, `streamContents` 50-78. Members: SyllabicTextGroup, Extend, Laughing, Humming. Choices: syllabicTextGroup, extend, laughing, humming. -/
def c_LyricTextChoice : ClassInfo where
  name := 0
  choices := 4
  members := [⟨.comp .SyllabicTextGroup, .one⟩, ⟨.leaf (nm! "extend") false, .one⟩, ⟨.leaf (nm! "laughing") false, .one⟩, ⟨.leaf (nm! "humming") false, .one⟩]
  has := [[.choice 0]]
  stmts := [⟨[.choice 0], 0, .body⟩, ⟨[.choice 1], 1, .element⟩, ⟨[.choice 2], 2, .element⟩, ⟨[.choice 3], 3, .element⟩]

/-- `MeasureLayout`: `hasContents` private/mx/core/elements/MeasureLayout.cpp 39-42, `streamContents` 45-59. Members: MeasureDistance. -/
def c_MeasureLayout : ClassInfo where
  name := nm! "measure-layout"
  choices := 0
  members := [⟨.leaf (nm! "measure-distance") true, .opt⟩]
  has := [[]]
  stmts := [⟨[.flag 0], 0, .element⟩]

/-- `MeasureStyle`: `hasContents` private/mx/core/elements/MeasureStyle.cpp 39-42, `streamContents` 45-52. Members: Choice. -/
def c_MeasureStyle : ClassInfo where
  name := nm! "measure-style"
  choices := 0
  members := [⟨.comp .MeasureStyleChoice, .one⟩]
  has := [[]]
  stmts := [⟨[], 0, .body⟩]

/-- `MeasureStyleChoice`: `hasContents` private/mx/core/elements/MeasureStyleChoice.cpp 46-49, `streamContents` 52-73. Members: MultipleRest, MeasureRepeat, BeatRepeat, Slash. Choices: multipleRest, measureRepeat, beatRepeat, slash. -/
def c_MeasureStyleChoice : ClassInfo where
  name := 0
  choices := 4
  members := [⟨.leaf (nm! "multiple-rest") true, .one⟩, ⟨.leaf (nm! "measure-repeat") true, .one⟩, ⟨.comp .BeatRepeat, .one⟩, ⟨.comp .Slash, .one⟩]
  has := [[]]
  stmts := [⟨[.choice 0], 0, .element⟩, ⟨[.choice 1], 1, .element⟩, ⟨[.choice 2], 2, .element⟩, ⟨[.choice 3], 3, .element⟩]

/-- `Metronome`: `hasContents` private/mx/core/elements/Metronome.cpp 48-51, `streamContents` 54-61. Members: BeatUnitPerOrNoteRelationNoteChoice. -/
def c_Metronome : ClassInfo where
  name := nm! "metronome"
  choices := 0
  members := [⟨.comp .BeatUnitPerOrNoteRelationNoteChoice, .one⟩]
  has := [[]]
  stmts := [⟨[], 0, .body⟩]

/-- `MetronomeNote`: `hasContents` private/mx/core/elements/MetronomeNote.cpp 45-48, `streamContents` 51-73. Members: MetronomeType, MetronomeDotSet, MetronomeBeamSet, MetronomeTuplet. -/
def c_MetronomeNote : ClassInfo where
  name := nm! "metronome-note"
  choices := 0
  members := [⟨.leaf (nm! "metronome-type") true, .one⟩, ⟨.leaf (nm! "metronome-dot") false, (.set ⟨0, none, 0, 0⟩)⟩,
    ⟨.leaf (nm! "metronome-beam") true, (.set ⟨0, none, 0, 0⟩)⟩, ⟨.comp .MetronomeTuplet, .opt⟩]
  has := [[]]
  stmts := [⟨[], 0, .element⟩, ⟨[], 1, .element⟩, ⟨[], 2, .element⟩, ⟨[.flag 3], 3, .element⟩]

/-- `MetronomeRelationGroup`: `hasContents` private/mx/core/elements/MetronomeRelationGroup.cpp 39-42, `streamContents` 45-52. Members: MetronomeRelation, MetronomeNote. -/
def c_MetronomeRelationGroup : ClassInfo where
  name := 0
  choices := 0
  members := [⟨.leaf (nm! "metronome-relation") true, .one⟩, ⟨.comp .MetronomeNote, .one⟩]
  has := [[]]
  stmts := [⟨[], 0, .element⟩, ⟨[], 1, .element⟩]

/-- `MetronomeTuplet`: `hasContents` private/mx/core/elements/MetronomeTuplet.cpp 44-47, `streamContents` 50-64. Members: ActualNotes, NormalNotes, TimeModificationNormalTypeNormalDot. -/
def c_MetronomeTuplet : ClassInfo where
  name := nm! "metronome-tuplet"
  choices := 0
  members := [⟨.leaf (nm! "actual-notes") true, .one⟩, ⟨.leaf (nm! "normal-notes") true, .one⟩, ⟨.comp .TimeModificationNormalTypeNormalDot, .opt⟩]
  has := [[]]
  stmts := [⟨[], 0, .element⟩, ⟨[], 1, .element⟩, ⟨[.flag 2], 2, .body⟩]

/-- `MidiDeviceInstrumentGroup`: `hasContents` private/mx/core/elements/MidiDeviceInstrumentGroup.cpp 41-44, `streamContents` 47-70. Members: MidiDevice, MidiInstrument. -/
def c_MidiDeviceInstrumentGroup : ClassInfo where
  name := 0
  choices := 0
  members := [⟨.leaf (nm! "midi-device") true, .opt⟩, ⟨.comp .MidiInstrument, .opt⟩]
  has := [[.flag 0], [.flag 1]]
  stmts := [⟨[.self, .flag 0], 0, .element⟩, ⟨[.self, .flag 1], 1, .element⟩]

/-- `MidiInstrument`: `hasContents` private/mx/core/elements/MidiInstrument.cpp 61-71, `streamContents` 74-126. Members: MidiChannel, MidiName, MidiBank, MidiProgram, MidiUnpitched, Volume, Pan, Elevation. -/
def c_MidiInstrument : ClassInfo where
  name := nm! "midi-instrument"
  choices := 0
  members := [⟨.leaf (nm! "midi-channel") true, .opt⟩, ⟨.leaf (nm! "midi-name") true, .opt⟩, ⟨.leaf (nm! "midi-bank") true, .opt⟩,
    ⟨.leaf (nm! "midi-program") true, .opt⟩, ⟨.leaf (nm! "midi-unpitched") true, .opt⟩, ⟨.leaf (nm! "volume") true, .opt⟩, ⟨.leaf (nm! "pan") true, .opt⟩,
    ⟨.leaf (nm! "elevation") true, .opt⟩]
  has := [[.flag 0], [.flag 1], [.flag 2], [.flag 3], [.flag 4], [.flag 5], [.flag 6], [.flag 7]]
  stmts := [⟨[.flag 0], 0, .element⟩, ⟨[.flag 1], 1, .element⟩, ⟨[.flag 2], 2, .element⟩, ⟨[.flag 3], 3, .element⟩, ⟨[.flag 4], 4, .element⟩,
    ⟨[.flag 5], 5, .element⟩, ⟨[.flag 6], 6, .element⟩, ⟨[.flag 7], 7, .element⟩]

/-- `Miscellaneous`: `hasContents` private/mx/core/elements/Miscellaneous.cpp 38-41, `streamContents` 44-61. Members: MiscellaneousFieldSet. -/
def c_Miscellaneous : ClassInfo where
  name := nm! "miscellaneous"
  choices := 0
  members := [⟨.leaf (nm! "miscellaneous-field") true, (.set ⟨0, none, 0, 0⟩)⟩]
  has := [[.size 0]]
  stmts := [⟨[], 0, .element⟩]

/-- `MusicDataChoice`: `hasContents` private/mx/core/elements/MusicDataChoice.cpp 63-66, `streamContents` 69-117. Members: Note, Backup, Forward, Direction, Properties, Harmony, FiguredBass, Print, Sound, Barline, Grouping, Link, Bookmark. Choices: note, backup, forward, direction, properties, harmony, figuredBass, print, sound, barline, grouping, link, bookmark. -/
def c_MusicDataChoice : ClassInfo where
  name := 0
  choices := 13
  members := [⟨.comp .Note, .one⟩, ⟨.comp .Backup, .one⟩, ⟨.comp .Forward, .one⟩, ⟨.comp .Direction, .one⟩, ⟨.comp .Properties, .one⟩, ⟨.comp .Harmony, .one⟩,
    ⟨.comp .FiguredBass, .one⟩, ⟨.comp .Print, .one⟩, ⟨.comp .Sound, .one⟩, ⟨.comp .Barline, .one⟩, ⟨.comp .Grouping, .one⟩,
    ⟨.leaf (nm! "link") false, .one⟩, ⟨.leaf (nm! "bookmark") false, .one⟩]
  has := [[]]
  stmts := [⟨[.choice 0], 0, .element⟩, ⟨[.choice 1], 1, .element⟩, ⟨[.choice 2], 2, .element⟩, ⟨[.choice 3], 3, .element⟩, ⟨[.choice 4], 4, .element⟩,
    ⟨[.choice 5], 5, .element⟩, ⟨[.choice 6], 6, .element⟩, ⟨[.choice 7], 7, .element⟩, ⟨[.choice 8], 8, .element⟩, ⟨[.choice 9], 9, .element⟩,
    ⟨[.choice 10], 10, .element⟩, ⟨[.choice 11], 11, .element⟩, ⟨[.choice 12], 12, .element⟩]

/-- `MusicDataGroup`: `hasContents` private/mx/core/elements/MusicDataGroup.cpp 37-40, `streamContents` 43-56. Members: MusicDataChoiceSet. -/
def c_MusicDataGroup : ClassInfo where
  name := 0
  choices := 0
  members := [⟨.comp .MusicDataChoice, (.set ⟨0, none, 0, 0⟩)⟩]
  has := [[.size 0]]
  stmts := [⟨[], 0, .body⟩]

/-- `NonTraditionalKey`: `hasContents` private/mx/core/elements/NonTraditionalKey.cpp 43-46, `streamContents` 49-66. Members: KeyStep, KeyAlter, KeyAccidental. -/
def c_NonTraditionalKey : ClassInfo where
  name := 0
  choices := 0
  members := [⟨.leaf (nm! "key-step") true, .one⟩, ⟨.leaf (nm! "key-alter") true, .one⟩, ⟨.leaf (nm! "key-accidental") true, .opt⟩]
  has := [[]]
  stmts := [⟨[], 0, .element⟩, ⟨[], 1, .element⟩, ⟨[.flag 2], 2, .element⟩]

/-- `NormalNoteGroup`: `hasContents` private/mx/core/elements/NormalNoteGroup.cpp 41-44, `streamContents` 47-58. Members: FullNoteGroup, Duration, TieSet. -/
def c_NormalNoteGroup : ClassInfo where
  name := 0
  choices := 0
  members := [⟨.comp .FullNoteGroup, .one⟩, ⟨.leaf (nm! "duration") true, .one⟩, ⟨.leaf (nm! "tie") false, (.set ⟨0, some 2, 0, 0⟩)⟩]
  has := [[]]
  stmts := [⟨[], 0, .body⟩, ⟨[], 1, .element⟩, ⟨[], 2, .element⟩]

/-- `NormalTypeNormalDotGroup`: `hasContents` private/mx/core/elements/NormalTypeNormalDotGroup.cpp 39-42, `streamContents` 45-55. Members: NormalType, NormalDotSet. -/
def c_NormalTypeNormalDotGroup : ClassInfo where
  name := 0
  choices := 0
  members := [⟨.leaf (nm! "normal-type") true, .one⟩, ⟨.leaf (nm! "normal-dot") false, (.set ⟨0, none, 0, 0⟩)⟩]
  has := [[]]
  stmts := [⟨[], 0, .element⟩, ⟨[], 1, .element⟩]

/-- `Notations`: `hasContents` private/mx/core/elements/Notations.cpp 57-60, `streamContents` 63-85. Members: EditorialGroup, NotationsChoiceSet. -/
def c_Notations : ClassInfo where
  name := nm! "notations"
  choices := 0
  members := [⟨.comp .EditorialGroup, .one⟩, ⟨.comp .NotationsChoice, (.set ⟨0, none, 0, 0⟩)⟩]
  has := [[.kid 0], [.size 1]]
  stmts := [⟨[.self], 0, .bodyIf⟩, ⟨[.self], 1, .body⟩]

/-- `NotationsChoice`: `hasContents` private/mx/core/elements/NotationsChoice.cpp 64-67, `streamContents` 70-121. Members: Tied, Slur, Tuplet, Glissando, Slide, Ornaments, Technical, Articulations, Dynamics, Fermata, Arpeggiate, NonArpeggiate, AccidentalMark, OtherNotation. Choices: tied, slur, tuplet, glissando, slide, ornaments, technical, articulations, dynamics, fermata, arpeggiate, nonArpeggiate, accidentalMark, otherNotation. -/
def c_NotationsChoice : ClassInfo where
  name := 0
  choices := 14
  members := [⟨.leaf (nm! "tied") false, .one⟩, ⟨.leaf (nm! "slur") false, .one⟩, ⟨.comp .Tuplet, .one⟩, ⟨.leaf (nm! "glissando") true, .one⟩,
    ⟨.leaf (nm! "slide") true, .one⟩, ⟨.comp .Ornaments, .one⟩, ⟨.comp .Technical, .one⟩, ⟨.comp .Articulations, .one⟩, ⟨.comp .Dynamics, .one⟩,
    ⟨.leaf (nm! "fermata") true, .one⟩, ⟨.leaf (nm! "arpeggiate") false, .one⟩, ⟨.leaf (nm! "non-arpeggiate") false, .one⟩,
    ⟨.leaf (nm! "accidental-mark") true, .one⟩, ⟨.leaf (nm! "other-notation") true, .one⟩]
  has := [[]]
  stmts := [⟨[.choice 0], 0, .element⟩, ⟨[.choice 1], 1, .element⟩, ⟨[.choice 2], 2, .element⟩, ⟨[.choice 3], 3, .element⟩, ⟨[.choice 4], 4, .element⟩,
    ⟨[.choice 5], 5, .element⟩, ⟨[.choice 6], 6, .element⟩, ⟨[.choice 7], 7, .element⟩, ⟨[.choice 8], 8, .element⟩, ⟨[.choice 9], 9, .element⟩,
    ⟨[.choice 10], 10, .element⟩, ⟨[.choice 11], 11, .element⟩, ⟨[.choice 12], 12, .element⟩, ⟨[.choice 13], 13, .element⟩]

/-- `Note`: `hasContents` private/mx/core/elements/Note.cpp 91-94, `streamContents` 97-174. Members: NoteChoice, Instrument, EditorialVoiceGroup, Type, DotSet, Accidental, TimeModification, Stem, Notehead, NoteheadText, Staff, BeamSet, NotationsSet, LyricSet, Play. -/
def c_Note : ClassInfo where
  name := nm! "note"
  choices := 0
  members := [⟨.comp .NoteChoice, .one⟩, ⟨.leaf (nm! "instrument") false, .opt⟩, ⟨.comp .EditorialVoiceGroup, .one⟩, ⟨.leaf (nm! "type") true, .opt⟩,
    ⟨.leaf (nm! "dot") false, (.set ⟨0, none, 0, 0⟩)⟩, ⟨.leaf (nm! "accidental") true, .opt⟩, ⟨.comp .TimeModification, .opt⟩,
    ⟨.leaf (nm! "stem") true, .opt⟩, ⟨.leaf (nm! "notehead") true, .opt⟩, ⟨.comp .NoteheadText, .opt⟩, ⟨.leaf (nm! "staff") true, .opt⟩,
    ⟨.leaf (nm! "beam") true, (.set ⟨0, some 8, 0, 0⟩)⟩, ⟨.comp .Notations, (.set ⟨0, none, 0, 0⟩)⟩, ⟨.comp .Lyric, (.set ⟨0, none, 0, 0⟩)⟩,
    ⟨.comp .Play, .opt⟩]
  has := [[]]
  stmts := [⟨[], 0, .body⟩, ⟨[.flag 1], 1, .element⟩, ⟨[], 2, .bodyIf⟩, ⟨[.flag 3], 3, .element⟩, ⟨[], 4, .element⟩, ⟨[.flag 5], 5, .element⟩,
    ⟨[.flag 6], 6, .element⟩, ⟨[.flag 7], 7, .element⟩, ⟨[.flag 8], 8, .element⟩, ⟨[.flag 9], 9, .element⟩, ⟨[.flag 10], 10, .element⟩, ⟨[], 11, .element⟩,
    ⟨[], 12, .element⟩, ⟨[], 13, .element⟩, ⟨[.flag 14], 14, .element⟩]

/-- `NoteChoice`: `hasContents` private/mx/core/elements/NoteChoice.cpp 42-45, `streamContents` 48-66. Members: GraceNoteGroup, CueNoteGroup, NormalNoteGroup. Choices: grace, cue, normal. -/
def c_NoteChoice : ClassInfo where
  name := 0
  choices := 3
  members := [⟨.comp .GraceNoteGroup, .one⟩, ⟨.comp .CueNoteGroup, .one⟩, ⟨.comp .NormalNoteGroup, .one⟩]
  has := [[]]
  stmts := [⟨[.choice 0], 0, .body⟩, ⟨[.choice 1], 1, .body⟩, ⟨[.choice 2], 2, .body⟩]

/-- `NoteRelationNote`: `hasContents` private/mx/core/elements/NoteRelationNote.cpp 42-45, `streamContents` 48-67. Members: MetronomeNoteSet, MetronomeRelationGroup. -/
def c_NoteRelationNote : ClassInfo where
  name := 0
  choices := 0
  members := [⟨.comp .MetronomeNote, (.set ⟨1, none, 1, 1⟩)⟩, ⟨.comp .MetronomeRelationGroup, .opt⟩]
  has := [[]]
  stmts := [⟨[], 0, .element⟩, ⟨[.flag 1], 1, .body⟩]

/-- `NoteheadText`: `hasContents` private/mx/core/elements/NoteheadText.cpp 42-45, `streamContents` 48-58. Members: NoteheadTextChoiceSet. -/
def c_NoteheadText : ClassInfo where
  name := nm! "notehead-text"
  choices := 0
  members := [⟨.comp .NoteheadTextChoice, (.set ⟨1, none, 0, 1⟩)⟩]
  has := [[]]
  stmts := [⟨[], 0, .body⟩]

/-- `NoteheadTextChoice`: `hasContents` private/mx/core/elements/NoteheadTextChoice.cpp 41-44, `streamContents` 47-63. Members: DisplayText, AccidentalText. Choices: displayText, accidentalText. -/
def c_NoteheadTextChoice : ClassInfo where
  name := 0
  choices := 2
  members := [⟨.leaf (nm! "display-text") true, .one⟩, ⟨.leaf (nm! "accidental-text") true, .one⟩]
  has := [[]]
  stmts := [⟨[.choice 0], 0, .element⟩, ⟨[.choice 1], 1, .element⟩]

/-- `Ornaments`: `hasContents` private/mx/core/elements/Ornaments.cpp 41-44, `streamContents` 47-62. Members: OrnamentsChoiceSet, AccidentalMarkSet. -/
def c_Ornaments : ClassInfo where
  name := nm! "ornaments"
  choices := 0
  members := [⟨.comp .OrnamentsChoice, (.set ⟨0, none, 0, 0⟩)⟩, ⟨.leaf (nm! "accidental-mark") true, (.set ⟨0, none, 0, 0⟩)⟩]
  has := [[]]
  stmts := [⟨[], 0, .body⟩, ⟨[], 1, .element⟩]

/-- `OrnamentsChoice`: `hasContents` private/mx/core/elements/OrnamentsChoice.cpp 62-65, `streamContents` 68-143. Members: TrillMark, Turn, DelayedTurn, InvertedTurn, DelayedInvertedTurn, VerticalTurn, Shake, WavyLine, Mordent, InvertedMordent, Schleifer, Tremolo, OtherOrnament. Choices: trillMark, turn, delayedTurn, invertedTurn, delayedInvertedTurn, verticalTurn, shake, wavyLine, mordent, invertedMordent, schleifer, tremolo, otherOrnament. -/
def c_OrnamentsChoice : ClassInfo where
  name := 0
  choices := 13
  members := [⟨.leaf (nm! "trill-mark") false, .one⟩, ⟨.leaf (nm! "turn") false, .one⟩, ⟨.leaf (nm! "delayed-turn") false, .one⟩,
    ⟨.leaf (nm! "inverted-turn") false, .one⟩, ⟨.leaf (nm! "delayed-inverted-turn") false, .one⟩, ⟨.leaf (nm! "vertical-turn") false, .one⟩,
    ⟨.leaf (nm! "shake") false, .one⟩, ⟨.leaf (nm! "wavy-line") false, .one⟩, ⟨.leaf (nm! "mordent") false, .one⟩,
    ⟨.leaf (nm! "inverted-mordent") false, .one⟩, ⟨.leaf (nm! "schleifer") false, .one⟩, ⟨.leaf (nm! "tremolo") true, .one⟩,
    ⟨.leaf (nm! "other-ornament") true, .one⟩]
  has := [[]]
  stmts := [⟨[.choice 0], 0, .element⟩, ⟨[.choice 1], 1, .element⟩, ⟨[.choice 2], 2, .element⟩, ⟨[.choice 3], 3, .element⟩, ⟨[.choice 4], 4, .element⟩,
    ⟨[.choice 5], 5, .element⟩, ⟨[.choice 6], 6, .element⟩, ⟨[.choice 7], 7, .element⟩, ⟨[.choice 8], 8, .element⟩, ⟨[.choice 9], 9, .element⟩,
    ⟨[.choice 10], 10, .element⟩, ⟨[.choice 11], 11, .element⟩, ⟨[.choice 12], 12, .element⟩]

/-- `PageLayout`: `hasContents` private/mx/core/elements/PageLayout.cpp 42-45, `streamContents` 48-62. Members: PageHeight, PageWidth, PageMarginsSet. -/
def c_PageLayout : ClassInfo where
  name := nm! "page-layout"
  choices := 0
  members := [⟨.leaf (nm! "page-height") true, .one⟩, ⟨.leaf (nm! "page-width") true, .one⟩, ⟨.comp .PageMargins, (.set ⟨0, some 2, 0, 0⟩)⟩]
  has := [[]]
  stmts := [⟨[], 0, .element⟩, ⟨[], 1, .element⟩, ⟨[], 2, .element⟩]

/-- `PageMargins`: `hasContents` private/mx/core/elements/PageMargins.cpp 45-48, `streamContents` 51-64. Members: LeftMargin, RightMargin, TopMargin, BottomMargin. -/
def c_PageMargins : ClassInfo where
  name := nm! "page-margins"
  choices := 0
  members := [⟨.leaf (nm! "left-margin") true, .one⟩, ⟨.leaf (nm! "right-margin") true, .one⟩, ⟨.leaf (nm! "top-margin") true, .one⟩,
    ⟨.leaf (nm! "bottom-margin") true, .one⟩]
  has := [[]]
  stmts := [⟨[], 0, .element⟩, ⟨[], 1, .element⟩, ⟨[], 2, .element⟩, ⟨[], 3, .element⟩]

/-- `PartAbbreviationDisplay`: `hasContents` private/mx/core/elements/PartAbbreviationDisplay.cpp 39-42, `streamContents` 45-62. Members: DisplayTextOrAccidentalTextSet. -/
def c_PartAbbreviationDisplay : ClassInfo where
  name := nm! "part-abbreviation-display"
  choices := 0
  members := [⟨.comp .DisplayTextOrAccidentalText, (.set ⟨0, none, 0, 0⟩)⟩]
  has := [[.size 0]]
  stmts := [⟨[.self], 0, .body⟩]

/-- `PartGroup`: `hasContents` private/mx/core/elements/PartGroup.cpp 60-70, `streamContents` 73-125. Members: GroupName, GroupNameDisplay, GroupAbbreviation, GroupAbbreviationDisplay, GroupSymbol, GroupBarline, GroupTime, EditorialGroup. -/
def c_PartGroup : ClassInfo where
  name := nm! "part-group"
  choices := 0
  members := [⟨.leaf (nm! "group-name") true, .opt⟩, ⟨.comp .GroupNameDisplay, .opt⟩, ⟨.leaf (nm! "group-abbreviation") true, .opt⟩,
    ⟨.comp .GroupAbbreviationDisplay, .opt⟩, ⟨.leaf (nm! "group-symbol") true, .opt⟩, ⟨.leaf (nm! "group-barline") true, .opt⟩,
    ⟨.leaf (nm! "group-time") false, .opt⟩, ⟨.comp .EditorialGroup, .one⟩]
  has := [[.flag 0], [.flag 1], [.flag 2], [.flag 3], [.flag 4], [.flag 5], [.flag 6], [.kid 7]]
  stmts := [⟨[.self, .flag 0], 0, .element⟩, ⟨[.self, .flag 1], 1, .element⟩, ⟨[.self, .flag 2], 2, .element⟩, ⟨[.self, .flag 3], 3, .element⟩,
    ⟨[.self, .flag 4], 4, .element⟩, ⟨[.self, .flag 5], 5, .element⟩, ⟨[.self, .flag 6], 6, .element⟩, ⟨[.self], 7, .bodyIf⟩]

/-- `PartGroupOrScorePart`: `hasContents` private/mx/core/elements/PartGroupOrScorePart.cpp 40-44, `streamContents` 47-62. Members: PartGroup, ScorePart. Choices: partGroup, scorePart. -/
def c_PartGroupOrScorePart : ClassInfo where
  name := 0
  choices := 2
  members := [⟨.comp .PartGroup, .one⟩, ⟨.comp .ScorePart, .one⟩]
  has := [[.choice 0, .kid 0], [.choice 1, .kid 1]]
  stmts := [⟨[.choice 0], 0, .element⟩, ⟨[.choice 1], 1, .element⟩]

/-- `PartList`: `hasContents` private/mx/core/elements/PartList.cpp 42-45, `streamContents` 48-65. Members: PartGroupSet, ScorePart, PartGroupOrScorePartSet. -/
def c_PartList : ClassInfo where
  name := nm! "part-list"
  choices := 0
  members := [⟨.comp .PartGroup, (.set ⟨0, none, 0, 0⟩)⟩, ⟨.comp .ScorePart, .one⟩, ⟨.comp .PartGroupOrScorePart, (.set ⟨0, none, 0, 0⟩)⟩]
  has := [[]]
  stmts := [⟨[], 0, .element⟩, ⟨[], 1, .element⟩, ⟨[], 2, .body⟩]

/-- `PartNameDisplay`: `hasContents` private/mx/core/elements/PartNameDisplay.cpp 39-42, `streamContents` 45-62. Members: DisplayTextOrAccidentalTextSet. -/
def c_PartNameDisplay : ClassInfo where
  name := nm! "part-name-display"
  choices := 0
  members := [⟨.comp .DisplayTextOrAccidentalText, (.set ⟨0, none, 0, 0⟩)⟩]
  has := [[]]
  stmts := [⟨[], 0, .body⟩]

/-- `PartwiseMeasure`: `hasContents` private/mx/core/elements/PartwiseMeasure.cpp 53-56, `streamContents` 59-73. Members: MusicDataGroup. -/
def c_PartwiseMeasure : ClassInfo where
  name := nm! "measure"
  choices := 0
  members := [⟨.comp .MusicDataGroup, .one⟩]
  has := [[.kid 0]]
  stmts := [⟨[.self], 0, .body⟩]

/-- `PartwisePart`: `hasContents` private/mx/core/elements/PartwisePart.cpp 41-44, `streamContents` 47-64. Members: PartwiseMeasureSet. -/
def c_PartwisePart : ClassInfo where
  name := nm! "part"
  choices := 0
  members := [⟨.comp .PartwiseMeasure, (.set ⟨1, none, 1, 1⟩)⟩]
  has := [[]]
  stmts := [⟨[.self], 0, .element⟩]

/-- `PedalTuning`: `hasContents` private/mx/core/elements/PedalTuning.cpp 40-43, `streamContents` 46-55. Members: PedalStep, PedalAlter. -/
def c_PedalTuning : ClassInfo where
  name := nm! "pedal-tuning"
  choices := 0
  members := [⟨.leaf (nm! "pedal-step") true, .one⟩, ⟨.leaf (nm! "pedal-alter") true, .one⟩]
  has := [[]]
  stmts := [⟨[], 0, .element⟩, ⟨[], 1, .element⟩]

/-- `PerMinuteOrBeatUnitChoice`: `hasContents` private/mx/core/elements/PerMinuteOrBeatUnitChoice.cpp 40-43, `streamContents` 46-65. Members: PerMinute, BeatUnitGroup. Choices: perMinute, beatUnitGroup. -/
def c_PerMinuteOrBeatUnitChoice : ClassInfo where
  name := 0
  choices := 2
  members := [⟨.leaf (nm! "per-minute") true, .one⟩, ⟨.comp .BeatUnitGroup, .one⟩]
  has := [[]]
  stmts := [⟨[.choice 0], 0, .element⟩, ⟨[.choice 1], 1, .body⟩]

/-- `Percussion`: `hasContents` private/mx/core/elements/Percussion.cpp 39-42, `streamContents` 45-52. Members: Choice. -/
def c_Percussion : ClassInfo where
  name := nm! "percussion"
  choices := 0
  members := [⟨.comp .PercussionChoice, .one⟩]
  has := [[]]
  stmts := [⟨[], 0, .body⟩]

/-- `PercussionChoice`: `hasContents` private/mx/core/elements/PercussionChoice.cpp 64-67, `streamContents` 70-144. Members: Glass, Metal, Wood, Pitched, Membrane, Effect, Timpani, Beater, Stick, StickType, StickMaterial, StickLocation, OtherPercussion. Choices: glass, metal, wood, pitched, membrane, effect, timpani, beater, stick, stickType, stickMaterial, stickLocation, otherPercussion. -/
def c_PercussionChoice : ClassInfo where
  name := 0
  choices := 13
  members := [⟨.leaf (nm! "glass") true, .one⟩, ⟨.leaf (nm! "metal") true, .one⟩, ⟨.leaf (nm! "wood") true, .one⟩, ⟨.leaf (nm! "pitched") true, .one⟩,
    ⟨.leaf (nm! "membrane") true, .one⟩, ⟨.leaf (nm! "effect") true, .one⟩, ⟨.leaf (nm! "timpani") false, .one⟩, ⟨.leaf (nm! "beater") true, .one⟩,
    ⟨.comp .Stick, .one⟩, ⟨.leaf (nm! "stick-type") true, .one⟩, ⟨.leaf (nm! "stick-material") true, .one⟩, ⟨.leaf (nm! "stick-location") true, .one⟩,
    ⟨.leaf (nm! "other-percussion") true, .one⟩]
  has := [[]]
  stmts := [⟨[.choice 0], 0, .element⟩, ⟨[.choice 1], 1, .element⟩, ⟨[.choice 2], 2, .element⟩, ⟨[.choice 3], 3, .element⟩, ⟨[.choice 4], 4, .element⟩,
    ⟨[.choice 5], 5, .element⟩, ⟨[.choice 6], 6, .element⟩, ⟨[.choice 7], 7, .element⟩, ⟨[.choice 8], 8, .element⟩, ⟨[.choice 9], 9, .element⟩,
    ⟨[.choice 10], 10, .element⟩, ⟨[.choice 11], 11, .element⟩, ⟨[.choice 12], 12, .element⟩]

/-- `Pitch`: `hasContents` private/mx/core/elements/Pitch.cpp 43-46, `streamContents` 49-63. Members: Step, Alter, Octave. -/
def c_Pitch : ClassInfo where
  name := nm! "pitch"
  choices := 0
  members := [⟨.leaf (nm! "step") true, .one⟩, ⟨.leaf (nm! "alter") true, .opt⟩, ⟨.leaf (nm! "octave") true, .one⟩]
  has := [[]]
  stmts := [⟨[], 0, .element⟩, ⟨[.flag 1], 1, .element⟩, ⟨[], 2, .element⟩]

/-- `Play`: `hasContents` private/mx/core/elements/Play.cpp 46-49, `streamContents` 52-83. Members: Ipa, Mute, SemiPitched, OtherPlay. Choices: ipa, mute, semiPitched, otherPlay. -/
def c_Play : ClassInfo where
  name := nm! "play"
  choices := 4
  members := [⟨.leaf (nm! "ipa") true, .one⟩, ⟨.leaf (nm! "mute") true, .one⟩, ⟨.leaf (nm! "semi-pitched") true, .one⟩, ⟨.leaf (nm! "other-play") true, .one⟩]
  has := [[]]
  stmts := [⟨[.choice 0], 0, .element⟩, ⟨[.choice 1], 1, .element⟩, ⟨[.choice 2], 2, .element⟩, ⟨[.choice 3], 3, .element⟩]

/-- `Print`: `hasContents` private/mx/core/elements/Print.cpp 51-58, `streamContents` 61-98. Members: LayoutGroup, MeasureLayout, MeasureNumbering, PartNameDisplay, PartAbbreviationDisplay. -/
def c_Print : ClassInfo where
  name := nm! "print"
  choices := 0
  members := [⟨.comp .LayoutGroup, .one⟩, ⟨.comp .MeasureLayout, .opt⟩, ⟨.leaf (nm! "measure-numbering") true, .opt⟩, ⟨.comp .PartNameDisplay, .opt⟩,
    ⟨.comp .PartAbbreviationDisplay, .opt⟩]
  has := [[.kid 0], [.flag 1], [.flag 2], [.flag 3], [.flag 4]]
  stmts := [⟨[.self], 0, .bodyIf⟩, ⟨[.self, .flag 1], 1, .element⟩, ⟨[.self, .flag 2], 2, .element⟩, ⟨[.self, .flag 3], 3, .element⟩,
    ⟨[.self, .flag 4], 4, .element⟩]

/-- `Properties`: `hasContents` private/mx/core/elements/Properties.cpp 66-80, `streamContents` 83-155. Members: EditorialGroup, Divisions, KeySet, TimeSet, Staves, PartSymbol, Instruments, ClefSet, StaffDetailsSet, TransposeSet, DirectiveSet, MeasureStyleSet. -/
def c_Properties : ClassInfo where
  name := nm! "attributes"
  choices := 0
  members := [⟨.comp .EditorialGroup, .one⟩, ⟨.leaf (nm! "divisions") true, .opt⟩, ⟨.comp .Key, (.set ⟨0, none, 0, 0⟩)⟩, ⟨.comp .Time, (.set ⟨0, none, 0, 0⟩)⟩,
    ⟨.leaf (nm! "staves") true, .opt⟩, ⟨.leaf (nm! "part-symbol") true, .opt⟩, ⟨.leaf (nm! "instruments") true, .opt⟩,
    ⟨.comp .Clef, (.set ⟨0, none, 0, 0⟩)⟩, ⟨.comp .StaffDetails, (.set ⟨0, none, 0, 0⟩)⟩, ⟨.comp .Transpose, (.set ⟨0, none, 0, 0⟩)⟩,
    ⟨.leaf (nm! "directive") true, (.set ⟨0, none, 0, 0⟩)⟩, ⟨.comp .MeasureStyle, (.set ⟨0, none, 0, 0⟩)⟩]
  has := [[.kid 0], [.flag 1], [.size 2], [.size 3], [.flag 4], [.flag 5], [.flag 6], [.size 7], [.size 8], [.size 9], [.size 10], [.size 11]]
  stmts := [⟨[.self], 0, .bodyIf⟩, ⟨[.self, .flag 1], 1, .element⟩, ⟨[.self], 2, .element⟩, ⟨[.self], 3, .element⟩, ⟨[.self, .flag 4], 4, .element⟩,
    ⟨[.self, .flag 5], 5, .element⟩, ⟨[.self, .flag 6], 6, .element⟩, ⟨[.self], 7, .element⟩, ⟨[.self], 8, .element⟩, ⟨[.self], 9, .element⟩,
    ⟨[.self], 10, .element⟩, ⟨[.self], 11, .element⟩]

/-- `Rest`: `hasContents` private/mx/core/elements/Rest.cpp 40-43, `streamContents` 46-60. Members: DisplayStepOctaveGroup. -/
def c_Rest : ClassInfo where
  name := nm! "rest"
  choices := 0
  members := [⟨.comp .DisplayStepOctaveGroup, .opt⟩]
  has := [[.flag 0]]
  stmts := [⟨[.flag 0], 0, .body⟩]

/-- `Root`: `hasContents` private/mx/core/elements/Root.cpp 41-44, `streamContents` 47-59. Members: RootStep, RootAlter. -/
def c_Root : ClassInfo where
  name := nm! "root"
  choices := 0
  members := [⟨.leaf (nm! "root-step") true, .one⟩, ⟨.leaf (nm! "root-alter") true, .opt⟩]
  has := [[]]
  stmts := [⟨[], 0, .element⟩, ⟨[.flag 1], 1, .element⟩]

/-- `Scaling`: `hasContents` private/mx/core/elements/Scaling.cpp 40-43, `streamContents` 46-55. Members: Millimeters, Tenths. -/
def c_Scaling : ClassInfo where
  name := nm! "scaling"
  choices := 0
  members := [⟨.leaf (nm! "millimeters") true, .one⟩, ⟨.leaf (nm! "tenths") true, .one⟩]
  has := [[]]
  stmts := [⟨[], 0, .element⟩, ⟨[], 1, .element⟩]

/-- `Scordatura`: `hasContents` private/mx/core/elements/Scordatura.cpp 40-43, `streamContents` 46-56. Members: AccordSet. -/
def c_Scordatura : ClassInfo where
  name := nm! "scordatura"
  choices := 0
  members := [⟨.comp .Accord, (.set ⟨1, none, 1, 1⟩)⟩]
  has := [[]]
  stmts := [⟨[], 0, .element⟩]

/-- `ScoreHeaderGroup`: `hasContents` private/mx/core/elements/ScoreHeaderGroup.cpp 54-57, `streamContents` 60-124. Members: Work, MovementNumber, MovementTitle, Identification, Defaults, CreditSet, PartList. -/
def c_ScoreHeaderGroup : ClassInfo where
  name := 0
  choices := 0
  members := [⟨.comp .Work, .opt⟩, ⟨.leaf (nm! "movement-number") true, .opt⟩, ⟨.leaf (nm! "movement-title") true, .opt⟩, ⟨.comp .Identification, .opt⟩,
    ⟨.comp .Defaults, .opt⟩, ⟨.comp .Credit, (.set ⟨0, none, 0, 0⟩)⟩, ⟨.comp .PartList, .one⟩]
  has := [[]]
  stmts := [⟨[.flag 0], 0, .element⟩, ⟨[.flag 1], 1, .element⟩, ⟨[.flag 2], 2, .element⟩, ⟨[.flag 3], 3, .element⟩, ⟨[.flag 4], 4, .element⟩, ⟨[], 5, .element⟩,
    ⟨[], 6, .element⟩]

/-- `ScoreInstrument`: `hasContents` private/mx/core/elements/ScoreInstrument.cpp 53-56, `streamContents` 59-86. Members: InstrumentName, InstrumentAbbreviation, InstrumentSound, SoloOrEnsembleChoice, VirtualInstrument. -/
def c_ScoreInstrument : ClassInfo where
  name := nm! "score-instrument"
  choices := 0
  members := [⟨.leaf (nm! "instrument-name") true, .one⟩, ⟨.leaf (nm! "instrument-abbreviation") true, .opt⟩, ⟨.leaf (nm! "instrument-sound") true, .opt⟩,
    ⟨.comp .SoloOrEnsembleChoice, .opt⟩, ⟨.comp .VirtualInstrument, .opt⟩]
  has := [[]]
  stmts := [⟨[], 0, .element⟩, ⟨[.flag 1], 1, .element⟩, ⟨[.flag 2], 2, .element⟩, ⟨[.flag 3], 3, .body⟩, ⟨[.flag 4], 4, .element⟩]

/-- `ScorePart`: `hasContents` private/mx/core/elements/ScorePart.cpp 59-62, `streamContents` 65-110. Members: Identification, PartName, PartNameDisplay, PartAbbreviation, PartAbbreviationDisplay, GroupSet, ScoreInstrumentSet, MidiDeviceInstrumentGroupSet. -/
def c_ScorePart : ClassInfo where
  name := nm! "score-part"
  choices := 0
  members := [⟨.comp .Identification, .opt⟩, ⟨.leaf (nm! "part-name") true, .one⟩, ⟨.comp .PartNameDisplay, .opt⟩, ⟨.leaf (nm! "part-abbreviation") true, .opt⟩,
    ⟨.comp .PartAbbreviationDisplay, .opt⟩, ⟨.leaf (nm! "group") true, (.set ⟨0, none, 0, 0⟩)⟩, ⟨.comp .ScoreInstrument, (.set ⟨0, none, 0, 0⟩)⟩,
    ⟨.comp .MidiDeviceInstrumentGroup, (.set ⟨0, none, 0, 0⟩)⟩]
  has := [[]]
  stmts := [⟨[.flag 0], 0, .element⟩, ⟨[], 1, .element⟩, ⟨[.flag 2], 2, .element⟩, ⟨[.flag 3], 3, .element⟩, ⟨[.flag 4], 4, .element⟩, ⟨[], 5, .element⟩,
    ⟨[], 6, .element⟩, ⟨[], 7, .bodyIf⟩]

/-- `ScorePartwise`: `hasContents` private/mx/core/elements/ScorePartwise.cpp 43-46, `streamContents` 49-61. Members: ScoreHeaderGroup, PartwisePartSet. -/
def c_ScorePartwise : ClassInfo where
  name := nm! "score-partwise"
  choices := 0
  members := [⟨.comp .ScoreHeaderGroup, .one⟩, ⟨.comp .PartwisePart, (.set ⟨1, none, 1, 1⟩)⟩]
  has := [[]]
  stmts := [⟨[], 0, .body⟩, ⟨[], 1, .element⟩]

/-- `ScoreTimewise`: `hasContents` private/mx/core/elements/ScoreTimewise.cpp 45-48, `streamContents` 51-63. Members: ScoreHeaderGroup, TimewiseMeasureSet. -/
def c_ScoreTimewise : ClassInfo where
  name := nm! "score-timewise"
  choices := 0
  members := [⟨.comp .ScoreHeaderGroup, .one⟩, ⟨.comp .TimewiseMeasure, (.set ⟨1, none, 1, 1⟩)⟩]
  has := [[]]
  stmts := [⟨[], 0, .body⟩, ⟨[], 1, .element⟩]

/-- `Slash`: `hasContents` private/mx/core/elements/Slash.cpp 41-44, `streamContents` 47-62. Members: SlashType, SlashDotSet. -/
def c_Slash : ClassInfo where
  name := nm! "slash"
  choices := 0
  members := [⟨.leaf (nm! "slash-type") true, .one⟩, ⟨.leaf (nm! "slash-dot") false, (.set ⟨0, none, 0, 0⟩)⟩]
  has := [[]]
  stmts := [⟨[], 0, .element⟩, ⟨[], 1, .element⟩]

/-- `SoloOrEnsembleChoice`: `hasContents` private/mx/core/elements/SoloOrEnsembleChoice.cpp 40-43, `streamContents` 46-65. Members: Solo, Ensemble. Choices: solo, ensemble. -/
def c_SoloOrEnsembleChoice : ClassInfo where
  name := 0
  choices := 2
  members := [⟨.leaf (nm! "solo") false, .one⟩, ⟨.leaf (nm! "ensemble") true, .one⟩]
  has := [[]]
  stmts := [⟨[.choice 0], 0, .element⟩, ⟨[.choice 1], 1, .element⟩]

/-- `Sound`: `hasContents` private/mx/core/elements/Sound.cpp 46-49, `streamContents` 52-79. Members: MidiDevice, MidiInstrument, Play. -/
def c_Sound : ClassInfo where
  name := nm! "sound"
  choices := 0
  members := [⟨.leaf (nm! "midi-device") true, .opt⟩, ⟨.comp .MidiInstrument, .opt⟩, ⟨.comp .Play, .opt⟩]
  has := [[.flag 0], [.flag 1], [.flag 2]]
  stmts := [⟨[.flag 0], 0, .element⟩, ⟨[], 1, .element⟩, ⟨[.flag 2], 2, .element⟩]

/-- `StaffDetails`: `hasContents` private/mx/core/elements/StaffDetails.cpp 51-58, `streamContents` 61-98. Members: StaffType, StaffLines, StaffTuningSet, Capo, StaffSize. -/
def c_StaffDetails : ClassInfo where
  name := nm! "staff-details"
  choices := 0
  members := [⟨.leaf (nm! "staff-type") true, .opt⟩, ⟨.leaf (nm! "staff-lines") true, .opt⟩, ⟨.comp .StaffTuning, (.set ⟨0, none, 0, 0⟩)⟩,
    ⟨.leaf (nm! "capo") true, .opt⟩, ⟨.leaf (nm! "staff-size") true, .opt⟩]
  has := [[.flag 0], [.flag 1], [.size 2], [.flag 3], [.flag 4]]
  stmts := [⟨[.flag 0], 0, .element⟩, ⟨[.flag 1], 1, .element⟩, ⟨[], 2, .element⟩, ⟨[.flag 3], 3, .element⟩, ⟨[.flag 4], 4, .element⟩]

/-- `StaffLayout`: `hasContents` private/mx/core/elements/StaffLayout.cpp 40-43, `streamContents` 46-59. Members: StaffDistance. -/
def c_StaffLayout : ClassInfo where
  name := nm! "staff-layout"
  choices := 0
  members := [⟨.leaf (nm! "staff-distance") true, .opt⟩]
  has := [[.flag 0]]
  stmts := [⟨[.flag 0], 0, .element⟩]

/-- `StaffTuning`: `hasContents` private/mx/core/elements/StaffTuning.cpp 44-47, `streamContents` 50-64. Members: TuningStep, TuningAlter, TuningOctave. -/
def c_StaffTuning : ClassInfo where
  name := nm! "staff-tuning"
  choices := 0
  members := [⟨.leaf (nm! "tuning-step") true, .one⟩, ⟨.leaf (nm! "tuning-alter") true, .opt⟩, ⟨.leaf (nm! "tuning-octave") true, .one⟩]
  has := [[]]
  stmts := [⟨[], 0, .element⟩, ⟨[.flag 1], 1, .element⟩, ⟨[], 2, .element⟩]

/-- `Stick`: `hasContents` private/mx/core/elements/Stick.cpp 41-44, `streamContents` 47-56. Members: StickType, StickMaterial. -/
def c_Stick : ClassInfo where
  name := nm! "stick"
  choices := 0
  members := [⟨.leaf (nm! "stick-type") true, .one⟩, ⟨.leaf (nm! "stick-material") true, .one⟩]
  has := [[]]
  stmts := [⟨[], 0, .element⟩, ⟨[], 1, .element⟩]

/-- `SyllabicTextGroup`: `hasContents` private/mx/core/elements/SyllabicTextGroup.cpp 45-48, `streamContents` 51-72. Members: Syllabic, Text, ElisionSyllabicTextGroupSet, Extend. -/
def c_SyllabicTextGroup : ClassInfo where
  name := 0
  choices := 0
  members := [⟨.leaf (nm! "syllabic") true, .opt⟩, ⟨.leaf (nm! "text") true, .one⟩, ⟨.comp .ElisionSyllabicTextGroup, (.set ⟨0, none, 0, 0⟩)⟩,
    ⟨.leaf (nm! "extend") false, .opt⟩]
  has := [[]]
  stmts := [⟨[.flag 0], 0, .element⟩, ⟨[], 1, .element⟩, ⟨[], 2, .body⟩, ⟨[.flag 3], 3, .element⟩]

/-- `SystemDividers`: `hasContents` private/mx/core/elements/SystemDividers.cpp 40-43, `streamContents` 46-55. Members: LeftDivider, RightDivider. -/
def c_SystemDividers : ClassInfo where
  name := nm! "system-dividers"
  choices := 0
  members := [⟨.leaf (nm! "left-divider") false, .one⟩, ⟨.leaf (nm! "right-divider") false, .one⟩]
  has := [[]]
  stmts := [⟨[], 0, .element⟩, ⟨[], 1, .element⟩]

/-- `SystemLayout`: `hasContents` private/mx/core/elements/SystemLayout.cpp 48-54, `streamContents` 57-85. Members: SystemMargins, SystemDistance, TopSystemDistance, SystemDividers. -/
def c_SystemLayout : ClassInfo where
  name := nm! "system-layout"
  choices := 0
  members := [⟨.comp .SystemMargins, .opt⟩, ⟨.leaf (nm! "system-distance") true, .opt⟩, ⟨.leaf (nm! "top-system-distance") true, .opt⟩,
    ⟨.comp .SystemDividers, .opt⟩]
  has := [[.flag 0], [.flag 1], [.flag 2], [.flag 3]]
  stmts := [⟨[.flag 0], 0, .element⟩, ⟨[.flag 1], 1, .element⟩, ⟨[.flag 2], 2, .element⟩, ⟨[.flag 3], 3, .element⟩]

/-- `SystemMargins`: `hasContents` private/mx/core/elements/SystemMargins.cpp 40-43, `streamContents` 46-55. Members: LeftMargin, RightMargin. -/
def c_SystemMargins : ClassInfo where
  name := nm! "system-margins"
  choices := 0
  members := [⟨.leaf (nm! "left-margin") true, .one⟩, ⟨.leaf (nm! "right-margin") true, .one⟩]
  has := [[]]
  stmts := [⟨[], 0, .element⟩, ⟨[], 1, .element⟩]

/-- `Technical`: `hasContents` private/mx/core/elements/Technical.cpp 62-65, `streamContents` 68-84. Members: TechnicalChoiceSet. -/
def c_Technical : ClassInfo where
  name := nm! "technical"
  choices := 0
  members := [⟨.comp .TechnicalChoice, (.set ⟨0, none, 0, 0⟩)⟩]
  has := [[.size 0]]
  stmts := [⟨[.self], 0, .body⟩]

/-- `TechnicalChoice`: `hasContents` private/mx/core/elements/TechnicalChoice.cpp 85-88, `streamContents` 91-220. Members: UpBow, DownBow, Harmonic, OpenString, ThumbPosition, Fingering, Pluck, DoubleTongue, TripleTongue, Stopped, SnapPizzicato, Fret, String, HammerOn, PullOff, Bend, Tap, Heel, Toe, Fingernails, Hole, Arrow, Handbell, OtherTechnical. Choices: upBow, downBow, harmonic, openString, thumbPosition, fingering, pluck, doubleTongue, tripleTongue, stopped, snapPizzicato, fret, string_, hammerOn, pullOff, bend, tap, heel, toe, fingernails, hole, arrow, handbell, otherTechnical. -/
def c_TechnicalChoice : ClassInfo where
  name := 0
  choices := 24
  members := [⟨.leaf (nm! "up-bow") false, .one⟩, ⟨.leaf (nm! "down-bow") false, .one⟩, ⟨.comp .Harmonic, .one⟩, ⟨.leaf (nm! "open-string") false, .one⟩,
    ⟨.leaf (nm! "thumb-position") false, .one⟩, ⟨.leaf (nm! "fingering") true, .one⟩, ⟨.leaf (nm! "pluck") true, .one⟩,
    ⟨.leaf (nm! "double-tongue") false, .one⟩, ⟨.leaf (nm! "triple-tongue") false, .one⟩, ⟨.leaf (nm! "stopped") false, .one⟩,
    ⟨.leaf (nm! "snap-pizzicato") false, .one⟩, ⟨.leaf (nm! "fret") true, .one⟩, ⟨.leaf (nm! "string") true, .one⟩, ⟨.leaf (nm! "hammer-on") true, .one⟩,
    ⟨.leaf (nm! "pull-off") true, .one⟩, ⟨.comp .Bend, .one⟩, ⟨.leaf (nm! "tap") true, .one⟩, ⟨.leaf (nm! "heel") false, .one⟩,
    ⟨.leaf (nm! "toe") false, .one⟩, ⟨.leaf (nm! "fingernails") false, .one⟩, ⟨.comp .Hole, .one⟩, ⟨.comp .Arrow, .one⟩,
    ⟨.leaf (nm! "handbell") true, .one⟩, ⟨.leaf (nm! "other-technical") true, .one⟩]
  has := [[]]
  stmts := [⟨[.choice 0], 0, .element⟩, ⟨[.choice 1], 1, .element⟩, ⟨[.choice 2], 2, .element⟩, ⟨[.choice 3], 3, .element⟩, ⟨[.choice 4], 4, .element⟩,
    ⟨[.choice 5], 5, .element⟩, ⟨[.choice 6], 6, .element⟩, ⟨[.choice 7], 7, .element⟩, ⟨[.choice 8], 8, .element⟩, ⟨[.choice 9], 9, .element⟩,
    ⟨[.choice 10], 10, .element⟩, ⟨[.choice 11], 11, .element⟩, ⟨[.choice 12], 12, .element⟩, ⟨[.choice 13], 13, .element⟩, ⟨[.choice 14], 14, .element⟩,
    ⟨[.choice 15], 15, .element⟩, ⟨[.choice 16], 16, .element⟩, ⟨[.choice 17], 17, .element⟩, ⟨[.choice 18], 18, .element⟩, ⟨[.choice 19], 19, .element⟩,
    ⟨[.choice 20], 20, .element⟩, ⟨[.choice 21], 21, .element⟩, ⟨[.choice 22], 22, .element⟩, ⟨[.choice 23], 23, .element⟩]

/-- `Time`: `hasContents` private/mx/core/elements/Time.cpp 41-44, `streamContents` 47-54. Members: Choice. -/
def c_Time : ClassInfo where
  name := nm! "time"
  choices := 0
  members := [⟨.comp .TimeChoice, .one⟩]
  has := [[]]
  stmts := [⟨[], 0, .body⟩]

/-- `TimeChoice`: `hasContents` private/mx/core/elements/TimeChoice.cpp 45-48, `streamContents` 51-72. Members: TimeSignatureGroupSet, SenzaMisura. Choices: timeSignature, senzaMisura. -/
def c_TimeChoice : ClassInfo where
  name := 0
  choices := 2
  members := [⟨.comp .TimeSignatureGroup, (.set ⟨1, none, 0, 1⟩)⟩, ⟨.leaf (nm! "senza-misura") true, .one⟩]
  has := [[]]
  stmts := [⟨[.choice 0], 0, .body⟩, ⟨[.choice 1], 1, .element⟩]

/-- `TimeModification`: `hasContents` private/mx/core/elements/TimeModification.cpp 45-48, `streamContents` 51-65. Members: ActualNotes, NormalNotes, NormalTypeNormalDotGroup. -/
def c_TimeModification : ClassInfo where
  name := nm! "time-modification"
  choices := 0
  members := [⟨.leaf (nm! "actual-notes") true, .one⟩, ⟨.leaf (nm! "normal-notes") true, .one⟩, ⟨.comp .NormalTypeNormalDotGroup, .opt⟩]
  has := [[]]
  stmts := [⟨[], 0, .element⟩, ⟨[], 1, .element⟩, ⟨[.flag 2], 2, .body⟩]

/-- `TimeModificationNormalTypeNormalDot`: `hasContents` private/mx/core/elements/TimeModificationNormalTypeNormalDot.cpp 39-42, `streamContents` 45-55. Members: NormalType, NormalDotSet. -/
def c_TimeModificationNormalTypeNormalDot : ClassInfo where
  name := 0
  choices := 0
  members := [⟨.leaf (nm! "normal-type") true, .one⟩, ⟨.leaf (nm! "normal-dot") false, (.set ⟨0, none, 0, 0⟩)⟩]
  has := [[]]
  stmts := [⟨[], 0, .element⟩, ⟨[], 1, .element⟩]

/-- `TimeSignatureGroup`: `hasContents` private/mx/core/elements/TimeSignatureGroup.cpp 42-45, `streamContents` 48-60. Members: Beats, BeatType, Interchangeable. -/
def c_TimeSignatureGroup : ClassInfo where
  name := 0
  choices := 0
  members := [⟨.leaf (nm! "beats") true, .one⟩, ⟨.leaf (nm! "beat-type") true, .one⟩, ⟨.comp .Interchangeable, .opt⟩]
  has := [[]]
  stmts := [⟨[], 0, .element⟩, ⟨[], 1, .element⟩, ⟨[.flag 2], 2, .element⟩]

/-- `TimewiseMeasure`: `hasContents` private/mx/core/elements/TimewiseMeasure.cpp 41-44, `streamContents` 47-64. Members: TimewisePartSet. -/
def c_TimewiseMeasure : ClassInfo where
  name := nm! "measure"
  choices := 0
  members := [⟨.comp .TimewisePart, (.set ⟨1, none, 0, 0⟩)⟩]
  has := [[]]
  stmts := [⟨[.self], 0, .element⟩]

/-- `TimewisePart`: `hasContents` private/mx/core/elements/TimewisePart.cpp 54-57, `streamContents` 60-74. Members: MusicDataGroup. -/
def c_TimewisePart : ClassInfo where
  name := nm! "part"
  choices := 0
  members := [⟨.comp .MusicDataGroup, .one⟩]
  has := [[.kid 0]]
  stmts := [⟨[.self], 0, .body⟩]

/-- `TraditionalKey`: `hasContents` private/mx/core/elements/TraditionalKey.cpp 45-48, `streamContents` 51-68. Members: Cancel, Fifths, Mode. -/
def c_TraditionalKey : ClassInfo where
  name := 0
  choices := 0
  members := [⟨.leaf (nm! "cancel") true, .opt⟩, ⟨.leaf (nm! "fifths") true, .one⟩, ⟨.leaf (nm! "mode") true, .opt⟩]
  has := [[]]
  stmts := [⟨[.flag 0], 0, .element⟩, ⟨[], 1, .element⟩, ⟨[.flag 2], 2, .element⟩]

/-- `Transpose`: `hasContents` private/mx/core/elements/Transpose.cpp 48-51, `streamContents` 54-76. Members: Diatonic, Chromatic, OctaveChange, Double. -/
def c_Transpose : ClassInfo where
  name := nm! "transpose"
  choices := 0
  members := [⟨.leaf (nm! "diatonic") true, .opt⟩, ⟨.leaf (nm! "chromatic") true, .one⟩, ⟨.leaf (nm! "octave-change") true, .opt⟩,
    ⟨.leaf (nm! "double") false, .opt⟩]
  has := [[]]
  stmts := [⟨[.flag 0], 0, .element⟩, ⟨[], 1, .element⟩, ⟨[.flag 2], 2, .element⟩, ⟨[.flag 3], 3, .element⟩]

/-- `Tuplet`: `hasContents` private/mx/core/elements/Tuplet.cpp 43-46, `streamContents` 49-67. Members: TupletActual, TupletNormal. -/
def c_Tuplet : ClassInfo where
  name := nm! "tuplet"
  choices := 0
  members := [⟨.comp .TupletActual, .opt⟩, ⟨.comp .TupletNormal, .opt⟩]
  has := [[.flag 0], [.flag 1]]
  stmts := [⟨[.flag 0], 0, .element⟩, ⟨[.flag 1], 1, .element⟩]

/-- `TupletActual`: `hasContents` private/mx/core/elements/TupletActual.cpp 44-47, `streamContents` 50-77. Members: TupletNumber, TupletType, TupletDotSet. -/
def c_TupletActual : ClassInfo where
  name := nm! "tuplet-actual"
  choices := 0
  members := [⟨.leaf (nm! "tuplet-number") true, .opt⟩, ⟨.leaf (nm! "tuplet-type") true, .opt⟩, ⟨.leaf (nm! "tuplet-dot") false, (.set ⟨0, none, 0, 0⟩)⟩]
  has := [[.flag 0], [.flag 1], [.size 2]]
  stmts := [⟨[.flag 0], 0, .element⟩, ⟨[.flag 1], 1, .element⟩, ⟨[], 2, .element⟩]

/-- `TupletNormal`: `hasContents` private/mx/core/elements/TupletNormal.cpp 44-47, `streamContents` 50-77. Members: TupletNumber, TupletType, TupletDotSet. -/
def c_TupletNormal : ClassInfo where
  name := nm! "tuplet-normal"
  choices := 0
  members := [⟨.leaf (nm! "tuplet-number") true, .opt⟩, ⟨.leaf (nm! "tuplet-type") true, .opt⟩, ⟨.leaf (nm! "tuplet-dot") false, (.set ⟨0, none, 0, 0⟩)⟩]
  has := [[.flag 0], [.flag 1], [.size 2]]
  stmts := [⟨[.flag 0], 0, .element⟩, ⟨[.flag 1], 1, .element⟩, ⟨[], 2, .element⟩]

/-- `Unpitched`: `hasContents` private/mx/core/elements/Unpitched.cpp 39-42, `streamContents` 45-59. Members: DisplayStepOctaveGroup. -/
def c_Unpitched : ClassInfo where
  name := nm! "unpitched"
  choices := 0
  members := [⟨.comp .DisplayStepOctaveGroup, .opt⟩]
  has := [[.flag 0]]
  stmts := [⟨[.flag 0], 0, .body⟩]

/-- `VirtualInstrument`: `hasContents` private/mx/core/elements/VirtualInstrument.cpp 42-45, `streamContents` 48-66. Members: VirtualLibrary, VirtualName. -/
def c_VirtualInstrument : ClassInfo where
  name := nm! "virtual-instrument"
  choices := 0
  members := [⟨.leaf (nm! "virtual-library") true, .opt⟩, ⟨.leaf (nm! "virtual-name") true, .opt⟩]
  has := [[.flag 0], [.flag 1]]
  stmts := [⟨[.flag 0], 0, .element⟩, ⟨[.flag 1], 1, .element⟩]

/-- `Work`: `hasContents` private/mx/core/elements/Work.cpp 45-48, `streamContents` 51-74. Members: WorkNumber, WorkTitle, Opus. -/
def c_Work : ClassInfo where
  name := nm! "work"
  choices := 0
  members := [⟨.leaf (nm! "work-number") true, .opt⟩, ⟨.leaf (nm! "work-title") true, .opt⟩, ⟨.leaf (nm! "opus") false, .opt⟩]
  has := [[.flag 0], [.flag 1], [.flag 2]]
  stmts := [⟨[.flag 0], 0, .element⟩, ⟨[.flag 1], 1, .element⟩, ⟨[.flag 2], 2, .element⟩]

/-- The table. -/
def Cls.info : Cls → ClassInfo
  | .Accord => c_Accord
  | .AccordionRegistration => c_AccordionRegistration
  | .Appearance => c_Appearance
  | .Arrow => c_Arrow
  | .ArrowGroup => c_ArrowGroup
  | .Articulations => c_Articulations
  | .ArticulationsChoice => c_ArticulationsChoice
  | .Backup => c_Backup
  | .Barline => c_Barline
  | .Bass => c_Bass
  | .BeatRepeat => c_BeatRepeat
  | .BeatUnitGroup => c_BeatUnitGroup
  | .BeatUnitPer => c_BeatUnitPer
  | .BeatUnitPerOrNoteRelationNoteChoice => c_BeatUnitPerOrNoteRelationNoteChoice
  | .Bend => c_Bend
  | .BendChoice => c_BendChoice
  | .Clef => c_Clef
  | .Credit => c_Credit
  | .CreditChoice => c_CreditChoice
  | .CreditWordsGroup => c_CreditWordsGroup
  | .CueNoteGroup => c_CueNoteGroup
  | .Defaults => c_Defaults
  | .Degree => c_Degree
  | .Direction => c_Direction
  | .DirectionType => c_DirectionType
  | .DisplayStepOctaveGroup => c_DisplayStepOctaveGroup
  | .DisplayTextOrAccidentalText => c_DisplayTextOrAccidentalText
  | .Dynamics => c_Dynamics
  | .EditorialGroup => c_EditorialGroup
  | .EditorialVoiceDirectionGroup => c_EditorialVoiceDirectionGroup
  | .EditorialVoiceGroup => c_EditorialVoiceGroup
  | .ElisionSyllabicGroup => c_ElisionSyllabicGroup
  | .ElisionSyllabicTextGroup => c_ElisionSyllabicTextGroup
  | .Encoding => c_Encoding
  | .EncodingChoice => c_EncodingChoice
  | .Figure => c_Figure
  | .FiguredBass => c_FiguredBass
  | .Forward => c_Forward
  | .Frame => c_Frame
  | .FrameNote => c_FrameNote
  | .FullNoteGroup => c_FullNoteGroup
  | .FullNoteTypeChoice => c_FullNoteTypeChoice
  | .GraceNoteGroup => c_GraceNoteGroup
  | .GroupAbbreviationDisplay => c_GroupAbbreviationDisplay
  | .GroupNameDisplay => c_GroupNameDisplay
  | .Grouping => c_Grouping
  | .Harmonic => c_Harmonic
  | .HarmonicInfoChoice => c_HarmonicInfoChoice
  | .HarmonicTypeChoice => c_HarmonicTypeChoice
  | .Harmony => c_Harmony
  | .HarmonyChordGroup => c_HarmonyChordGroup
  | .HarpPedals => c_HarpPedals
  | .Hole => c_Hole
  | .Identification => c_Identification
  | .Interchangeable => c_Interchangeable
  | .Key => c_Key
  | .KeyChoice => c_KeyChoice
  | .LayoutGroup => c_LayoutGroup
  | .Lyric => c_Lyric
  | .LyricTextChoice => c_LyricTextChoice
  | .MeasureLayout => c_MeasureLayout
  | .MeasureStyle => c_MeasureStyle
  | .MeasureStyleChoice => c_MeasureStyleChoice
  | .Metronome => c_Metronome
  | .MetronomeNote => c_MetronomeNote
  | .MetronomeRelationGroup => c_MetronomeRelationGroup
  | .MetronomeTuplet => c_MetronomeTuplet
  | .MidiDeviceInstrumentGroup => c_MidiDeviceInstrumentGroup
  | .MidiInstrument => c_MidiInstrument
  | .Miscellaneous => c_Miscellaneous
  | .MusicDataChoice => c_MusicDataChoice
  | .MusicDataGroup => c_MusicDataGroup
  | .NonTraditionalKey => c_NonTraditionalKey
  | .NormalNoteGroup => c_NormalNoteGroup
  | .NormalTypeNormalDotGroup => c_NormalTypeNormalDotGroup
  | .Notations => c_Notations
  | .NotationsChoice => c_NotationsChoice
  | .Note => c_Note
  | .NoteChoice => c_NoteChoice
  | .NoteRelationNote => c_NoteRelationNote
  | .NoteheadText => c_NoteheadText
  | .NoteheadTextChoice => c_NoteheadTextChoice
  | .Ornaments => c_Ornaments
  | .OrnamentsChoice => c_OrnamentsChoice
  | .PageLayout => c_PageLayout
  | .PageMargins => c_PageMargins
  | .PartAbbreviationDisplay => c_PartAbbreviationDisplay
  | .PartGroup => c_PartGroup
  | .PartGroupOrScorePart => c_PartGroupOrScorePart
  | .PartList => c_PartList
  | .PartNameDisplay => c_PartNameDisplay
  | .PartwiseMeasure => c_PartwiseMeasure
  | .PartwisePart => c_PartwisePart
  | .PedalTuning => c_PedalTuning
  | .PerMinuteOrBeatUnitChoice => c_PerMinuteOrBeatUnitChoice
  | .Percussion => c_Percussion
  | .PercussionChoice => c_PercussionChoice
  | .Pitch => c_Pitch
  | .Play => c_Play
  | .Print => c_Print
  | .Properties => c_Properties
  | .Rest => c_Rest
  | .Root => c_Root
  | .Scaling => c_Scaling
  | .Scordatura => c_Scordatura
  | .ScoreHeaderGroup => c_ScoreHeaderGroup
  | .ScoreInstrument => c_ScoreInstrument
  | .ScorePart => c_ScorePart
  | .ScorePartwise => c_ScorePartwise
  | .ScoreTimewise => c_ScoreTimewise
  | .Slash => c_Slash
  | .SoloOrEnsembleChoice => c_SoloOrEnsembleChoice
  | .Sound => c_Sound
  | .StaffDetails => c_StaffDetails
  | .StaffLayout => c_StaffLayout
  | .StaffTuning => c_StaffTuning
  | .Stick => c_Stick
  | .SyllabicTextGroup => c_SyllabicTextGroup
  | .SystemDividers => c_SystemDividers
  | .SystemLayout => c_SystemLayout
  | .SystemMargins => c_SystemMargins
  | .Technical => c_Technical
  | .TechnicalChoice => c_TechnicalChoice
  | .Time => c_Time
  | .TimeChoice => c_TimeChoice
  | .TimeModification => c_TimeModification
  | .TimeModificationNormalTypeNormalDot => c_TimeModificationNormalTypeNormalDot
  | .TimeSignatureGroup => c_TimeSignatureGroup
  | .TimewiseMeasure => c_TimewiseMeasure
  | .TimewisePart => c_TimewisePart
  | .TraditionalKey => c_TraditionalKey
  | .Transpose => c_Transpose
  | .Tuplet => c_Tuplet
  | .TupletActual => c_TupletActual
  | .TupletNormal => c_TupletNormal
  | .Unpitched => c_Unpitched
  | .VirtualInstrument => c_VirtualInstrument
  | .Work => c_Work

/-- The names of the elements without children, one per class of private/mx/core/elements not in the table (`streamName`), and the children of `dynamics`. -/
def leafNames : List Nat := [
  nm! "accent", nm! "accidental", nm! "accidental-mark", nm! "accidental-text", nm! "accordion-high", nm! "accordion-low", nm! "accordion-middle",
  nm! "actual-notes", nm! "alter", nm! "arpeggiate", nm! "arrow-direction", nm! "arrow-style", nm! "artificial", nm! "bar-style", nm! "barre",
  nm! "base-pitch", nm! "bass-alter", nm! "bass-step", nm! "beam", nm! "beat-type", nm! "beat-unit", nm! "beat-unit-dot", nm! "beater", nm! "beats",
  nm! "bend-alter", nm! "bookmark", nm! "bottom-margin", nm! "bracket", nm! "breath-mark", nm! "caesura", nm! "cancel", nm! "capo", nm! "chord",
  nm! "chromatic", nm! "circular-arrow", nm! "clef-octave-change", nm! "coda", nm! "creator", nm! "credit-image", nm! "credit-type", nm! "credit-words",
  nm! "cue", nm! "damp", nm! "damp-all", nm! "dashes", nm! "degree-alter", nm! "degree-type", nm! "degree-value", nm! "delayed-inverted-turn",
  nm! "delayed-turn", nm! "detached-legato", nm! "diatonic", nm! "directive", nm! "display-octave", nm! "display-step", nm! "display-text",
  nm! "distance", nm! "divisions", nm! "doit", nm! "dot", nm! "double", nm! "double-tongue", nm! "down-bow", nm! "duration", nm! "effect",
  nm! "elevation", nm! "elision", nm! "encoder", nm! "encoding-date", nm! "encoding-description", nm! "end-line", nm! "end-paragraph", nm! "ending",
  nm! "ensemble", nm! "extend", nm! "eyeglasses", nm! "f", nm! "falloff", nm! "feature", nm! "fermata", nm! "ff", nm! "fff", nm! "ffff", nm! "fffff",
  nm! "ffffff", nm! "fifths", nm! "figure-number", nm! "fingering", nm! "fingernails", nm! "first-fret", nm! "footnote", nm! "fp", nm! "frame-frets",
  nm! "frame-strings", nm! "fret", nm! "function", nm! "fz", nm! "glass", nm! "glissando", nm! "grace", nm! "group", nm! "group-abbreviation",
  nm! "group-barline", nm! "group-name", nm! "group-symbol", nm! "group-time", nm! "hammer-on", nm! "handbell", nm! "heel", nm! "hole-closed",
  nm! "hole-shape", nm! "hole-type", nm! "humming", nm! "image", nm! "instrument", nm! "instrument-abbreviation", nm! "instrument-name",
  nm! "instrument-sound", nm! "instruments", nm! "inversion", nm! "inverted-mordent", nm! "inverted-turn", nm! "ipa", nm! "key-accidental",
  nm! "key-alter", nm! "key-octave", nm! "key-step", nm! "kind", nm! "laughing", nm! "left-divider", nm! "left-margin", nm! "level", nm! "line",
  nm! "line-width", nm! "link", nm! "lyric-font", nm! "lyric-language", nm! "measure-distance", nm! "measure-numbering", nm! "measure-repeat",
  nm! "membrane", nm! "metal", nm! "metronome-beam", nm! "metronome-dot", nm! "metronome-relation", nm! "metronome-type", nm! "mf", nm! "midi-bank",
  nm! "midi-channel", nm! "midi-device", nm! "midi-name", nm! "midi-program", nm! "midi-unpitched", nm! "millimeters", nm! "miscellaneous-field",
  nm! "mode", nm! "mordent", nm! "movement-number", nm! "movement-title", nm! "mp", nm! "multiple-rest", nm! "music-font", nm! "mute", nm! "natural",
  nm! "non-arpeggiate", nm! "normal-dot", nm! "normal-notes", nm! "normal-type", nm! "note-size", nm! "notehead", nm! "octave", nm! "octave-change",
  nm! "octave-shift", nm! "offset", nm! "open-string", nm! "opus", nm! "other-appearance", nm! "other-articulation", nm! "other-direction",
  nm! "other-dynamics", nm! "other-notation", nm! "other-ornament", nm! "other-percussion", nm! "other-play", nm! "other-technical", nm! "p",
  nm! "page-height", nm! "page-width", nm! "pan", nm! "part-abbreviation", nm! "part-name", nm! "part-symbol", nm! "pedal", nm! "pedal-alter",
  nm! "pedal-step", nm! "per-minute", nm! "pitched", nm! "plop", nm! "pluck", nm! "pp", nm! "ppp", nm! "pppp", nm! "ppppp", nm! "pppppp", nm! "pre-bend",
  nm! "prefix", nm! "principal-voice", nm! "pull-off", nm! "rehearsal", nm! "relation", nm! "release", nm! "repeat", nm! "rf", nm! "rfz",
  nm! "right-divider", nm! "right-margin", nm! "rights", nm! "root-alter", nm! "root-step", nm! "schleifer", nm! "scoop", nm! "segno",
  nm! "semi-pitched", nm! "senza-misura", nm! "sf", nm! "sffz", nm! "sfp", nm! "sfpp", nm! "sfz", nm! "shake", nm! "sign", nm! "slash-dot",
  nm! "slash-type", nm! "slide", nm! "slur", nm! "snap-pizzicato", nm! "software", nm! "solo", nm! "sounding-pitch", nm! "source", nm! "spiccato",
  nm! "staccatissimo", nm! "staccato", nm! "staff", nm! "staff-distance", nm! "staff-lines", nm! "staff-size", nm! "staff-type", nm! "staves",
  nm! "stem", nm! "step", nm! "stick-location", nm! "stick-material", nm! "stick-type", nm! "stopped", nm! "stress", nm! "string", nm! "string-mute",
  nm! "strong-accent", nm! "suffix", nm! "supports", nm! "syllabic", nm! "system-distance", nm! "tap", nm! "tenths", nm! "tenuto", nm! "text",
  nm! "thumb-position", nm! "tie", nm! "tied", nm! "time-relation", nm! "timpani", nm! "toe", nm! "top-margin", nm! "top-system-distance",
  nm! "touching-pitch", nm! "tremolo", nm! "trill-mark", nm! "triple-tongue", nm! "tuning-alter", nm! "tuning-octave", nm! "tuning-step",
  nm! "tuplet-dot", nm! "tuplet-number", nm! "tuplet-type", nm! "turn", nm! "type", nm! "unstress", nm! "up-bow", nm! "vertical-turn",
  nm! "virtual-library", nm! "virtual-name", nm! "voice", nm! "volume", nm! "wavy-line", nm! "wedge", nm! "with-bar", nm! "wood", nm! "word-font",
  nm! "words", nm! "work-number", nm! "work-title"]

/-- All classes. -/
def allCls : List Cls := [
  .Accord, .AccordionRegistration, .Appearance, .Arrow, .ArrowGroup, .Articulations, .ArticulationsChoice, .Backup, .Barline, .Bass, .BeatRepeat,
  .BeatUnitGroup, .BeatUnitPer, .BeatUnitPerOrNoteRelationNoteChoice, .Bend, .BendChoice, .Clef, .Credit, .CreditChoice, .CreditWordsGroup,
  .CueNoteGroup, .Defaults, .Degree, .Direction, .DirectionType, .DisplayStepOctaveGroup, .DisplayTextOrAccidentalText, .Dynamics, .EditorialGroup,
  .EditorialVoiceDirectionGroup, .EditorialVoiceGroup, .ElisionSyllabicGroup, .ElisionSyllabicTextGroup, .Encoding, .EncodingChoice, .Figure,
  .FiguredBass, .Forward, .Frame, .FrameNote, .FullNoteGroup, .FullNoteTypeChoice, .GraceNoteGroup, .GroupAbbreviationDisplay, .GroupNameDisplay,
  .Grouping, .Harmonic, .HarmonicInfoChoice, .HarmonicTypeChoice, .Harmony, .HarmonyChordGroup, .HarpPedals, .Hole, .Identification, .Interchangeable,
  .Key, .KeyChoice, .LayoutGroup, .Lyric, .LyricTextChoice, .MeasureLayout, .MeasureStyle, .MeasureStyleChoice, .Metronome, .MetronomeNote,
  .MetronomeRelationGroup, .MetronomeTuplet, .MidiDeviceInstrumentGroup, .MidiInstrument, .Miscellaneous, .MusicDataChoice, .MusicDataGroup,
  .NonTraditionalKey, .NormalNoteGroup, .NormalTypeNormalDotGroup, .Notations, .NotationsChoice, .Note, .NoteChoice, .NoteRelationNote, .NoteheadText,
  .NoteheadTextChoice, .Ornaments, .OrnamentsChoice, .PageLayout, .PageMargins, .PartAbbreviationDisplay, .PartGroup, .PartGroupOrScorePart, .PartList,
  .PartNameDisplay, .PartwiseMeasure, .PartwisePart, .PedalTuning, .PerMinuteOrBeatUnitChoice, .Percussion, .PercussionChoice, .Pitch, .Play, .Print,
  .Properties, .Rest, .Root, .Scaling, .Scordatura, .ScoreHeaderGroup, .ScoreInstrument, .ScorePart, .ScorePartwise, .ScoreTimewise, .Slash,
  .SoloOrEnsembleChoice, .Sound, .StaffDetails, .StaffLayout, .StaffTuning, .Stick, .SyllabicTextGroup, .SystemDividers, .SystemLayout, .SystemMargins,
  .Technical, .TechnicalChoice, .Time, .TimeChoice, .TimeModification, .TimeModificationNormalTypeNormalDot, .TimeSignatureGroup, .TimewiseMeasure,
  .TimewisePart, .TraditionalKey, .Transpose, .Tuplet, .TupletActual, .TupletNormal, .Unpitched, .VirtualInstrument, .Work]

theorem mem_allCls (c : Cls) : c ∈ allCls := by
  cases c <;> decide

end Mx.Content
