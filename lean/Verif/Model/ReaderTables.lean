import Verif.Model.ContentReader

/-
The readers of the classes as data. Generated from the source by a script; the readers that are not a plain sequence of statements were written by hand.
-/
namespace Mx.Content

/-- The parts of `DisplayStepOctaveGroup`, `importGroup` private/mx/core/FromXElement.cpp 246-282. -/
def p_DisplayStepOctaveGroup : List Part := [.one (nm! "display-step") 0, .one (nm! "display-octave") 1]

/-- The parts of `EditorialGroup`, `importGroup` private/mx/core/FromXElement.cpp 88-106. -/
def p_EditorialGroup : List Part := [.one (nm! "footnote") 0, .one (nm! "level") 1]

/-- The parts of `EditorialVoiceDirectionGroup`, `importGroup` private/mx/core/FromXElement.cpp 132-153. -/
def p_EditorialVoiceDirectionGroup : List Part := [.one (nm! "footnote") 0, .one (nm! "level") 1, .one (nm! "voice") 2]

/-- The parts of `EditorialVoiceGroup`, `importGroup` private/mx/core/FromXElement.cpp 108-129. -/
def p_EditorialVoiceGroup : List Part := [.one (nm! "footnote") 0, .one (nm! "level") 1, .one (nm! "voice") 2]

/-- The parts of `LayoutGroup`, `importGroup` private/mx/core/FromXElement.cpp 155-182. -/
def p_LayoutGroup : List Part := [.one (nm! "page-layout") 0, .one (nm! "system-layout") 1, .run (nm! "staff-layout") 2]

/-- `Accord::fromXElementImpl` private/mx/core/elements/Accord.cpp 139-163. -/
def r_Accord : RProg :=
  .loop none [.elem (nm! "tuning-step") 0 true,
    .elem (nm! "tuning-alter") 1 true,
    .elem (nm! "tuning-octave") 2 true] false []

/-- `AccordionRegistration::fromXElementImpl` private/mx/core/elements/AccordionRegistration.cpp 174-188. -/
def r_AccordionRegistration : RProg :=
  .loop none [.elem (nm! "accordion-high") 0 true,
    .elem (nm! "accordion-middle") 1 true,
    .elem (nm! "accordion-low") 2 true] false []

/-- `Appearance::fromXElementImpl` private/mx/core/elements/Appearance.cpp 244-258. -/
def r_Appearance : RProg :=
  .loop none [.set (nm! "line-width") 0 false,
    .set (nm! "note-size") 1 false,
    .set (nm! "distance") 2 false,
    .set (nm! "other-appearance") 3 false] false []

/-- `Arrow::fromXElementImpl` private/mx/core/elements/Arrow.cpp 132-152. -/
def r_Arrow : RProg :=
  .arrow

/-- `ArrowGroup::fromXElementImpl` private/mx/core/elements/ArrowGroup.cpp 101-131. -/
def r_ArrowGroup : RProg :=
  .loop none [.elem (nm! "arrow-direction") 0 true,
    .elem (nm! "arrow-style") 1 true,
    .stop 0] false []

/-- `Articulations::fromXElementImpl` private/mx/core/elements/Articulations.cpp 103-116. -/
def r_Articulations : RProg :=
  .loop none [.each 0 [(nm! "accent", 0, some 0), (nm! "strong-accent", 1, some 1), (nm! "staccato", 2, some 2), (nm! "tenuto", 3, some 3), (nm! "detached-legato", 4, some 4), (nm! "staccatissimo", 5, some 5), (nm! "spiccato", 6, some 6), (nm! "scoop", 7, some 7), (nm! "plop", 8, some 8), (nm! "doit", 9, some 9), (nm! "falloff", 10, some 10), (nm! "breath-mark", 11, some 11), (nm! "caesura", 12, some 12), (nm! "stress", 13, some 13), (nm! "unstress", 14, some 14), (nm! "other-articulation", 15, some 15)]] true []

/-- `ArticulationsChoice::fromXElementImpl` private/mx/core/elements/ArticulationsChoice.cpp 420-520. -/
def r_ArticulationsChoice : RProg :=
  .pick [(nm! "accent", 0, some 0), (nm! "strong-accent", 1, some 1), (nm! "staccato", 2, some 2), (nm! "tenuto", 3, some 3), (nm! "detached-legato", 4, some 4), (nm! "staccatissimo", 5, some 5), (nm! "spiccato", 6, some 6), (nm! "scoop", 7, some 7), (nm! "plop", 8, some 8), (nm! "doit", 9, some 9), (nm! "falloff", 10, some 10), (nm! "breath-mark", 11, some 11), (nm! "caesura", 12, some 12), (nm! "stress", 13, some 13), (nm! "unstress", 14, some 14), (nm! "other-articulation", 15, some 15)]

/-- `Backup::fromXElementImpl` private/mx/core/elements/Backup.cpp 91-104. -/
def r_Backup : RProg :=
  .loop none [.elem (nm! "duration") 0 true,
    .group 1 p_EditorialGroup false] false []

/-- `Barline::fromXElementImpl` private/mx/core/elements/Barline.cpp 361-380. -/
def r_Barline : RProg :=
  .loop none [.elem (nm! "bar-style") 0 true,
    .group 1 p_EditorialGroup false,
    .elem (nm! "wavy-line") 2 true,
    .elem (nm! "segno") 3 true,
    .elem (nm! "coda") 4 true,
    .set (nm! "fermata") 5 false,
    .elem (nm! "ending") 6 true,
    .elem (nm! "repeat") 7 true] false []

/-- `Bass::fromXElementImpl` private/mx/core/elements/Bass.cpp 104-121. -/
def r_Bass : RProg :=
  .loop none [.elem (nm! "bass-step") 0 true,
    .elem (nm! "bass-alter") 1 true] false []

/-- `BeatRepeat::fromXElementImpl` private/mx/core/elements/BeatRepeat.cpp 125-143. -/
def r_BeatRepeat : RProg :=
  .loop none [.elem (nm! "slash-type") 0 true,
    .set (nm! "slash-dot") 1 false] false []

/-- `BeatUnitGroup::fromXElementImpl` private/mx/core/elements/BeatUnitGroup.cpp 102-144. -/
def r_BeatUnitGroup : RProg :=
  .loop none [.elem (nm! "beat-unit") 0 true,
    .item (nm! "beat-unit-dot") 1,
    .stop 0] false []

/-- `BeatUnitPer::fromXElementImpl` private/mx/core/elements/BeatUnitPer.cpp 85-100. -/
def r_BeatUnitPer : RProg :=
  .pick [(nm! "beat-unit-group", 0, none), (nm! "per-minute-or-beat-unit-choice", 1, none)]

/-- `BeatUnitPerOrNoteRelationNoteChoice::fromXElementImpl` private/mx/core/elements/BeatUnitPerOrNoteRelationNoteChoice.cpp 107-112. -/
def r_BeatUnitPerOrNoteRelationNoteChoice : RProg :=
  .pick [(nm! "beat-unit-per", 0, some 0), (nm! "note-relation-note", 1, some 1)]

/-- `Bend::fromXElementImpl` private/mx/core/elements/Bend.cpp 161-188. -/
def r_Bend : RProg :=
  .loop none [.elem (nm! "bend-alter") 0 true,
    .sub 1 [(nm! "pre-bend", 0, some 0), (nm! "release", 1, some 1)] true,
    .elem (nm! "with-bar") 2 true] false []

/-- `Clef::fromXElementImpl` private/mx/core/elements/Clef.cpp 155-174. -/
def r_Clef : RProg :=
  .loop none [.elem (nm! "sign") 0 true,
    .elem (nm! "line") 1 true,
    .elem (nm! "clef-octave-change") 2 true] false []

/-- `Credit::fromXElementImpl` private/mx/core/elements/Credit.cpp 241-337. -/
def r_Credit : RProg :=
  .credit

/-- `Defaults::fromXElementImpl` private/mx/core/elements/Defaults.cpp 319-336. -/
def r_Defaults : RProg :=
  .loop none [.elem (nm! "scaling") 0 true,
    .group 1 p_LayoutGroup true,
    .elem (nm! "appearance") 2 true,
    .elem (nm! "music-font") 3 true,
    .elem (nm! "word-font") 4 true,
    .set (nm! "lyric-font") 5 false,
    .set (nm! "lyric-language") 6 false] false []

/-- `Degree::fromXElementImpl` private/mx/core/elements/Degree.cpp 123-152. -/
def r_Degree : RProg :=
  .loop none [.elem (nm! "degree-value") 0 true,
    .elem (nm! "degree-alter") 1 true,
    .elem (nm! "degree-type") 2 true] false []

/-- `Direction::fromXElementImpl` private/mx/core/elements/Direction.cpp 319-336. -/
def r_Direction : RProg :=
  .loop none [.set (nm! "direction-type") 0 true,
    .elem (nm! "offset") 1 true,
    .group 2 p_EditorialVoiceDirectionGroup false,
    .elem (nm! "staff") 3 true,
    .elem (nm! "sound") 4 true] false []

/-- `DirectionType`: read by its owner. -/
def r_DirectionType : RProg :=
  .once [.own [(nm! "wedge", 4, some 4), (nm! "dashes", 6, some 6), (nm! "bracket", 7, some 7), (nm! "pedal", 8, some 8), (nm! "metronome", 9, some 9), (nm! "octave-shift", 10, some 10), (nm! "harp-pedals", 11, some 11), (nm! "damp", 12, some 12), (nm! "damp-all", 13, some 13), (nm! "eyeglasses", 14, some 14), (nm! "string-mute", 15, some 15), (nm! "scordatura", 16, some 16), (nm! "image", 17, some 17), (nm! "principal-voice", 18, some 18), (nm! "accordion-registration", 19, some 19), (nm! "other-direction", 21, some 21)],
    .ownSet (nm! "rehearsal") 0 0, .ownSet (nm! "segno") 1 1, .ownSet (nm! "words") 2 2, .ownSet (nm! "coda") 3 3, .ownSet (nm! "dynamics") 5 5, .ownSet (nm! "percussion") 20 20] true

/-- `DisplayStepOctaveGroup::fromXElementImpl` private/mx/core/elements/DisplayStepOctaveGroup.cpp 85-121. -/
def r_DisplayStepOctaveGroup : RProg :=
  .loop none [.elem (nm! "display-step") 0 true,
    .elem (nm! "display-octave") 1 true,
    .stop 0] false []

/-- `DisplayTextOrAccidentalText::fromXElementImpl` private/mx/core/elements/DisplayTextOrAccidentalText.cpp 121-126. -/
def r_DisplayTextOrAccidentalText : RProg :=
  .pick [(nm! "display-text", 0, some 0), (nm! "accidental-text", 1, some 1)]

/-- `Dynamics::fromXElementImpl` private/mx/core/elements/Dynamics.cpp 92-117. -/
def r_Dynamics : RProg :=
  .once [.own [(nm! "p", 0, some 0), (nm! "pp", 1, some 1), (nm! "ppp", 2, some 2), (nm! "pppp", 3, some 3), (nm! "ppppp", 4, some 4), (nm! "pppppp", 5, some 5), (nm! "f", 6, some 6), (nm! "ff", 7, some 7), (nm! "fff", 8, some 8), (nm! "ffff", 9, some 9), (nm! "fffff", 10, some 10), (nm! "ffffff", 11, some 11), (nm! "mp", 12, some 12), (nm! "mf", 13, some 13), (nm! "sf", 14, some 14), (nm! "sfp", 15, some 15), (nm! "sfpp", 16, some 16), (nm! "fp", 17, some 17), (nm! "rf", 18, some 18), (nm! "rfz", 19, some 19), (nm! "sfz", 20, some 20), (nm! "sffz", 21, some 21), (nm! "fz", 22, some 22), (nm! "other-dynamics", 23, some 23)]] true

/-- `Encoding::fromXElementImpl` private/mx/core/elements/Encoding.cpp 95-108. -/
def r_Encoding : RProg :=
  .loop none [.each 0 [(nm! "encoding-date", 0, some 0), (nm! "encoder", 1, some 1), (nm! "software", 2, some 2), (nm! "encoding-description", 3, some 3), (nm! "supports", 4, some 4)]] true []

/-- `EncodingChoice::fromXElementImpl` private/mx/core/elements/EncodingChoice.cpp 178-186. -/
def r_EncodingChoice : RProg :=
  .pick [(nm! "encoding-date", 0, some 0), (nm! "encoder", 1, some 1), (nm! "software", 2, some 2), (nm! "encoding-description", 3, some 3), (nm! "supports", 4, some 4)]

/-- `Figure::fromXElementImpl` private/mx/core/elements/Figure.cpp 197-211. -/
def r_Figure : RProg :=
  .loop none [.elem (nm! "prefix") 0 true,
    .elem (nm! "figure-number") 1 true,
    .elem (nm! "suffix") 2 true,
    .elem (nm! "extend") 3 true] false []

/-- `FiguredBass::fromXElementImpl` private/mx/core/elements/FiguredBass.cpp 179-193. -/
def r_FiguredBass : RProg :=
  .loop none [.set (nm! "figure") 0 false,
    .elem (nm! "duration") 1 true,
    .group 2 p_EditorialGroup false] false []

/-- `Forward::fromXElementImpl` private/mx/core/elements/Forward.cpp 126-140. -/
def r_Forward : RProg :=
  .loop none [.elem (nm! "duration") 0 true,
    .group 1 p_EditorialVoiceGroup false,
    .elem (nm! "staff") 2 true] false []

/-- `Frame::fromXElementImpl` private/mx/core/elements/Frame.cpp 192-217. -/
def r_Frame : RProg :=
  .loop none [.elem (nm! "frame-strings") 0 true,
    .elem (nm! "frame-frets") 1 true,
    .elem (nm! "first-fret") 2 true,
    .set (nm! "frame-note") 3 false] false []

/-- `FrameNote::fromXElementImpl` private/mx/core/elements/FrameNote.cpp 158-182. -/
def r_FrameNote : RProg :=
  .loop none [.elem (nm! "string") 0 true,
    .elem (nm! "fret") 1 true,
    .elem (nm! "fingering") 2 true,
    .elem (nm! "barre") 3 true] false []

/-- `GroupAbbreviationDisplay::fromXElementImpl` private/mx/core/elements/GroupAbbreviationDisplay.cpp 123-137. -/
def r_GroupAbbreviationDisplay : RProg :=
  .loop none [.each 0 [(nm! "display-text", 0, some 0), (nm! "accidental-text", 1, some 1)]] true []

/-- `GroupNameDisplay::fromXElementImpl` private/mx/core/elements/GroupNameDisplay.cpp 123-137. -/
def r_GroupNameDisplay : RProg :=
  .loop none [.each 0 [(nm! "display-text", 0, some 0), (nm! "accidental-text", 1, some 1)]] true []

/-- `Grouping::fromXElementImpl` private/mx/core/elements/Grouping.cpp 120-132. -/
def r_Grouping : RProg :=
  .loop none [.set (nm! "feature") 0 false] false []

/-- `Harmonic::fromXElementImpl` private/mx/core/elements/Harmonic.cpp 148-189. -/
def r_Harmonic : RProg :=
  .loop none [.sub 0 [(nm! "natural", 0, some 0), (nm! "artificial", 1, some 1)] true,
    .sub 1 [(nm! "base-pitch", 0, some 0), (nm! "touching-pitch", 1, some 1), (nm! "sounding-pitch", 2, some 2)] true] false []

/-- `Harmony::fromXElementImpl` private/mx/core/elements/Harmony.cpp 252-336. -/
def r_Harmony : RProg :=
  .loop none [.chords,
    .elem (nm! "frame") 1 true,
    .elem (nm! "offset") 2 true,
    .group 3 p_EditorialGroup false,
    .elem (nm! "staff") 4 true] false [nm! "root", nm! "function"]

/-- `HarpPedals::fromXElementImpl` private/mx/core/elements/HarpPedals.cpp 119-131. -/
def r_HarpPedals : RProg :=
  .loop none [.set (nm! "pedal-tuning") 0 false] false []

/-- `Hole::fromXElementImpl` private/mx/core/elements/Hole.cpp 155-174. -/
def r_Hole : RProg :=
  .loop none [.elem (nm! "hole-type") 0 true,
    .elem (nm! "hole-closed") 1 true,
    .elem (nm! "hole-shape") 2 true] false []

/-- `Identification::fromXElementImpl` private/mx/core/elements/Identification.cpp 308-324. -/
def r_Identification : RProg :=
  .loop none [.set (nm! "creator") 0 false,
    .set (nm! "rights") 1 false,
    .elem (nm! "encoding") 2 true,
    .elem (nm! "source") 3 true,
    .set (nm! "relation") 4 false,
    .elem (nm! "miscellaneous") 5 true] false []

/-- `Interchangeable::fromXElementImpl` private/mx/core/elements/Interchangeable.cpp 139-165. -/
def r_Interchangeable : RProg :=
  .loop none [.elem (nm! "time-relation") 0 true,
    .elem (nm! "beats") 1 true,
    .elem (nm! "beat-type") 2 true] false []

/-- `Key::fromXElementImpl` private/mx/core/elements/Key.cpp 149-163. -/
def r_Key : RProg :=
  .loop none [.oldKey,
    .newKey,
    .set (nm! "key-octave") 1 true] false []

/-- `Lyric::fromXElementImpl` private/mx/core/elements/Lyric.cpp 184-225. -/
def r_Lyric : RProg :=
  .loop none [.sub 0 [(nm! "extend", 1, some 1), (nm! "laughing", 2, some 2), (nm! "humming", 3, some 3)] true,
    .syllables,
    .elem (nm! "end-line") 1 true,
    .elem (nm! "end-paragraph") 2 true,
    .group 3 p_EditorialGroup false] false []

/-- `MeasureLayout::fromXElementImpl` private/mx/core/elements/MeasureLayout.cpp 89-100. -/
def r_MeasureLayout : RProg :=
  .loop none [.elem (nm! "measure-distance") 0 true] false []

/-- `MeasureStyle::fromXElementImpl` private/mx/core/elements/MeasureStyle.cpp 85-95. -/
def r_MeasureStyle : RProg :=
  .loop none [.sub 0 [(nm! "multiple-rest", 0, some 0), (nm! "measure-repeat", 1, some 1), (nm! "beat-repeat", 2, some 2), (nm! "slash", 3, some 3)] true] true []

/-- `MeasureStyleChoice::fromXElementImpl` private/mx/core/elements/MeasureStyleChoice.cpp 148-155. -/
def r_MeasureStyleChoice : RProg :=
  .pick [(nm! "multiple-rest", 0, some 0), (nm! "measure-repeat", 1, some 1), (nm! "beat-repeat", 2, some 2), (nm! "slash", 3, some 3)]

/-- `Metronome::fromXElementImpl` private/mx/core/elements/Metronome.cpp 105-212. -/
def r_Metronome : RProg :=
  .loop none [.metronome] false []

/-- `MetronomeNote::fromXElementImpl` private/mx/core/elements/MetronomeNote.cpp 198-217. -/
def r_MetronomeNote : RProg :=
  .loop none [.elem (nm! "metronome-type") 0 true,
    .set (nm! "metronome-dot") 1 false,
    .set (nm! "metronome-beam") 2 false,
    .elem (nm! "metronome-tuplet") 3 true] false []

/-- `MetronomeTuplet::fromXElementImpl` private/mx/core/elements/MetronomeTuplet.cpp 139-163. -/
def r_MetronomeTuplet : RProg :=
  .loop none [.elem (nm! "actual-notes") 0 true,
    .elem (nm! "normal-notes") 1 true,
    .elem (nm! "") 2 true] false []

/-- `MidiInstrument::fromXElementImpl` private/mx/core/elements/MidiInstrument.cpp 360-379. -/
def r_MidiInstrument : RProg :=
  .loop none [.elem (nm! "midi-channel") 0 true,
    .elem (nm! "midi-name") 1 true,
    .elem (nm! "midi-bank") 2 true,
    .elem (nm! "midi-program") 3 true,
    .elem (nm! "midi-unpitched") 4 true,
    .elem (nm! "volume") 5 true,
    .elem (nm! "pan") 6 true,
    .elem (nm! "elevation") 7 true] false []

/-- `Miscellaneous::fromXElementImpl` private/mx/core/elements/Miscellaneous.cpp 104-115. -/
def r_Miscellaneous : RProg :=
  .loop none [.set (nm! "miscellaneous-field") 0 false] false []

/-- `NonTraditionalKey::fromXElementImpl` private/mx/core/elements/NonTraditionalKey.cpp 126-149. -/
def r_NonTraditionalKey : RProg :=
  .loop none [.elem (nm! "key-step") 0 true,
    .elem (nm! "key-alter") 1 true,
    .elem (nm! "key-accidental") 2 true] false []

/-- `NormalTypeNormalDotGroup::fromXElementImpl` private/mx/core/elements/NormalTypeNormalDotGroup.cpp 113-155. -/
def r_NormalTypeNormalDotGroup : RProg :=
  .loop none [.elem (nm! "normal-type") 0 true,
    .item (nm! "normal-dot") 1,
    .stop 0] false []

/-- `Notations::fromXElementImpl` private/mx/core/elements/Notations.cpp 158-283. -/
def r_Notations : RProg :=
  .loop none [.sub 0 [(nm! "footnote", 0, none), (nm! "level", 1, none)] true,
    .each 1 [(nm! "tied", 0, some 0), (nm! "tuplet", 2, some 2), (nm! "slur", 1, some 1), (nm! "glissando", 3, some 3), (nm! "slide", 4, some 4), (nm! "ornaments", 5, some 5), (nm! "technical", 6, some 6), (nm! "articulations", 7, some 7), (nm! "dynamics", 8, some 8), (nm! "fermata", 9, some 9), (nm! "arpeggiate", 10, some 10), (nm! "non-arpeggiate", 11, some 11), (nm! "accidental-mark", 12, some 12), (nm! "other-notations", 13, some 13)]] true []

/-- `Note::fromXElementImpl` private/mx/core/elements/Note.cpp 652-807. -/
def r_Note : RProg :=
  .loop none [.noteChoice,
    .elem (nm! "instrument") 1 true,
    .sub 2 [(nm! "footnote", 0, none), (nm! "level", 1, none), (nm! "voice", 2, none)] true,
    .elem (nm! "type") 3 true,
    .item (nm! "dot") 4,
    .elem (nm! "accidental") 5 true,
    .elem (nm! "time-modification") 6 true,
    .elem (nm! "stem") 7 true,
    .elem (nm! "notehead") 8 true,
    .elem (nm! "notehead-text") 9 true,
    .elem (nm! "staff") 10 true,
    .item (nm! "beam") 11,
    .item (nm! "notations") 12,
    .item (nm! "lyric") 13,
    .elem (nm! "play") 14 true] true [nm! "pitch", nm! "unpitched", nm! "rest", nm! "chord", nm! "grace", nm! "cue"]

/-- `NoteRelationNote::fromXElementImpl` private/mx/core/elements/NoteRelationNote.cpp 131-143. -/
def r_NoteRelationNote : RProg :=
  .loop none [.item (nm! "metronome-note") 0,
    .sub 1 [(nm! "metronome-relation-group", 0, none)] true] false []

/-- `NoteheadText::fromXElementImpl` private/mx/core/elements/NoteheadText.cpp 92-139. -/
def r_NoteheadText : RProg :=
  .loop none [.selfItem (nm! "accidental-text") 0 (1, some 1),
    .selfItem (nm! "display-text") 0 (0, some 0)] false []

/-- `NoteheadTextChoice::fromXElementImpl` private/mx/core/elements/NoteheadTextChoice.cpp 108-126. -/
def r_NoteheadTextChoice : RProg :=
  .pick [(nm! "display-text", 0, some 0), (nm! "accidental-text", 1, some 1)]

/-- `Ornaments::fromXElementImpl` private/mx/core/elements/Ornaments.cpp 166-185. -/
def r_Ornaments : RProg :=
  .loop none [.each 0 [(nm! "trill-mark", 0, some 0), (nm! "turn", 1, some 1), (nm! "delayed-turn", 2, some 2), (nm! "inverted-turn", 3, some 3), (nm! "delayed-inverted-turn", 4, some 4), (nm! "vertical-turn", 5, some 5), (nm! "shake", 6, some 6), (nm! "wavy-line", 7, some 7), (nm! "mordent", 8, some 8), (nm! "inverted-mordent", 9, some 9), (nm! "schleifer", 10, some 10), (nm! "tremolo", 11, some 11), (nm! "other-ornament", 12, some 12)],
    .set (nm! "accidental-mark") 1 true] false []

/-- `OrnamentsChoice::fromXElementImpl` private/mx/core/elements/OrnamentsChoice.cpp 353-431. -/
def r_OrnamentsChoice : RProg :=
  .pick [(nm! "trill-mark", 0, some 0), (nm! "turn", 1, some 1), (nm! "delayed-turn", 2, some 2), (nm! "inverted-turn", 3, some 3), (nm! "delayed-inverted-turn", 4, some 4), (nm! "vertical-turn", 5, some 5), (nm! "shake", 6, some 6), (nm! "wavy-line", 7, some 7), (nm! "mordent", 8, some 8), (nm! "inverted-mordent", 9, some 9), (nm! "schleifer", 10, some 10), (nm! "tremolo", 11, some 11), (nm! "other-ornament", 12, some 12)]

/-- `PageLayout::fromXElementImpl` private/mx/core/elements/PageLayout.cpp 138-161. -/
def r_PageLayout : RProg :=
  .loop none [.elem (nm! "page-height") 0 true,
    .elem (nm! "page-width") 1 true,
    .set (nm! "page-margins") 2 false] false []

/-- `PageMargins::fromXElementImpl` private/mx/core/elements/PageMargins.cpp 142-177. -/
def r_PageMargins : RProg :=
  .loop none [.elem (nm! "left-margin") 0 true,
    .elem (nm! "right-margin") 1 true,
    .elem (nm! "top-margin") 2 true,
    .elem (nm! "bottom-margin") 3 true] false []

/-- `PartAbbreviationDisplay::fromXElementImpl` private/mx/core/elements/PartAbbreviationDisplay.cpp 126-140. -/
def r_PartAbbreviationDisplay : RProg :=
  .loop none [.each 0 [(nm! "display-text", 0, some 0), (nm! "accidental-text", 1, some 1)]] true []

/-- `PartGroup::fromXElementImpl` private/mx/core/elements/PartGroup.cpp 347-366. -/
def r_PartGroup : RProg :=
  .loop none [.elem (nm! "group-name") 0 true,
    .elem (nm! "group-name-display") 1 true,
    .elem (nm! "group-abbreviation") 2 true,
    .elem (nm! "group-abbreviation-display") 3 true,
    .elem (nm! "group-symbol") 4 true,
    .elem (nm! "group-barline") 5 true,
    .elem (nm! "group-time") 6 true,
    .group 7 p_EditorialGroup false] false []

/-- `PartList::fromXElementImpl` private/mx/core/elements/PartList.cpp 163-215. -/
def r_PartList : RProg :=
  .loop none [.partList] false []

/-- `PartNameDisplay::fromXElementImpl` private/mx/core/elements/PartNameDisplay.cpp 126-140. -/
def r_PartNameDisplay : RProg :=
  .loop none [.each 0 [(nm! "display-text", 0, some 0), (nm! "accidental-text", 1, some 1)]] true []

/-- `PartwiseMeasure::fromXElementImpl` private/mx/core/elements/PartwiseMeasure.cpp 108-221. -/
def r_PartwiseMeasure : RProg :=
  .loop none [.music [(nm! "note", 0, some 0), (nm! "backup", 1, some 1), (nm! "forward", 2, some 2), (nm! "direction", 3, some 3), (nm! "attributes", 4, some 4), (nm! "harmony", 5, some 5), (nm! "figured-bass", 6, some 6), (nm! "print", 7, some 7), (nm! "sound", 8, some 8), (nm! "barline", 9, some 9), (nm! "grouping", 10, some 10), (nm! "link", 11, some 11), (nm! "bookmark", 12, some 12)]] false []

/-- `PartwisePart::fromXElementImpl` private/mx/core/elements/PartwisePart.cpp 125-156. -/
def r_PartwisePart : RProg :=
  .loop none [.item (nm! "measure") 0] true []

/-- `PedalTuning::fromXElementImpl` private/mx/core/elements/PedalTuning.cpp 88-110. -/
def r_PedalTuning : RProg :=
  .loop none [.elem (nm! "pedal-step") 0 true,
    .elem (nm! "pedal-alter") 1 true] false []

/-- `PerMinuteOrBeatUnitChoice::fromXElementImpl` private/mx/core/elements/PerMinuteOrBeatUnitChoice.cpp 110-115. -/
def r_PerMinuteOrBeatUnitChoice : RProg :=
  .pick [(nm! "per-minute", 0, some 0), (nm! "beat-unit-group", 1, some 1)]

/-- `Percussion::fromXElementImpl` private/mx/core/elements/Percussion.cpp 85-91. -/
def r_Percussion : RProg :=
  .loop (some 0) [] false []

/-- `PercussionChoice::fromXElementImpl` private/mx/core/elements/PercussionChoice.cpp 354-435. -/
def r_PercussionChoice : RProg :=
  .pick [(nm! "glass", 0, some 0), (nm! "metal", 1, some 1), (nm! "wood", 2, some 2), (nm! "pitched", 3, some 3), (nm! "membrane", 4, some 4), (nm! "effect", 5, some 5), (nm! "timpani", 6, some 6), (nm! "beater", 7, some 7), (nm! "stick", 8, some 8), (nm! "stick-type", 9, some 9), (nm! "stick-material", 10, some 10), (nm! "stick-location", 11, some 11), (nm! "other-percussion", 12, some 12)]

/-- `Pitch::fromXElementImpl` private/mx/core/elements/Pitch.cpp 123-148. -/
def r_Pitch : RProg :=
  .loop none [.elem (nm! "step") 0 true,
    .elem (nm! "alter") 1 true,
    .elem (nm! "octave") 2 true] false []

/-- `Play::fromXElementImpl` private/mx/core/elements/Play.cpp 173-198. -/
def r_Play : RProg :=
  .pick [(nm! "ipa", 0, some 0), (nm! "mute", 1, some 1), (nm! "semi-pitched", 2, some 2), (nm! "other-play", 3, some 3)]

/-- `Print::fromXElementImpl` private/mx/core/elements/Print.cpp 239-255. -/
def r_Print : RProg :=
  .loop none [.group 0 p_LayoutGroup true,
    .elem (nm! "measure-layout") 1 true,
    .elem (nm! "measure-numbering") 2 true,
    .elem (nm! "part-name-display") 3 true,
    .elem (nm! "part-abbreviation-display") 4 true] false []

/-- `Properties::fromXElementImpl` private/mx/core/elements/Properties.cpp 561-597. -/
def r_Properties : RProg :=
  .loop none [.sub 0 [(nm! "footnote", 0, none), (nm! "level", 1, none)] false,
    .elem (nm! "divisions") 1 true,
    .set (nm! "key") 2 true,
    .set (nm! "time") 3 true,
    .elem (nm! "staves") 4 true,
    .elem (nm! "part-symbol") 5 true,
    .elem (nm! "instruments") 6 true,
    .set (nm! "clef") 7 true,
    .set (nm! "staff-details") 8 true,
    .set (nm! "transpose") 9 true,
    .set (nm! "directive") 10 true,
    .set (nm! "measure-style") 11 true] false []

/-- `Rest::fromXElementImpl` private/mx/core/elements/Rest.cpp 105-114. -/
def r_Rest : RProg :=
  .once [.group 0 p_DisplayStepOctaveGroup true] false

/-- `Root::fromXElementImpl` private/mx/core/elements/Root.cpp 104-121. -/
def r_Root : RProg :=
  .loop none [.elem (nm! "root-step") 0 true,
    .elem (nm! "root-alter") 1 true] false []

/-- `Scaling::fromXElementImpl` private/mx/core/elements/Scaling.cpp 88-110. -/
def r_Scaling : RProg :=
  .loop none [.elem (nm! "millimeters") 0 true,
    .elem (nm! "tenths") 1 true] false []

/-- `Scordatura::fromXElementImpl` private/mx/core/elements/Scordatura.cpp 103-114. -/
def r_Scordatura : RProg :=
  .loop none [.set (nm! "accord") 0 false] false []

/-- `ScoreHeaderGroup::fromXElementImpl` private/mx/core/elements/ScoreHeaderGroup.cpp 317-385. -/
def r_ScoreHeaderGroup : RProg :=
  .loop none [.elem (nm! "work") 0 true,
    .elem (nm! "movement-number") 1 true,
    .elem (nm! "movement-title") 2 true,
    .elem (nm! "identification") 3 true,
    .elem (nm! "defaults") 4 true,
    .item (nm! "credit") 5,
    .elem (nm! "part-list") 6 true,
    .unless 6] false []

/-- `ScoreInstrument::fromXElementImpl` private/mx/core/elements/ScoreInstrument.cpp 227-262. -/
def r_ScoreInstrument : RProg :=
  .loop none [.elem (nm! "instrument-name") 0 true,
    .elem (nm! "instrument-abbreviation") 1 true,
    .elem (nm! "instrument-sound") 2 true,
    .sub 3 [(nm! "solo", 0, some 0), (nm! "ensemble", 1, some 1)] true,
    .elem (nm! "virtual-instrument") 4 true] false [nm! "instrument-name"]

/-- `ScorePart::fromXElementImpl` private/mx/core/elements/ScorePart.cpp 371-398. -/
def r_ScorePart : RProg :=
  .loop none [.elem (nm! "identification") 0 false,
    .elem (nm! "part-name") 1 false,
    .elem (nm! "part-name-display") 2 false,
    .elem (nm! "part-abbreviation") 3 false,
    .elem (nm! "part-abbreviation-display") 4 false,
    .set (nm! "group") 5 false,
    .set (nm! "score-instrument") 6 false,
    .midi 7] false []

/-- `ScorePartwise::fromXElementImpl` private/mx/core/elements/ScorePartwise.cpp 138-182. -/
def r_ScorePartwise : RProg :=
  .loop (some 0) [.item (nm! "part") 1] false []

/-- `ScoreTimewise::fromXElementImpl` private/mx/core/elements/ScoreTimewise.cpp 139-183. -/
def r_ScoreTimewise : RProg :=
  .loop (some 0) [.item (nm! "measure") 1] false []

/-- `Slash::fromXElementImpl` private/mx/core/elements/Slash.cpp 125-143. -/
def r_Slash : RProg :=
  .loop none [.elem (nm! "slash-type") 0 true,
    .set (nm! "slash-dot") 1 false] false []

/-- `Sound::fromXElementImpl` private/mx/core/elements/Sound.cpp 178-192. -/
def r_Sound : RProg :=
  .loop none [.elem (nm! "midi-device") 0 true,
    .elem (nm! "midi-instrument") 1 true,
    .elem (nm! "play") 2 true] false []

/-- `StaffDetails::fromXElementImpl` private/mx/core/elements/StaffDetails.cpp 254-270. -/
def r_StaffDetails : RProg :=
  .loop none [.elem (nm! "staff-type") 0 true,
    .elem (nm! "staff-lines") 1 true,
    .set (nm! "staff-tuning") 2 false,
    .elem (nm! "capo") 3 true,
    .elem (nm! "staff-size") 4 true] false []

/-- `StaffLayout::fromXElementImpl` private/mx/core/elements/StaffLayout.cpp 104-116. -/
def r_StaffLayout : RProg :=
  .loop none [.elem (nm! "staff-distance") 0 true] false []

/-- `StaffTuning::fromXElementImpl` private/mx/core/elements/StaffTuning.cpp 139-163. -/
def r_StaffTuning : RProg :=
  .loop none [.elem (nm! "tuning-step") 0 true,
    .elem (nm! "tuning-alter") 1 true,
    .elem (nm! "tuning-octave") 2 true] false []

/-- `Stick::fromXElementImpl` private/mx/core/elements/Stick.cpp 104-127. -/
def r_Stick : RProg :=
  .loop none [.elem (nm! "stick-type") 0 true,
    .elem (nm! "stick-material") 1 true] false []

/-- `SystemDividers::fromXElementImpl` private/mx/core/elements/SystemDividers.cpp 88-110. -/
def r_SystemDividers : RProg :=
  .loop none [.elem (nm! "left-divider") 0 true,
    .elem (nm! "right-divider") 1 true] false []

/-- `SystemLayout::fromXElementImpl` private/mx/core/elements/SystemLayout.cpp 196-210. -/
def r_SystemLayout : RProg :=
  .loop none [.elem (nm! "system-margins") 0 true,
    .elem (nm! "system-distance") 1 true,
    .elem (nm! "top-system-distance") 2 true,
    .elem (nm! "system-dividers") 3 true] false []

/-- `SystemMargins::fromXElementImpl` private/mx/core/elements/SystemMargins.cpp 88-110. -/
def r_SystemMargins : RProg :=
  .loop none [.elem (nm! "left-margin") 0 true,
    .elem (nm! "right-margin") 1 true] false []

/-- `Technical::fromXElementImpl` private/mx/core/elements/Technical.cpp 127-314. -/
def r_Technical : RProg :=
  .loop none [.each 0 [(nm! "up-bow", 0, some 0), (nm! "down-bow", 1, some 1), (nm! "harmonic", 2, some 2), (nm! "open-string", 3, some 3), (nm! "thumb-position", 4, some 4), (nm! "fingering", 5, some 5), (nm! "pluck", 6, some 6), (nm! "double-tongue", 7, some 7), (nm! "triple-tongue", 8, some 8), (nm! "stopped", 9, some 9), (nm! "snap-pizzicato", 10, some 10), (nm! "fret", 11, some 11), (nm! "string", 12, some 12), (nm! "hammer-on", 13, some 13), (nm! "pull-off", 14, some 14), (nm! "bend", 15, some 15), (nm! "tap", 16, some 16), (nm! "heel", 17, some 17), (nm! "toe", 18, some 18), (nm! "fingernails", 19, some 19), (nm! "hole", 20, some 20), (nm! "arrow", 21, some 21), (nm! "handbell", 22, some 22), (nm! "other-technical", 23, some 23)]] true []

/-- `Time::fromXElementImpl` private/mx/core/elements/Time.cpp 84-120. -/
def r_Time : RProg :=
  .loop none [.sub 0 [(nm! "senza-misura", 1, some 1)] true,
    .times] false []

/-- `TimeModification::fromXElementImpl` private/mx/core/elements/TimeModification.cpp 125-161. -/
def r_TimeModification : RProg :=
  .loop none [.elem (nm! "actual-notes") 0 true,
    .elem (nm! "normal-notes") 1 true,
    .sub 2 [(nm! "normal-type", 0, none)] false,
    .subAdd (nm! "normal-dot") 2 1] false []

/-- `TimeModificationNormalTypeNormalDot::fromXElementImpl` private/mx/core/elements/TimeModificationNormalTypeNormalDot.cpp 113-130. -/
def r_TimeModificationNormalTypeNormalDot : RProg :=
  .loop none [.elem (nm! "normal-type") 0 true,
    .set (nm! "normal-dot") 1 false] false []

/-- `TimewiseMeasure::fromXElementImpl` private/mx/core/elements/TimewiseMeasure.cpp 122-163. -/
def r_TimewiseMeasure : RProg :=
  .loop none [.item (nm! "part") 0] true [nm! "part"]

/-- `TimewisePart::fromXElementImpl` private/mx/core/elements/TimewisePart.cpp 107-207. -/
def r_TimewisePart : RProg :=
  .loop none [.music [(nm! "note", 0, some 0), (nm! "backup", 1, some 1), (nm! "forward", 2, some 2), (nm! "direction", 3, some 3), (nm! "attributes", 4, some 4), (nm! "harmony", 5, some 5), (nm! "figured-bass", 6, some 6), (nm! "print", 7, some 7), (nm! "sound", 8, some 8), (nm! "barline", 9, some 9), (nm! "grouping", 10, some 10), (nm! "link", 11, some 11), (nm! "bookmark", 12, some 12)]] false []

/-- `TraditionalKey::fromXElementImpl` private/mx/core/elements/TraditionalKey.cpp 140-158. -/
def r_TraditionalKey : RProg :=
  .loop none [.elem (nm! "cancel") 0 true,
    .elem (nm! "fifths") 1 true,
    .elem (nm! "mode") 2 true] false []

/-- `Transpose::fromXElementImpl` private/mx/core/elements/Transpose.cpp 190-210. -/
def r_Transpose : RProg :=
  .loop none [.elem (nm! "diatonic") 0 true,
    .elem (nm! "chromatic") 1 true,
    .elem (nm! "octave-change") 2 true,
    .elem (nm! "double") 3 true] false []

/-- `Tuplet::fromXElementImpl` private/mx/core/elements/Tuplet.cpp 139-152. -/
def r_Tuplet : RProg :=
  .loop none [.elem (nm! "tuplet-actual") 0 true,
    .elem (nm! "tuplet-normal") 1 true] false []

/-- `TupletActual::fromXElementImpl` private/mx/core/elements/TupletActual.cpp 174-187. -/
def r_TupletActual : RProg :=
  .loop none [.elem (nm! "tuplet-number") 0 true,
    .elem (nm! "tuplet-type") 1 true,
    .set (nm! "tuplet-dot") 2 false] false []

/-- `TupletNormal::fromXElementImpl` private/mx/core/elements/TupletNormal.cpp 174-187. -/
def r_TupletNormal : RProg :=
  .loop none [.elem (nm! "tuplet-number") 0 true,
    .elem (nm! "tuplet-type") 1 true,
    .set (nm! "tuplet-dot") 2 false] false []

/-- `Unpitched::fromXElementImpl` private/mx/core/elements/Unpitched.cpp 89-97. -/
def r_Unpitched : RProg :=
  .once [.group 0 p_DisplayStepOctaveGroup true] false

/-- `VirtualInstrument::fromXElementImpl` private/mx/core/elements/VirtualInstrument.cpp 123-135. -/
def r_VirtualInstrument : RProg :=
  .loop none [.elem (nm! "virtual-library") 0 true,
    .elem (nm! "virtual-name") 1 true] false []

/-- `Work::fromXElementImpl` private/mx/core/elements/Work.cpp 158-171. -/
def r_Work : RProg :=
  .loop none [.elem (nm! "work-number") 0 true,
    .elem (nm! "work-title") 1 true,
    .elem (nm! "opus") 2 true] false []

/-- The reader of each class. The objects of the remaining classes are read by the readers of their owners. -/
def prog : Cls → RProg
  | .Accord => r_Accord
  | .AccordionRegistration => r_AccordionRegistration
  | .Appearance => r_Appearance
  | .Arrow => r_Arrow
  | .ArrowGroup => r_ArrowGroup
  | .Articulations => r_Articulations
  | .ArticulationsChoice => r_ArticulationsChoice
  | .Backup => r_Backup
  | .Barline => r_Barline
  | .Bass => r_Bass
  | .BeatRepeat => r_BeatRepeat
  | .BeatUnitGroup => r_BeatUnitGroup
  | .BeatUnitPer => r_BeatUnitPer
  | .BeatUnitPerOrNoteRelationNoteChoice => r_BeatUnitPerOrNoteRelationNoteChoice
  | .Bend => r_Bend
  | .Clef => r_Clef
  | .Credit => r_Credit
  | .Defaults => r_Defaults
  | .Degree => r_Degree
  | .Direction => r_Direction
  | .DirectionType => r_DirectionType
  | .DisplayStepOctaveGroup => r_DisplayStepOctaveGroup
  | .DisplayTextOrAccidentalText => r_DisplayTextOrAccidentalText
  | .Dynamics => r_Dynamics
  | .Encoding => r_Encoding
  | .EncodingChoice => r_EncodingChoice
  | .Figure => r_Figure
  | .FiguredBass => r_FiguredBass
  | .Forward => r_Forward
  | .Frame => r_Frame
  | .FrameNote => r_FrameNote
  | .GroupAbbreviationDisplay => r_GroupAbbreviationDisplay
  | .GroupNameDisplay => r_GroupNameDisplay
  | .Grouping => r_Grouping
  | .Harmonic => r_Harmonic
  | .Harmony => r_Harmony
  | .HarpPedals => r_HarpPedals
  | .Hole => r_Hole
  | .Identification => r_Identification
  | .Interchangeable => r_Interchangeable
  | .Key => r_Key
  | .Lyric => r_Lyric
  | .MeasureLayout => r_MeasureLayout
  | .MeasureStyle => r_MeasureStyle
  | .MeasureStyleChoice => r_MeasureStyleChoice
  | .Metronome => r_Metronome
  | .MetronomeNote => r_MetronomeNote
  | .MetronomeTuplet => r_MetronomeTuplet
  | .MidiInstrument => r_MidiInstrument
  | .Miscellaneous => r_Miscellaneous
  | .NonTraditionalKey => r_NonTraditionalKey
  | .NormalTypeNormalDotGroup => r_NormalTypeNormalDotGroup
  | .Notations => r_Notations
  | .Note => r_Note
  | .NoteRelationNote => r_NoteRelationNote
  | .NoteheadText => r_NoteheadText
  | .NoteheadTextChoice => r_NoteheadTextChoice
  | .Ornaments => r_Ornaments
  | .OrnamentsChoice => r_OrnamentsChoice
  | .PageLayout => r_PageLayout
  | .PageMargins => r_PageMargins
  | .PartAbbreviationDisplay => r_PartAbbreviationDisplay
  | .PartGroup => r_PartGroup
  | .PartList => r_PartList
  | .PartNameDisplay => r_PartNameDisplay
  | .PartwiseMeasure => r_PartwiseMeasure
  | .PartwisePart => r_PartwisePart
  | .PedalTuning => r_PedalTuning
  | .PerMinuteOrBeatUnitChoice => r_PerMinuteOrBeatUnitChoice
  | .Percussion => r_Percussion
  | .PercussionChoice => r_PercussionChoice
  | .Pitch => r_Pitch
  | .Play => r_Play
  | .Print => r_Print
  | .Properties => r_Properties
  | .Rest => r_Rest
  | .Root => r_Root
  | .Scaling => r_Scaling
  | .Scordatura => r_Scordatura
  | .ScoreHeaderGroup => r_ScoreHeaderGroup
  | .ScoreInstrument => r_ScoreInstrument
  | .ScorePart => r_ScorePart
  | .ScorePartwise => r_ScorePartwise
  | .ScoreTimewise => r_ScoreTimewise
  | .Slash => r_Slash
  | .Sound => r_Sound
  | .StaffDetails => r_StaffDetails
  | .StaffLayout => r_StaffLayout
  | .StaffTuning => r_StaffTuning
  | .Stick => r_Stick
  | .SystemDividers => r_SystemDividers
  | .SystemLayout => r_SystemLayout
  | .SystemMargins => r_SystemMargins
  | .Technical => r_Technical
  | .Time => r_Time
  | .TimeModification => r_TimeModification
  | .TimeModificationNormalTypeNormalDot => r_TimeModificationNormalTypeNormalDot
  | .TimewiseMeasure => r_TimewiseMeasure
  | .TimewisePart => r_TimewisePart
  | .TraditionalKey => r_TraditionalKey
  | .Transpose => r_Transpose
  | .Tuplet => r_Tuplet
  | .TupletActual => r_TupletActual
  | .TupletNormal => r_TupletNormal
  | .Unpitched => r_Unpitched
  | .VirtualInstrument => r_VirtualInstrument
  | .Work => r_Work
  | _ => .unused

end Mx.Content
