import Verif.Spec.Regular

/-
The content models of Documents/musicxml.xsd: which children an element may have, in which order and how often.
Generated from the schema by a script. Types without child elements (simple content or none) have the empty list only.
-/
namespace Mx.Spec.Schema
open Re

/-- `dynamics`, Documents/musicxml.xsd 1991-2027. -/
def ct_dynamics : Re := .star (.alts [.sym (nm! "p"), .sym (nm! "pp"), .sym (nm! "ppp"), .sym (nm! "pppp"), .sym (nm! "ppppp"), .sym (nm! "pppppp"), .sym (nm! "f"),
  .sym (nm! "ff"), .sym (nm! "fff"), .sym (nm! "ffff"), .sym (nm! "fffff"), .sym (nm! "ffffff"), .sym (nm! "mp"), .sym (nm! "mf"), .sym (nm! "sf"),
  .sym (nm! "sfp"), .sym (nm! "sfpp"), .sym (nm! "fp"), .sym (nm! "rf"), .sym (nm! "rfz"), .sym (nm! "sfz"), .sym (nm! "sffz"), .sym (nm! "fz"),
  .sym (nm! "other-dynamics")])

/-- `midi-instrument`, Documents/musicxml.xsd 2157-2204. -/
def ct_midi_instrument : Re := .seqs [.opt (.sym (nm! "midi-channel")), .opt (.sym (nm! "midi-name")), .opt (.sym (nm! "midi-bank")), .opt (.sym (nm! "midi-program")),
  .opt (.sym (nm! "midi-unpitched")), .opt (.sym (nm! "volume")), .opt (.sym (nm! "pan")), .opt (.sym (nm! "elevation"))]

/-- `name-display`, Documents/musicxml.xsd 2206-2217. -/
def ct_name_display : Re := .star (.alts [.sym (nm! "display-text"), .sym (nm! "accidental-text")])

/-- `play`, Documents/musicxml.xsd 2230-2247. -/
def ct_play : Re := .star (.alts [.sym (nm! "ipa"), .sym (nm! "mute"), .sym (nm! "semi-pitched"), .sym (nm! "other-play")])

/-- `footnote`, Documents/musicxml.xsd 5049-5056. -/
def g_footnote : Re := .sym (nm! "footnote")

/-- `level`, Documents/musicxml.xsd 5058-5065. -/
def g_level : Re := .sym (nm! "level")

/-- `editorial`, Documents/musicxml.xsd 5017-5025. -/
def g_editorial : Re := .seqs [.opt g_footnote, .opt g_level]

/-- `attributes`, Documents/musicxml.xsd 2286-2368. -/
def ct_attributes : Re := .seqs [g_editorial, .opt (.sym (nm! "divisions")), .star (.sym (nm! "key")), .star (.sym (nm! "time")), .opt (.sym (nm! "staves")),
  .opt (.sym (nm! "part-symbol")), .opt (.sym (nm! "instruments")), .star (.sym (nm! "clef")), .star (.sym (nm! "staff-details")),
  .star (.sym (nm! "transpose")), .star (.sym (nm! "directive")), .star (.sym (nm! "measure-style"))]

/-- `slash`, Documents/musicxml.xsd 5137-5153. -/
def g_slash : Re := .seqs [.sym (nm! "slash-type"), .star (.sym (nm! "slash-dot"))]

/-- `beat-repeat`, Documents/musicxml.xsd 2370-2380. -/
def ct_beat_repeat : Re := .opt g_slash

/-- `clef`, Documents/musicxml.xsd 2393-2426. -/
def ct_clef : Re := .seqs [.sym (nm! "sign"), .opt (.sym (nm! "line")), .opt (.sym (nm! "clef-octave-change"))]

/-- `time-signature`, Documents/musicxml.xsd 5155-5171. -/
def g_time_signature : Re := .seqs [.sym (nm! "beats"), .sym (nm! "beat-type")]

/-- `interchangeable`, Documents/musicxml.xsd 2428-2438. -/
def ct_interchangeable : Re := .seqs [.opt (.sym (nm! "time-relation")), .plus g_time_signature]

/-- `traditional-key`, Documents/musicxml.xsd 5173-5182. -/
def g_traditional_key : Re := .seqs [.opt (.sym (nm! "cancel")), .sym (nm! "fifths"), .opt (.sym (nm! "mode"))]

/-- `non-traditional-key`, Documents/musicxml.xsd 5114-5135. -/
def g_non_traditional_key : Re := .seqs [.sym (nm! "key-step"), .sym (nm! "key-alter"), .opt (.sym (nm! "key-accidental"))]

/-- `key`, Documents/musicxml.xsd 2440-2458. -/
def ct_key : Re := .seqs [.alts [g_traditional_key, .star g_non_traditional_key], .star (.sym (nm! "key-octave"))]

/-- `measure-style`, Documents/musicxml.xsd 2486-2501. -/
def ct_measure_style : Re := .alts [.sym (nm! "multiple-rest"), .sym (nm! "measure-repeat"), .sym (nm! "beat-repeat"), .sym (nm! "slash")]

/-- `slash`, Documents/musicxml.xsd 2528-2536. -/
def ct_slash : Re := .opt g_slash

/-- `staff-details`, Documents/musicxml.xsd 2538-2565. -/
def ct_staff_details : Re := .seqs [.opt (.sym (nm! "staff-type")), .opt (.sym (nm! "staff-lines")), .star (.sym (nm! "staff-tuning")), .opt (.sym (nm! "capo")),
  .opt (.sym (nm! "staff-size"))]

/-- `tuning`, Documents/musicxml.xsd 5080-5101. -/
def g_tuning : Re := .seqs [.sym (nm! "tuning-step"), .opt (.sym (nm! "tuning-alter")), .sym (nm! "tuning-octave")]

/-- `staff-tuning`, Documents/musicxml.xsd 2567-2573. -/
def ct_staff_tuning : Re := g_tuning

/-- `time`, Documents/musicxml.xsd 2575-2597. -/
def ct_time : Re := .alts [.seqs [.plus g_time_signature, .opt (.sym (nm! "interchangeable"))], .sym (nm! "senza-misura")]

/-- `transpose`, Documents/musicxml.xsd 2599-2626. -/
def ct_transpose : Re := .seqs [.opt (.sym (nm! "diatonic")), .sym (nm! "chromatic"), .opt (.sym (nm! "octave-change")), .opt (.sym (nm! "double"))]

/-- `barline`, Documents/musicxml.xsd 2641-2661. -/
def ct_barline : Re := .seqs [.opt (.sym (nm! "bar-style")), g_editorial, .opt (.sym (nm! "wavy-line")), .opt (.sym (nm! "segno")), .opt (.sym (nm! "coda")),
  .rep 0 (some 2) (.sym (nm! "fermata")), .opt (.sym (nm! "ending")), .opt (.sym (nm! "repeat"))]

/-- `accord`, Documents/musicxml.xsd 2693-2699. -/
def ct_accord : Re := g_tuning

/-- `accordion-registration`, Documents/musicxml.xsd 2701-2723. -/
def ct_accordion_registration : Re := .seqs [.opt (.sym (nm! "accordion-high")), .opt (.sym (nm! "accordion-middle")), .opt (.sym (nm! "accordion-low"))]

/-- `bass`, Documents/musicxml.xsd 2733-2741. -/
def ct_bass : Re := .seqs [.sym (nm! "bass-step"), .opt (.sym (nm! "bass-alter"))]

/-- `degree`, Documents/musicxml.xsd 2804-2816. -/
def ct_degree : Re := .seqs [.sym (nm! "degree-value"), .sym (nm! "degree-alter"), .sym (nm! "degree-type")]

/-- `voice`, Documents/musicxml.xsd 5103-5110. -/
def g_voice : Re := .sym (nm! "voice")

/-- `editorial-voice-direction`, Documents/musicxml.xsd 5038-5047. -/
def g_editorial_voice_direction : Re := .seqs [.opt g_footnote, .opt g_level, .opt g_voice]

/-- `staff`, Documents/musicxml.xsd 5067-5078. -/
def g_staff : Re := .sym (nm! "staff")

/-- `direction`, Documents/musicxml.xsd 2855-2870. -/
def ct_direction : Re := .seqs [.plus (.sym (nm! "direction-type")), .opt (.sym (nm! "offset")), g_editorial_voice_direction, .opt g_staff, .opt (.sym (nm! "sound"))]

/-- `direction-type`, Documents/musicxml.xsd 2872-2928. -/
def ct_direction_type : Re := .alts [.plus (.sym (nm! "rehearsal")), .plus (.sym (nm! "segno")), .plus (.sym (nm! "words")), .plus (.sym (nm! "coda")), .sym (nm! "wedge"),
  .plus (.sym (nm! "dynamics")), .sym (nm! "dashes"), .sym (nm! "bracket"), .sym (nm! "pedal"), .sym (nm! "metronome"), .sym (nm! "octave-shift"),
  .sym (nm! "harp-pedals"), .sym (nm! "damp"), .sym (nm! "damp-all"), .sym (nm! "eyeglasses"), .sym (nm! "string-mute"), .sym (nm! "scordatura"),
  .sym (nm! "image"), .sym (nm! "principal-voice"), .sym (nm! "accordion-registration"), .plus (.sym (nm! "percussion")), .sym (nm! "other-direction")]

/-- `frame`, Documents/musicxml.xsd 2953-2978. -/
def ct_frame : Re := .seqs [.sym (nm! "frame-strings"), .sym (nm! "frame-frets"), .opt (.sym (nm! "first-fret")), .plus (.sym (nm! "frame-note"))]

/-- `frame-note`, Documents/musicxml.xsd 2980-2990. -/
def ct_frame_note : Re := .seqs [.sym (nm! "string"), .sym (nm! "fret"), .opt (.sym (nm! "fingering")), .opt (.sym (nm! "barre"))]

/-- `grouping`, Documents/musicxml.xsd 2992-3004. -/
def ct_grouping : Re := .star (.sym (nm! "feature"))

/-- `harmony-chord`, Documents/musicxml.xsd 5204-5224. -/
def g_harmony_chord : Re := .seqs [.alts [.sym (nm! "root"), .sym (nm! "function")], .sym (nm! "kind"), .opt (.sym (nm! "inversion")), .opt (.sym (nm! "bass")),
  .star (.sym (nm! "degree"))]

/-- `harmony`, Documents/musicxml.xsd 3006-3026. -/
def ct_harmony : Re := .seqs [.plus g_harmony_chord, .opt (.sym (nm! "frame")), .opt (.sym (nm! "offset")), g_editorial, .opt g_staff]

/-- `harp-pedals`, Documents/musicxml.xsd 3028-3036. -/
def ct_harp_pedals : Re := .plus (.sym (nm! "pedal-tuning"))

/-- `beat-unit`, Documents/musicxml.xsd 5186-5202. -/
def g_beat_unit : Re := .seqs [.sym (nm! "beat-unit"), .star (.sym (nm! "beat-unit-dot"))]

/-- `metronome`, Documents/musicxml.xsd 3099-3126. -/
def ct_metronome : Re := .alts [.seqs [g_beat_unit, .alts [.sym (nm! "per-minute"), g_beat_unit]], .seqs [.plus (.sym (nm! "metronome-note")),
  .opt (.seqs [.sym (nm! "metronome-relation"), .plus (.sym (nm! "metronome-note"))])]]

/-- `metronome-note`, Documents/musicxml.xsd 3139-3157. -/
def ct_metronome_note : Re := .seqs [.sym (nm! "metronome-type"), .star (.sym (nm! "metronome-dot")), .star (.sym (nm! "metronome-beam")), .opt (.sym (nm! "metronome-tuplet"))]

/-- `time-modification`, Documents/musicxml.xsd 4614-4642. -/
def ct_time_modification : Re := .seqs [.sym (nm! "actual-notes"), .sym (nm! "normal-notes"), .opt (.seqs [.sym (nm! "normal-type"), .star (.sym (nm! "normal-dot"))])]

/-- `metronome-tuplet`, Documents/musicxml.xsd 3159-3170. -/
def ct_metronome_tuplet : Re := ct_time_modification

/-- `pedal-tuning`, Documents/musicxml.xsd 3216-3232. -/
def ct_pedal_tuning : Re := .seqs [.sym (nm! "pedal-step"), .sym (nm! "pedal-alter")]

/-- `percussion`, Documents/musicxml.xsd 3245-3264. -/
def ct_percussion : Re := .alts [.sym (nm! "glass"), .sym (nm! "metal"), .sym (nm! "wood"), .sym (nm! "pitched"), .sym (nm! "membrane"), .sym (nm! "effect"),
  .sym (nm! "timpani"), .sym (nm! "beater"), .sym (nm! "stick"), .sym (nm! "stick-location"), .sym (nm! "other-percussion")]

/-- `layout`, Documents/musicxml.xsd 5239-5248. -/
def g_layout : Re := .seqs [.opt (.sym (nm! "page-layout")), .opt (.sym (nm! "system-layout")), .star (.sym (nm! "staff-layout"))]

/-- `print`, Documents/musicxml.xsd 3279-3293. -/
def ct_print : Re := .seqs [g_layout, .opt (.sym (nm! "measure-layout")), .opt (.sym (nm! "measure-numbering")), .opt (.sym (nm! "part-name-display")),
  .opt (.sym (nm! "part-abbreviation-display"))]

/-- `root`, Documents/musicxml.xsd 3295-3303. -/
def ct_root : Re := .seqs [.sym (nm! "root-step"), .opt (.sym (nm! "root-alter"))]

/-- `scordatura`, Documents/musicxml.xsd 3330-3337. -/
def ct_scordatura : Re := .plus (.sym (nm! "accord"))

/-- `sound`, Documents/musicxml.xsd 3339-3394. -/
def ct_sound : Re := .seqs [.star (.seqs [.opt (.sym (nm! "midi-device")), .opt (.sym (nm! "midi-instrument")), .opt (.sym (nm! "play"))]), .opt (.sym (nm! "offset"))]

/-- `stick`, Documents/musicxml.xsd 3396-3405. -/
def ct_stick : Re := .seqs [.sym (nm! "stick-type"), .sym (nm! "stick-material")]

/-- `encoding`, Documents/musicxml.xsd 3431-3442. -/
def ct_encoding : Re := .star (.alts [.sym (nm! "encoding-date"), .sym (nm! "encoder"), .sym (nm! "software"), .sym (nm! "encoding-description"), .sym (nm! "supports")])

/-- `identification`, Documents/musicxml.xsd 3444-3472. -/
def ct_identification : Re := .seqs [.star (.sym (nm! "creator")), .star (.sym (nm! "rights")), .opt (.sym (nm! "encoding")), .opt (.sym (nm! "source")),
  .star (.sym (nm! "relation")), .opt (.sym (nm! "miscellaneous"))]

/-- `miscellaneous`, Documents/musicxml.xsd 3474-3481. -/
def ct_miscellaneous : Re := .star (.sym (nm! "miscellaneous-field"))

/-- `appearance`, Documents/musicxml.xsd 3506-3516. -/
def ct_appearance : Re := .seqs [.star (.sym (nm! "line-width")), .star (.sym (nm! "note-size")), .star (.sym (nm! "distance")), .star (.sym (nm! "other-appearance"))]

/-- `measure-layout`, Documents/musicxml.xsd 3540-3551. -/
def ct_measure_layout : Re := .opt (.sym (nm! "measure-distance"))

/-- `page-layout`, Documents/musicxml.xsd 3575-3586. -/
def ct_page_layout : Re := .seqs [.opt (.seqs [.sym (nm! "page-height"), .sym (nm! "page-width")]), .rep 0 (some 2) (.sym (nm! "page-margins"))]

/-- `left-right-margins`, Documents/musicxml.xsd 5250-5258. -/
def g_left_right_margins : Re := .seqs [.sym (nm! "left-margin"), .sym (nm! "right-margin")]

/-- `all-margins`, Documents/musicxml.xsd 5228-5237. -/
def g_all_margins : Re := .seqs [g_left_right_margins, .sym (nm! "top-margin"), .sym (nm! "bottom-margin")]

/-- `page-margins`, Documents/musicxml.xsd 3588-3594. -/
def ct_page_margins : Re := g_all_margins

/-- `scaling`, Documents/musicxml.xsd 3596-3604. -/
def ct_scaling : Re := .seqs [.sym (nm! "millimeters"), .sym (nm! "tenths")]

/-- `staff-layout`, Documents/musicxml.xsd 3606-3614. -/
def ct_staff_layout : Re := .opt (.sym (nm! "staff-distance"))

/-- `system-dividers`, Documents/musicxml.xsd 3616-3626. -/
def ct_system_dividers : Re := .seqs [.sym (nm! "left-divider"), .sym (nm! "right-divider")]

/-- `system-layout`, Documents/musicxml.xsd 3628-3640. -/
def ct_system_layout : Re := .seqs [.opt (.sym (nm! "system-margins")), .opt (.sym (nm! "system-distance")), .opt (.sym (nm! "top-system-distance")),
  .opt (.sym (nm! "system-dividers"))]

/-- `system-margins`, Documents/musicxml.xsd 3642-3647. -/
def ct_system_margins : Re := g_left_right_margins

/-- `articulations`, Documents/musicxml.xsd 3709-3791. -/
def ct_articulations : Re := .star (.alts [.sym (nm! "accent"), .sym (nm! "strong-accent"), .sym (nm! "staccato"), .sym (nm! "tenuto"), .sym (nm! "detached-legato"),
  .sym (nm! "staccatissimo"), .sym (nm! "spiccato"), .sym (nm! "scoop"), .sym (nm! "plop"), .sym (nm! "doit"), .sym (nm! "falloff"),
  .sym (nm! "breath-mark"), .sym (nm! "caesura"), .sym (nm! "stress"), .sym (nm! "unstress"), .sym (nm! "other-articulation")])

/-- `arrow`, Documents/musicxml.xsd 3793-3806. -/
def ct_arrow : Re := .alts [.seqs [.sym (nm! "arrow-direction"), .opt (.sym (nm! "arrow-style"))], .sym (nm! "circular-arrow")]

/-- `duration`, Documents/musicxml.xsd 5262-5273. -/
def g_duration : Re := .sym (nm! "duration")

/-- `backup`, Documents/musicxml.xsd 3808-3816. -/
def ct_backup : Re := .seqs [g_duration, g_editorial]

/-- `bend`, Documents/musicxml.xsd 3838-3868. -/
def ct_bend : Re := .seqs [.sym (nm! "bend-alter"), .opt (.alts [.sym (nm! "pre-bend"), .sym (nm! "release")]), .opt (.sym (nm! "with-bar"))]

/-- `figure`, Documents/musicxml.xsd 3901-3923. -/
def ct_figure : Re := .seqs [.opt (.sym (nm! "prefix")), .opt (.sym (nm! "figure-number")), .opt (.sym (nm! "suffix")), .opt (.sym (nm! "extend"))]

/-- `figured-bass`, Documents/musicxml.xsd 3925-3939. -/
def ct_figured_bass : Re := .seqs [.plus (.sym (nm! "figure")), .opt g_duration, g_editorial]

/-- `editorial-voice`, Documents/musicxml.xsd 5027-5036. -/
def g_editorial_voice : Re := .seqs [.opt g_footnote, .opt g_level, .opt g_voice]

/-- `forward`, Documents/musicxml.xsd 3941-3950. -/
def ct_forward : Re := .seqs [g_duration, g_editorial_voice, .opt g_staff]

/-- `harmonic`, Documents/musicxml.xsd 4003-4041. -/
def ct_harmonic : Re := .seqs [.opt (.alts [.sym (nm! "natural"), .sym (nm! "artificial")]), .opt (.alts [.sym (nm! "base-pitch"), .sym (nm! "touching-pitch"),
  .sym (nm! "sounding-pitch")])]

/-- `hole`, Documents/musicxml.xsd 4054-4073. -/
def ct_hole : Re := .seqs [.opt (.sym (nm! "hole-type")), .sym (nm! "hole-closed"), .opt (.sym (nm! "hole-shape"))]

/-- `lyric`, Documents/musicxml.xsd 4093-4142. -/
def ct_lyric : Re := .seqs [.alts [.seqs [.opt (.sym (nm! "syllabic")), .sym (nm! "text"), .star (.seqs [.opt (.seqs [.sym (nm! "elision"), .opt (.sym (nm! "syllabic"))]),
  .sym (nm! "text")]), .opt (.sym (nm! "extend"))], .sym (nm! "extend"), .sym (nm! "laughing"), .sym (nm! "humming")], .opt (.sym (nm! "end-line")),
  .opt (.sym (nm! "end-paragraph")), g_editorial]

/-- `notations`, Documents/musicxml.xsd 4168-4192. -/
def ct_notations : Re := .seqs [g_editorial, .star (.alts [.sym (nm! "tied"), .sym (nm! "slur"), .sym (nm! "tuplet"), .sym (nm! "glissando"), .sym (nm! "slide"),
  .sym (nm! "ornaments"), .sym (nm! "technical"), .sym (nm! "articulations"), .sym (nm! "dynamics"), .sym (nm! "fermata"), .sym (nm! "arpeggiate"),
  .sym (nm! "non-arpeggiate"), .sym (nm! "accidental-mark"), .sym (nm! "other-notation")])]

/-- `full-note`, Documents/musicxml.xsd 5285-5301. -/
def g_full_note : Re := .seqs [.opt (.sym (nm! "chord")), .alts [.sym (nm! "pitch"), .sym (nm! "unpitched"), .sym (nm! "rest")]]

/-- `note`, Documents/musicxml.xsd 4194-4251. -/
def ct_note : Re := .seqs [.alts [.seqs [.sym (nm! "grace"), g_full_note, .rep 0 (some 2) (.sym (nm! "tie"))], .seqs [.sym (nm! "cue"), g_full_note, g_duration],
  .seqs [g_full_note, g_duration, .rep 0 (some 2) (.sym (nm! "tie"))]], .opt (.sym (nm! "instrument")), g_editorial_voice, .opt (.sym (nm! "type")),
  .star (.sym (nm! "dot")), .opt (.sym (nm! "accidental")), .opt (.sym (nm! "time-modification")), .opt (.sym (nm! "stem")),
  .opt (.sym (nm! "notehead")), .opt (.sym (nm! "notehead-text")), .opt g_staff, .rep 0 (some 8) (.sym (nm! "beam")), .star (.sym (nm! "notations")),
  .star (.sym (nm! "lyric")), .opt (.sym (nm! "play"))]

/-- `notehead-text`, Documents/musicxml.xsd 4282-4292. -/
def ct_notehead_text : Re := .plus (.alts [.sym (nm! "display-text"), .sym (nm! "accidental-text")])

/-- `ornaments`, Documents/musicxml.xsd 4294-4360. -/
def ct_ornaments : Re := .star (.seqs [.alts [.sym (nm! "trill-mark"), .sym (nm! "turn"), .sym (nm! "delayed-turn"), .sym (nm! "inverted-turn"),
  .sym (nm! "delayed-inverted-turn"), .sym (nm! "vertical-turn"), .sym (nm! "shake"), .sym (nm! "wavy-line"), .sym (nm! "mordent"),
  .sym (nm! "inverted-mordent"), .sym (nm! "schleifer"), .sym (nm! "tremolo"), .sym (nm! "other-ornament")], .star (.sym (nm! "accidental-mark"))])

/-- `pitch`, Documents/musicxml.xsd 4377-4386. -/
def ct_pitch : Re := .seqs [.sym (nm! "step"), .opt (.sym (nm! "alter")), .sym (nm! "octave")]

/-- `display-step-octave`, Documents/musicxml.xsd 5275-5283. -/
def g_display_step_octave : Re := .seqs [.sym (nm! "display-step"), .sym (nm! "display-octave")]

/-- `rest`, Documents/musicxml.xsd 4400-4408. -/
def ct_rest : Re := .opt g_display_step_octave

/-- `technical`, Documents/musicxml.xsd 4475-4553. -/
def ct_technical : Re := .star (.alts [.sym (nm! "up-bow"), .sym (nm! "down-bow"), .sym (nm! "harmonic"), .sym (nm! "open-string"), .sym (nm! "thumb-position"),
  .sym (nm! "fingering"), .sym (nm! "pluck"), .sym (nm! "double-tongue"), .sym (nm! "triple-tongue"), .sym (nm! "stopped"), .sym (nm! "snap-pizzicato"),
  .sym (nm! "fret"), .sym (nm! "string"), .sym (nm! "hammer-on"), .sym (nm! "pull-off"), .sym (nm! "bend"), .sym (nm! "tap"), .sym (nm! "heel"),
  .sym (nm! "toe"), .sym (nm! "fingernails"), .sym (nm! "hole"), .sym (nm! "arrow"), .sym (nm! "handbell"), .sym (nm! "other-technical")])

/-- `tuplet`, Documents/musicxml.xsd 4661-4689. -/
def ct_tuplet : Re := .seqs [.opt (.sym (nm! "tuplet-actual")), .opt (.sym (nm! "tuplet-normal"))]

/-- `tuplet-portion`, Documents/musicxml.xsd 4711-4720. -/
def ct_tuplet_portion : Re := .seqs [.opt (.sym (nm! "tuplet-number")), .opt (.sym (nm! "tuplet-type")), .star (.sym (nm! "tuplet-dot"))]

/-- `unpitched`, Documents/musicxml.xsd 4734-4741. -/
def ct_unpitched : Re := .opt g_display_step_octave

/-- `credit`, Documents/musicxml.xsd 4745-4773. -/
def ct_credit : Re := .seqs [.star (.sym (nm! "credit-type")), .star (.sym (nm! "link")), .star (.sym (nm! "bookmark")), .alts [.sym (nm! "credit-image"),
  .seqs [.sym (nm! "credit-words"), .star (.seqs [.star (.sym (nm! "link")), .star (.sym (nm! "bookmark")), .sym (nm! "credit-words")])]]]

/-- `defaults`, Documents/musicxml.xsd 4775-4788. -/
def ct_defaults : Re := .seqs [.opt (.sym (nm! "scaling")), g_layout, .opt (.sym (nm! "appearance")), .opt (.sym (nm! "music-font")), .opt (.sym (nm! "word-font")),
  .star (.sym (nm! "lyric-font")), .star (.sym (nm! "lyric-language"))]

/-- `part-group`, Documents/musicxml.xsd 4856-4888. -/
def ct_part_group : Re := .seqs [.opt (.sym (nm! "group-name")), .opt (.sym (nm! "group-name-display")), .opt (.sym (nm! "group-abbreviation")),
  .opt (.sym (nm! "group-abbreviation-display")), .opt (.sym (nm! "group-symbol")), .opt (.sym (nm! "group-barline")), .opt (.sym (nm! "group-time")),
  g_editorial]

/-- `part-group`, Documents/musicxml.xsd 5328-5336. -/
def g_part_group : Re := .sym (nm! "part-group")

/-- `score-part`, Documents/musicxml.xsd 5361-5372. -/
def g_score_part : Re := .sym (nm! "score-part")

/-- `part-list`, Documents/musicxml.xsd 4890-4902. -/
def ct_part_list : Re := .seqs [.star g_part_group, g_score_part, .star (.alts [g_part_group, g_score_part])]

/-- `score-instrument`, Documents/musicxml.xsd 4915-4952. -/
def ct_score_instrument : Re := .seqs [.sym (nm! "instrument-name"), .opt (.sym (nm! "instrument-abbreviation")), .opt (.sym (nm! "instrument-sound")), .opt (.alts [.sym (nm! "solo"),
  .sym (nm! "ensemble")]), .opt (.sym (nm! "virtual-instrument"))]

/-- `score-part`, Documents/musicxml.xsd 4954-4976. -/
def ct_score_part : Re := .seqs [.opt (.sym (nm! "identification")), .sym (nm! "part-name"), .opt (.sym (nm! "part-name-display")), .opt (.sym (nm! "part-abbreviation")),
  .opt (.sym (nm! "part-abbreviation-display")), .star (.sym (nm! "group")), .star (.sym (nm! "score-instrument")),
  .star (.seqs [.opt (.sym (nm! "midi-device")), .opt (.sym (nm! "midi-instrument"))])]

/-- `virtual-instrument`, Documents/musicxml.xsd 4978-4994. -/
def ct_virtual_instrument : Re := .seqs [.opt (.sym (nm! "virtual-library")), .opt (.sym (nm! "virtual-name"))]

/-- `work`, Documents/musicxml.xsd 4996-5013. -/
def ct_work : Re := .seqs [.opt (.sym (nm! "work-number")), .opt (.sym (nm! "work-title")), .opt (.sym (nm! "opus"))]

/-- `score-header`, Documents/musicxml.xsd 5338-5359. -/
def g_score_header : Re := .seqs [.opt (.sym (nm! "work")), .opt (.sym (nm! "movement-number")), .opt (.sym (nm! "movement-title")), .opt (.sym (nm! "identification")),
  .opt (.sym (nm! "defaults")), .star (.sym (nm! "credit")), .sym (nm! "part-list")]

/-- `music-data`, Documents/musicxml.xsd 5305-5326. -/
def g_music_data : Re := .star (.alts [.sym (nm! "note"), .sym (nm! "backup"), .sym (nm! "forward"), .sym (nm! "direction"), .sym (nm! "attributes"), .sym (nm! "harmony"),
  .sym (nm! "figured-bass"), .sym (nm! "print"), .sym (nm! "sound"), .sym (nm! "barline"), .sym (nm! "grouping"), .sym (nm! "link"),
  .sym (nm! "bookmark")])

/-- `score-partwise`, Documents/musicxml.xsd 5378-5401. -/
def el_score_partwise : Re := .seqs [g_score_header, .plus (.sym (nm! "part (partwise)"))]

/-- `part (partwise)`, Documents/musicxml.xsd 5378-5401. -/
def el_part_partwise : Re := .plus (.sym (nm! "measure (partwise)"))

/-- `measure (partwise)`, Documents/musicxml.xsd 5378-5401. -/
def el_measure_partwise : Re := g_music_data

/-- `score-timewise`, Documents/musicxml.xsd 5403-5426. -/
def el_score_timewise : Re := .seqs [g_score_header, .plus (.sym (nm! "measure (timewise)"))]

/-- `measure (timewise)`, Documents/musicxml.xsd 5403-5426. -/
def el_measure_timewise : Re := .plus (.sym (nm! "part (timewise)"))

/-- `part (timewise)`, Documents/musicxml.xsd 5403-5426. -/
def el_part_timewise : Re := g_music_data

/-- Element declarations and their content models. -/
def decls1 : List (Nat × Re) := [
  (nm! "accent", .eps), (nm! "accidental", .eps), (nm! "accidental-mark", .eps), (nm! "accidental-text", .eps), (nm! "accord", ct_accord),
  (nm! "accordion-high", .eps), (nm! "accordion-low", .eps), (nm! "accordion-middle", .eps), (nm! "accordion-registration", ct_accordion_registration),
  (nm! "actual-notes", .eps), (nm! "alter", .eps), (nm! "appearance", ct_appearance), (nm! "arpeggiate", .eps), (nm! "arrow", ct_arrow),
  (nm! "arrow-direction", .eps), (nm! "arrow-style", .eps), (nm! "articulations", ct_articulations), (nm! "artificial", .eps),
  (nm! "attributes", ct_attributes), (nm! "backup", ct_backup), (nm! "bar-style", .eps), (nm! "barline", ct_barline), (nm! "barre", .eps),
  (nm! "base-pitch", .eps), (nm! "bass", ct_bass), (nm! "bass-alter", .eps), (nm! "bass-step", .eps), (nm! "beam", .eps),
  (nm! "beat-repeat", ct_beat_repeat), (nm! "beat-type", .eps), (nm! "beat-unit", .eps), (nm! "beat-unit-dot", .eps), (nm! "beater", .eps),
  (nm! "beats", .eps), (nm! "bend", ct_bend), (nm! "bend-alter", .eps), (nm! "bookmark", .eps), (nm! "bottom-margin", .eps), (nm! "bracket", .eps),
  (nm! "breath-mark", .eps), (nm! "caesura", .eps), (nm! "cancel", .eps), (nm! "capo", .eps), (nm! "chord", .eps), (nm! "chromatic", .eps),
  (nm! "circular-arrow", .eps), (nm! "clef", ct_clef), (nm! "clef-octave-change", .eps), (nm! "coda", .eps), (nm! "creator", .eps),
  (nm! "credit", ct_credit), (nm! "credit-image", .eps), (nm! "credit-type", .eps), (nm! "credit-words", .eps), (nm! "cue", .eps), (nm! "damp", .eps),
  (nm! "damp-all", .eps), (nm! "dashes", .eps), (nm! "defaults", ct_defaults), (nm! "degree", ct_degree), (nm! "degree-alter", .eps),
  (nm! "degree-type", .eps), (nm! "degree-value", .eps), (nm! "delayed-inverted-turn", .eps), (nm! "delayed-turn", .eps), (nm! "detached-legato", .eps),
  (nm! "diatonic", .eps), (nm! "direction", ct_direction), (nm! "direction-type", ct_direction_type), (nm! "directive", .eps),
  (nm! "display-octave", .eps), (nm! "display-step", .eps), (nm! "display-text", .eps), (nm! "distance", .eps), (nm! "divisions", .eps),
  (nm! "doit", .eps), (nm! "dot", .eps), (nm! "double", .eps), (nm! "double-tongue", .eps), (nm! "down-bow", .eps), (nm! "duration", .eps),
  (nm! "dynamics", ct_dynamics), (nm! "effect", .eps), (nm! "elevation", .eps), (nm! "elision", .eps), (nm! "encoder", .eps),
  (nm! "encoding", ct_encoding), (nm! "encoding-date", .eps), (nm! "encoding-description", .eps), (nm! "end-line", .eps)]

/-- Element declarations and their content models. -/
def decls2 : List (Nat × Re) := [
  (nm! "end-paragraph", .eps), (nm! "ending", .eps), (nm! "ensemble", .eps), (nm! "extend", .eps), (nm! "eyeglasses", .eps), (nm! "f", .eps),
  (nm! "falloff", .eps), (nm! "feature", .eps), (nm! "fermata", .eps), (nm! "ff", .eps), (nm! "fff", .eps), (nm! "ffff", .eps), (nm! "fffff", .eps),
  (nm! "ffffff", .eps), (nm! "fifths", .eps), (nm! "figure", ct_figure), (nm! "figure-number", .eps), (nm! "figured-bass", ct_figured_bass),
  (nm! "fingering", .eps), (nm! "fingernails", .eps), (nm! "first-fret", .eps), (nm! "footnote", .eps), (nm! "forward", ct_forward), (nm! "fp", .eps),
  (nm! "frame", ct_frame), (nm! "frame-frets", .eps), (nm! "frame-note", ct_frame_note), (nm! "frame-strings", .eps), (nm! "fret", .eps),
  (nm! "function", .eps), (nm! "fz", .eps), (nm! "glass", .eps), (nm! "glissando", .eps), (nm! "grace", .eps), (nm! "group", .eps),
  (nm! "group-abbreviation", .eps), (nm! "group-abbreviation-display", ct_name_display), (nm! "group-barline", .eps), (nm! "group-name", .eps),
  (nm! "group-name-display", ct_name_display), (nm! "group-symbol", .eps), (nm! "group-time", .eps), (nm! "grouping", ct_grouping),
  (nm! "hammer-on", .eps), (nm! "handbell", .eps), (nm! "harmonic", ct_harmonic), (nm! "harmony", ct_harmony), (nm! "harp-pedals", ct_harp_pedals),
  (nm! "heel", .eps), (nm! "hole", ct_hole), (nm! "hole-closed", .eps), (nm! "hole-shape", .eps), (nm! "hole-type", .eps), (nm! "humming", .eps),
  (nm! "identification", ct_identification), (nm! "image", .eps), (nm! "instrument", .eps), (nm! "instrument-abbreviation", .eps),
  (nm! "instrument-name", .eps), (nm! "instrument-sound", .eps), (nm! "instruments", .eps), (nm! "interchangeable", ct_interchangeable),
  (nm! "inversion", .eps), (nm! "inverted-mordent", .eps), (nm! "inverted-turn", .eps), (nm! "ipa", .eps), (nm! "key", ct_key),
  (nm! "key-accidental", .eps), (nm! "key-alter", .eps), (nm! "key-octave", .eps), (nm! "key-step", .eps), (nm! "kind", .eps), (nm! "laughing", .eps),
  (nm! "left-divider", .eps), (nm! "left-margin", .eps), (nm! "level", .eps), (nm! "line", .eps), (nm! "line-width", .eps), (nm! "link", .eps),
  (nm! "lyric", ct_lyric), (nm! "lyric-font", .eps), (nm! "lyric-language", .eps), (nm! "measure (partwise)", el_measure_partwise),
  (nm! "measure (timewise)", el_measure_timewise), (nm! "measure-distance", .eps), (nm! "measure-layout", ct_measure_layout),
  (nm! "measure-numbering", .eps), (nm! "measure-repeat", .eps), (nm! "measure-style", ct_measure_style), (nm! "membrane", .eps)]

/-- Element declarations and their content models. -/
def decls3 : List (Nat × Re) := [
  (nm! "metal", .eps), (nm! "metronome", ct_metronome), (nm! "metronome-beam", .eps), (nm! "metronome-dot", .eps),
  (nm! "metronome-note", ct_metronome_note), (nm! "metronome-relation", .eps), (nm! "metronome-tuplet", ct_metronome_tuplet),
  (nm! "metronome-type", .eps), (nm! "mf", .eps), (nm! "midi-bank", .eps), (nm! "midi-channel", .eps), (nm! "midi-device", .eps),
  (nm! "midi-instrument", ct_midi_instrument), (nm! "midi-name", .eps), (nm! "midi-program", .eps), (nm! "midi-unpitched", .eps),
  (nm! "millimeters", .eps), (nm! "miscellaneous", ct_miscellaneous), (nm! "miscellaneous-field", .eps), (nm! "mode", .eps), (nm! "mordent", .eps),
  (nm! "movement-number", .eps), (nm! "movement-title", .eps), (nm! "mp", .eps), (nm! "multiple-rest", .eps), (nm! "music-font", .eps),
  (nm! "mute", .eps), (nm! "natural", .eps), (nm! "non-arpeggiate", .eps), (nm! "normal-dot", .eps), (nm! "normal-notes", .eps),
  (nm! "normal-type", .eps), (nm! "notations", ct_notations), (nm! "note", ct_note), (nm! "note-size", .eps), (nm! "notehead", .eps),
  (nm! "notehead-text", ct_notehead_text), (nm! "octave", .eps), (nm! "octave-change", .eps), (nm! "octave-shift", .eps), (nm! "offset", .eps),
  (nm! "open-string", .eps), (nm! "opus", .eps), (nm! "ornaments", ct_ornaments), (nm! "other-appearance", .eps), (nm! "other-articulation", .eps),
  (nm! "other-direction", .eps), (nm! "other-dynamics", .eps), (nm! "other-notation", .eps), (nm! "other-ornament", .eps),
  (nm! "other-percussion", .eps), (nm! "other-play", .eps), (nm! "other-technical", .eps), (nm! "p", .eps), (nm! "page-height", .eps),
  (nm! "page-layout", ct_page_layout), (nm! "page-margins", ct_page_margins), (nm! "page-width", .eps), (nm! "pan", .eps),
  (nm! "part (partwise)", el_part_partwise), (nm! "part (timewise)", el_part_timewise), (nm! "part-abbreviation", .eps),
  (nm! "part-abbreviation-display", ct_name_display), (nm! "part-group", ct_part_group), (nm! "part-list", ct_part_list), (nm! "part-name", .eps),
  (nm! "part-name-display", ct_name_display), (nm! "part-symbol", .eps), (nm! "pedal", .eps), (nm! "pedal-alter", .eps), (nm! "pedal-step", .eps),
  (nm! "pedal-tuning", ct_pedal_tuning), (nm! "per-minute", .eps), (nm! "percussion", ct_percussion), (nm! "pitch", ct_pitch), (nm! "pitched", .eps),
  (nm! "play", ct_play), (nm! "plop", .eps), (nm! "pluck", .eps), (nm! "pp", .eps), (nm! "ppp", .eps), (nm! "pppp", .eps), (nm! "ppppp", .eps),
  (nm! "pppppp", .eps), (nm! "pre-bend", .eps), (nm! "prefix", .eps), (nm! "principal-voice", .eps), (nm! "print", ct_print), (nm! "pull-off", .eps),
  (nm! "rehearsal", .eps)]

/-- Element declarations and their content models. -/
def decls4 : List (Nat × Re) := [
  (nm! "relation", .eps), (nm! "release", .eps), (nm! "repeat", .eps), (nm! "rest", ct_rest), (nm! "rf", .eps), (nm! "rfz", .eps),
  (nm! "right-divider", .eps), (nm! "right-margin", .eps), (nm! "rights", .eps), (nm! "root", ct_root), (nm! "root-alter", .eps),
  (nm! "root-step", .eps), (nm! "scaling", ct_scaling), (nm! "schleifer", .eps), (nm! "scoop", .eps), (nm! "scordatura", ct_scordatura),
  (nm! "score-instrument", ct_score_instrument), (nm! "score-part", ct_score_part), (nm! "score-partwise", el_score_partwise),
  (nm! "score-timewise", el_score_timewise), (nm! "segno", .eps), (nm! "semi-pitched", .eps), (nm! "senza-misura", .eps), (nm! "sf", .eps),
  (nm! "sffz", .eps), (nm! "sfp", .eps), (nm! "sfpp", .eps), (nm! "sfz", .eps), (nm! "shake", .eps), (nm! "sign", .eps), (nm! "slash", ct_slash),
  (nm! "slash-dot", .eps), (nm! "slash-type", .eps), (nm! "slide", .eps), (nm! "slur", .eps), (nm! "snap-pizzicato", .eps), (nm! "software", .eps),
  (nm! "solo", .eps), (nm! "sound", ct_sound), (nm! "sounding-pitch", .eps), (nm! "source", .eps), (nm! "spiccato", .eps), (nm! "staccatissimo", .eps),
  (nm! "staccato", .eps), (nm! "staff", .eps), (nm! "staff-details", ct_staff_details), (nm! "staff-distance", .eps),
  (nm! "staff-layout", ct_staff_layout), (nm! "staff-lines", .eps), (nm! "staff-size", .eps), (nm! "staff-tuning", ct_staff_tuning),
  (nm! "staff-type", .eps), (nm! "staves", .eps), (nm! "stem", .eps), (nm! "step", .eps), (nm! "stick", ct_stick), (nm! "stick-location", .eps),
  (nm! "stick-material", .eps), (nm! "stick-type", .eps), (nm! "stopped", .eps), (nm! "stress", .eps), (nm! "string", .eps), (nm! "string-mute", .eps),
  (nm! "strong-accent", .eps), (nm! "suffix", .eps), (nm! "supports", .eps), (nm! "syllabic", .eps), (nm! "system-distance", .eps),
  (nm! "system-dividers", ct_system_dividers), (nm! "system-layout", ct_system_layout), (nm! "system-margins", ct_system_margins), (nm! "tap", .eps),
  (nm! "technical", ct_technical), (nm! "tenths", .eps), (nm! "tenuto", .eps), (nm! "text", .eps), (nm! "thumb-position", .eps), (nm! "tie", .eps),
  (nm! "tied", .eps), (nm! "time", ct_time), (nm! "time-modification", ct_time_modification), (nm! "time-relation", .eps), (nm! "timpani", .eps),
  (nm! "toe", .eps), (nm! "top-margin", .eps), (nm! "top-system-distance", .eps), (nm! "touching-pitch", .eps), (nm! "transpose", ct_transpose),
  (nm! "tremolo", .eps), (nm! "trill-mark", .eps)]

/-- Element declarations and their content models. -/
def decls5 : List (Nat × Re) := [
  (nm! "triple-tongue", .eps), (nm! "tuning-alter", .eps), (nm! "tuning-octave", .eps), (nm! "tuning-step", .eps), (nm! "tuplet", ct_tuplet),
  (nm! "tuplet-actual", ct_tuplet_portion), (nm! "tuplet-dot", .eps), (nm! "tuplet-normal", ct_tuplet_portion), (nm! "tuplet-number", .eps),
  (nm! "tuplet-type", .eps), (nm! "turn", .eps), (nm! "type", .eps), (nm! "unpitched", ct_unpitched), (nm! "unstress", .eps), (nm! "up-bow", .eps),
  (nm! "vertical-turn", .eps), (nm! "virtual-instrument", ct_virtual_instrument), (nm! "virtual-library", .eps), (nm! "virtual-name", .eps),
  (nm! "voice", .eps), (nm! "volume", .eps), (nm! "wavy-line", .eps), (nm! "wedge", .eps), (nm! "with-bar", .eps), (nm! "wood", .eps),
  (nm! "word-font", .eps), (nm! "words", .eps), (nm! "work", ct_work), (nm! "work-number", .eps), (nm! "work-title", .eps)]

/-- The element declarations of the schema: a number for each and its content model. The number is that of the name, except that the schema declares `part`
and `measure` twice: inside `score-partwise` and inside `score-timewise`. -/
def decls : List (Nat × Re) := decls1 ++ decls2 ++ decls3 ++ decls4 ++ decls5

/-- The name of the elements of a declaration. -/
def declName (d : Nat) : Nat :=
  if d = nm! "part (partwise)" ∨ d = nm! "part (timewise)" then nm! "part"
  else if d = nm! "measure (partwise)" ∨ d = nm! "measure (timewise)" then nm! "measure"
  else d

end Mx.Spec.Schema
