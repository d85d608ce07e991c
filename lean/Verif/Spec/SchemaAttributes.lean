import Verif.Model.Attributes

/-
GENERATED by a script from the schema Documents/musicxml.xsd of the repository (MusicXML 3.0): the attributes of every element, through the attribute groups and
complex types of the schema.
-/
namespace Mx.Spec

/-- The simple types of attributes in the schema. -/
inductive SchemaType where
  | t_above_below | t_backward_forward | t_beam_level | t_cancel_location | t_color | t_comma_separated_text | t_degree_symbol_value
  | t_distance_type | t_divisions | t_enclosure_shape | t_ending_number | t_fan | t_font_size | t_font_style | t_font_weight
  | t_harmony_type | t_hole_closed_location | t_left_center_right | t_left_right | t_line_end | t_line_shape | t_line_type
  | t_line_width_type | t_margin_type | t_midi_16 | t_non_negative_decimal | t_note_size_type | t_number_level | t_number_of_lines
  | t_number_or_normal | t_on_off | t_over_under | t_percent | t_principal_voice_symbol | t_right_left_middle | t_rotation_degrees
  | t_show_frets | t_show_tuplet | t_staff_line | t_staff_number | t_start_note | t_start_stop | t_start_stop_change_continue
  | t_start_stop_continue | t_start_stop_discontinue | t_start_stop_single | t_string_number | t_symbol_size | t_tenths | t_text_direction
  | t_time_only | t_time_separator | t_time_symbol | t_tip_direction | t_top_bottom | t_trill_beats | t_trill_step | t_two_note_turn
  | t_up_down | t_up_down_stop_continue | t_upright_inverted | t_valign | t_valign_image | t_wedge_type | t_winged | t_xlink_actuate
  | t_xlink_href | t_xlink_role | t_xlink_show | t_xlink_title | t_xlink_type | t_xml_lang | t_xml_space | t_xs_ID | t_xs_IDREF
  | t_xs_NMTOKEN | t_xs_anyURI | t_xs_nonNegativeInteger | t_xs_positiveInteger | t_xs_token | t_yes_no | t_yes_no_number
deriving Repr, DecidableEq

/-- The class of the library for each simple type: it is the one whose values are those of the type, see C16 (integers), C18 (decimals), C23 (enumerations), C15, C20,
C21, C22, C25, C27.  `xs:NMTOKEN` is kept as a token, `xs:anyURI` and `xml:lang` as strings, without a check of their form. -/
def SchemaType.type : SchemaType → AttrType
  | .t_above_below => .enum .AboveBelow
  | .t_backward_forward => .enum .BackwardForward
  | .t_beam_level => .int .BeamLevel
  | .t_cancel_location => .enum .CancelLocation
  | .t_color => .color
  | .t_comma_separated_text => .commaText
  | .t_degree_symbol_value => .enum .DegreeSymbolValue
  | .t_distance_type => .distanceType
  | .t_divisions => .decimal .DivisionsValue
  | .t_enclosure_shape => .enum .EnclosureShape
  | .t_ending_number => .commaInts
  | .t_fan => .enum .Fan
  | .t_font_size => .fontSize
  | .t_font_style => .enum .FontStyle
  | .t_font_weight => .enum .FontWeight
  | .t_harmony_type => .enum .HarmonyType
  | .t_hole_closed_location => .enum .HoleClosedLocation
  | .t_left_center_right => .enum .LeftCenterRight
  | .t_left_right => .enum .LeftRight
  | .t_line_end => .enum .LineEnd
  | .t_line_shape => .enum .LineShape
  | .t_line_type => .enum .LineType
  | .t_line_width_type => .lineWidthType
  | .t_margin_type => .enum .MarginType
  | .t_midi_16 => .int .Midi16
  | .t_non_negative_decimal => .decimal .NonNegativeDecimal
  | .t_note_size_type => .enum .NoteSizeType
  | .t_number_level => .int .NumberLevel
  | .t_number_of_lines => .int .NumberOfLines
  | .t_number_or_normal => .numberOrNormal
  | .t_on_off => .enum .OnOff
  | .t_over_under => .enum .OverUnder
  | .t_percent => .decimal .Percent
  | .t_principal_voice_symbol => .enum .PrincipalVoiceSymbol
  | .t_right_left_middle => .enum .RightLeftMiddle
  | .t_rotation_degrees => .decimal .RotationDegrees
  | .t_show_frets => .enum .ShowFrets
  | .t_show_tuplet => .enum .ShowTuplet
  | .t_staff_line => .int .StaffLine
  | .t_staff_number => .int .StaffNumber
  | .t_start_note => .enum .StartNote
  | .t_start_stop => .enum .StartStop
  | .t_start_stop_change_continue => .enum .StartStopChangeContinue
  | .t_start_stop_continue => .enum .StartStopContinue
  | .t_start_stop_discontinue => .enum .StartStopDiscontinue
  | .t_start_stop_single => .enum .StartStopSingle
  | .t_string_number => .int .StringNumber
  | .t_symbol_size => .enum .SymbolSize
  | .t_tenths => .decimal .TenthsValue
  | .t_text_direction => .enum .TextDirection
  | .t_time_only => .commaInts
  | .t_time_separator => .enum .TimeSeparator
  | .t_time_symbol => .enum .TimeSymbol
  | .t_tip_direction => .enum .TipDirection
  | .t_top_bottom => .enum .TopBottom
  | .t_trill_beats => .decimal .TrillBeats
  | .t_trill_step => .enum .TrillStep
  | .t_two_note_turn => .enum .TwoNoteTurn
  | .t_up_down => .enum .UpDown
  | .t_up_down_stop_continue => .enum .UpDownStopContinue
  | .t_upright_inverted => .enum .UprightInverted
  | .t_valign => .enum .Valign
  | .t_valign_image => .enum .ValignImage
  | .t_wedge_type => .enum .WedgeType
  | .t_winged => .enum .Winged
  | .t_xlink_actuate => .enum .XlinkActuate
  | .t_xlink_href => .string
  | .t_xlink_role => .token
  | .t_xlink_show => .enum .XlinkShow
  | .t_xlink_title => .token
  | .t_xlink_type => .enum .XlinkType
  | .t_xml_lang => .string
  | .t_xml_space => .enum .XmlSpace
  | .t_xs_ID => .id
  | .t_xs_IDREF => .id
  | .t_xs_NMTOKEN => .token
  | .t_xs_anyURI => .string
  | .t_xs_nonNegativeInteger => .int .NonNegativeInteger
  | .t_xs_positiveInteger => .int .PositiveInteger
  | .t_xs_token => .token
  | .t_yes_no => .enum .YesNo
  | .t_yes_no_number => .yesNoNumber

/-- An attribute in the schema. -/
structure SchemaAttr where
  name : List Char
  required : Bool
  type : SchemaType
deriving DecidableEq

namespace Schema

/-- `attributeGroup bend-sound`, musicxml.xsd 1548-1561. -/
def g_bend_sound : List SchemaAttr := [⟨chars "accelerate", false, .t_yes_no⟩,
   ⟨chars "beats", false, .t_trill_beats⟩,
   ⟨chars "first-beat", false, .t_percent⟩,
   ⟨chars "last-beat", false, .t_percent⟩]
/-- `attributeGroup bezier`, musicxml.xsd 1563-1579. -/
def g_bezier : List SchemaAttr := [⟨chars "bezier-offset", false, .t_divisions⟩,
   ⟨chars "bezier-offset2", false, .t_divisions⟩,
   ⟨chars "bezier-x", false, .t_tenths⟩,
   ⟨chars "bezier-y", false, .t_tenths⟩,
   ⟨chars "bezier-x2", false, .t_tenths⟩,
   ⟨chars "bezier-y2", false, .t_tenths⟩]
/-- `attributeGroup color`, musicxml.xsd 1581-1586. -/
def g_color : List SchemaAttr := [⟨chars "color", false, .t_color⟩]
/-- `attributeGroup dashed-formatting`, musicxml.xsd 1588-1594. -/
def g_dashed_formatting : List SchemaAttr := [⟨chars "dash-length", false, .t_tenths⟩, ⟨chars "space-length", false, .t_tenths⟩]
/-- `attributeGroup directive`, musicxml.xsd 1596-1601. -/
def g_directive : List SchemaAttr := [⟨chars "directive", false, .t_yes_no⟩]
/-- `attributeGroup document-attributes`, musicxml.xsd 1603-1610. -/
def g_document_attributes : List SchemaAttr := [⟨chars "version", false, .t_xs_token⟩]
/-- `attributeGroup enclosure`, musicxml.xsd 1612-1617. -/
def g_enclosure : List SchemaAttr := [⟨chars "enclosure", false, .t_enclosure_shape⟩]
/-- `attributeGroup font`, musicxml.xsd 1619-1627. -/
def g_font : List SchemaAttr := [⟨chars "font-family", false, .t_comma_separated_text⟩,
   ⟨chars "font-style", false, .t_font_style⟩,
   ⟨chars "font-size", false, .t_font_size⟩,
   ⟨chars "font-weight", false, .t_font_weight⟩]
/-- `attributeGroup halign`, musicxml.xsd 1629-1641. -/
def g_halign : List SchemaAttr := [⟨chars "halign", false, .t_left_center_right⟩]
/-- `attributeGroup justify`, musicxml.xsd 1643-1648. -/
def g_justify : List SchemaAttr := [⟨chars "justify", false, .t_left_center_right⟩]
/-- `attributeGroup letter-spacing`, musicxml.xsd 1650-1655. -/
def g_letter_spacing : List SchemaAttr := [⟨chars "letter-spacing", false, .t_number_or_normal⟩]
/-- `attributeGroup level-display`, musicxml.xsd 1657-1664. -/
def g_level_display : List SchemaAttr := [⟨chars "parentheses", false, .t_yes_no⟩, ⟨chars "bracket", false, .t_yes_no⟩, ⟨chars "size", false, .t_symbol_size⟩]
/-- `attributeGroup line-height`, musicxml.xsd 1666-1671. -/
def g_line_height : List SchemaAttr := [⟨chars "line-height", false, .t_number_or_normal⟩]
/-- `attributeGroup line-shape`, musicxml.xsd 1673-1678. -/
def g_line_shape : List SchemaAttr := [⟨chars "line-shape", false, .t_line_shape⟩]
/-- `attributeGroup line-type`, musicxml.xsd 1680-1685. -/
def g_line_type : List SchemaAttr := [⟨chars "line-type", false, .t_line_type⟩]
/-- `attributeGroup orientation`, musicxml.xsd 1687-1692. -/
def g_orientation : List SchemaAttr := [⟨chars "orientation", false, .t_over_under⟩]
/-- `attributeGroup placement`, musicxml.xsd 1694-1699. -/
def g_placement : List SchemaAttr := [⟨chars "placement", false, .t_above_below⟩]
/-- `attributeGroup position`, musicxml.xsd 1701-1738. -/
def g_position : List SchemaAttr := [⟨chars "default-x", false, .t_tenths⟩,
   ⟨chars "default-y", false, .t_tenths⟩,
   ⟨chars "relative-x", false, .t_tenths⟩,
   ⟨chars "relative-y", false, .t_tenths⟩]
/-- `attributeGroup print-object`, musicxml.xsd 1740-1745. -/
def g_print_object : List SchemaAttr := [⟨chars "print-object", false, .t_yes_no⟩]
/-- `attributeGroup print-spacing`, musicxml.xsd 1747-1752. -/
def g_print_spacing : List SchemaAttr := [⟨chars "print-spacing", false, .t_yes_no⟩]
/-- `attributeGroup print-style`, musicxml.xsd 1754-1761. -/
def g_print_style : List SchemaAttr := g_position ++ g_font ++ g_color
/-- `attributeGroup valign`, musicxml.xsd 1851-1856. -/
def g_valign : List SchemaAttr := [⟨chars "valign", false, .t_valign⟩]
/-- `attributeGroup print-style-align`, musicxml.xsd 1763-1770. -/
def g_print_style_align : List SchemaAttr := g_print_style ++ g_halign ++ g_valign
/-- `attributeGroup printout`, musicxml.xsd 1772-1782. -/
def g_printout : List SchemaAttr := g_print_object ++
  [⟨chars "print-dot", false, .t_yes_no⟩] ++
  g_print_spacing ++
  [⟨chars "print-lyric", false, .t_yes_no⟩]
/-- `attributeGroup text-decoration`, musicxml.xsd 1784-1791. -/
def g_text_decoration : List SchemaAttr := [⟨chars "underline", false, .t_number_of_lines⟩,
   ⟨chars "overline", false, .t_number_of_lines⟩,
   ⟨chars "line-through", false, .t_number_of_lines⟩]
/-- `attributeGroup text-direction`, musicxml.xsd 1793-1798. -/
def g_text_direction : List SchemaAttr := [⟨chars "dir", false, .t_text_direction⟩]
/-- `attributeGroup text-rotation`, musicxml.xsd 1816-1821. -/
def g_text_rotation : List SchemaAttr := [⟨chars "rotation", false, .t_rotation_degrees⟩]
/-- `attributeGroup text-formatting`, musicxml.xsd 1800-1814. -/
def g_text_formatting : List SchemaAttr := g_justify ++
  g_print_style_align ++
  g_text_decoration ++
  g_text_rotation ++
  g_letter_spacing ++
  g_line_height ++
  [⟨chars "xml:lang", false, .t_xml_lang⟩,
   ⟨chars "xml:space", false, .t_xml_space⟩] ++
  g_text_direction ++
  g_enclosure
/-- `attributeGroup trill-sound`, musicxml.xsd 1823-1849. -/
def g_trill_sound : List SchemaAttr := [⟨chars "start-note", false, .t_start_note⟩,
   ⟨chars "trill-step", false, .t_trill_step⟩,
   ⟨chars "two-note-turn", false, .t_two_note_turn⟩,
   ⟨chars "accelerate", false, .t_yes_no⟩,
   ⟨chars "beats", false, .t_trill_beats⟩,
   ⟨chars "second-beat", false, .t_percent⟩,
   ⟨chars "last-beat", false, .t_percent⟩]
/-- `attributeGroup valign-image`, musicxml.xsd 1858-1863. -/
def g_valign_image : List SchemaAttr := [⟨chars "valign", false, .t_valign_image⟩]
/-- `attributeGroup x-position`, musicxml.xsd 1865-1873. -/
def g_x_position : List SchemaAttr := [⟨chars "default-x", false, .t_tenths⟩,
   ⟨chars "default-y", false, .t_tenths⟩,
   ⟨chars "relative-x", false, .t_tenths⟩,
   ⟨chars "relative-y", false, .t_tenths⟩]
/-- `attributeGroup y-position`, musicxml.xsd 1875-1883. -/
def g_y_position : List SchemaAttr := [⟨chars "default-x", false, .t_tenths⟩,
   ⟨chars "default-y", false, .t_tenths⟩,
   ⟨chars "relative-x", false, .t_tenths⟩,
   ⟨chars "relative-y", false, .t_tenths⟩]
/-- `attributeGroup image-attributes`, musicxml.xsd 1887-1896. -/
def g_image_attributes : List SchemaAttr := [⟨chars "source", true, .t_xs_anyURI⟩, ⟨chars "type", true, .t_xs_token⟩] ++ g_position ++ g_halign ++ g_valign_image
/-- `attributeGroup print-attributes`, musicxml.xsd 1898-1909. -/
def g_print_attributes : List SchemaAttr := [⟨chars "staff-spacing", false, .t_tenths⟩,
   ⟨chars "new-system", false, .t_yes_no⟩,
   ⟨chars "new-page", false, .t_yes_no⟩,
   ⟨chars "blank-page", false, .t_xs_positiveInteger⟩,
   ⟨chars "page-number", false, .t_xs_token⟩]
/-- `attributeGroup element-position`, musicxml.xsd 1913-1919. -/
def g_element_position : List SchemaAttr := [⟨chars "element", false, .t_xs_NMTOKEN⟩, ⟨chars "position", false, .t_xs_positiveInteger⟩]
/-- `attributeGroup link-attributes`, musicxml.xsd 1921-1932. -/
def g_link_attributes : List SchemaAttr := [⟨chars "xlink:href", true, .t_xlink_href⟩,
   ⟨chars "xlink:type", false, .t_xlink_type⟩,
   ⟨chars "xlink:role", false, .t_xlink_role⟩,
   ⟨chars "xlink:title", false, .t_xlink_title⟩,
   ⟨chars "xlink:show", false, .t_xlink_show⟩,
   ⟨chars "xlink:actuate", false, .t_xlink_actuate⟩]
/-- `attributeGroup group-name-text`, musicxml.xsd 1936-1942. -/
def g_group_name_text : List SchemaAttr := g_print_style ++ g_justify
/-- `attributeGroup measure-attributes`, musicxml.xsd 1944-1960. -/
def g_measure_attributes : List SchemaAttr := [⟨chars "number", true, .t_xs_token⟩,
   ⟨chars "implicit", false, .t_yes_no⟩,
   ⟨chars "non-controlling", false, .t_yes_no⟩,
   ⟨chars "width", false, .t_tenths⟩]
/-- `attributeGroup part-attributes`, musicxml.xsd 1962-1967. -/
def g_part_attributes : List SchemaAttr := [⟨chars "id", true, .t_xs_IDREF⟩]
/-- `attributeGroup part-name-text`, musicxml.xsd 1969-1976. -/
def g_part_name_text : List SchemaAttr := g_print_style ++ g_print_object ++ g_justify
/-- `complexType accidental-text`, musicxml.xsd 1980-1989. -/
def c_accidental_text : List SchemaAttr := g_text_formatting
/-- `complexType dynamics`, musicxml.xsd 1991-2027. -/
def c_dynamics : List SchemaAttr := g_print_style_align ++ g_placement ++ g_text_decoration ++ g_enclosure
/-- `complexType empty`, musicxml.xsd 2029-2033. -/
def c_empty : List SchemaAttr := []
/-- `complexType empty-placement`, musicxml.xsd 2035-2041. -/
def c_empty_placement : List SchemaAttr := g_print_style ++ g_placement
/-- `complexType empty-print-style-align`, musicxml.xsd 2050-2055. -/
def c_empty_print_style_align : List SchemaAttr := g_print_style_align
/-- `complexType empty-print-object-style-align`, musicxml.xsd 2057-2063. -/
def c_empty_print_object_style_align : List SchemaAttr := g_print_object ++ g_print_style_align
/-- `complexType empty-trill-sound`, musicxml.xsd 2065-2072. -/
def c_empty_trill_sound : List SchemaAttr := g_print_style ++ g_placement ++ g_trill_sound
/-- `complexType horizontal-turn`, musicxml.xsd 2074-2082. -/
def c_horizontal_turn : List SchemaAttr := g_print_style ++ g_placement ++ g_trill_sound ++ [⟨chars "slash", false, .t_yes_no⟩]
/-- `complexType fermata`, musicxml.xsd 2084-2094. -/
def c_fermata : List SchemaAttr := [⟨chars "type", false, .t_upright_inverted⟩] ++ g_print_style
/-- `complexType fingering`, musicxml.xsd 2096-2108. -/
def c_fingering : List SchemaAttr := [⟨chars "substitution", false, .t_yes_no⟩, ⟨chars "alternate", false, .t_yes_no⟩] ++ g_print_style ++ g_placement
/-- `complexType formatted-text`, musicxml.xsd 2110-2119. -/
def c_formatted_text : List SchemaAttr := g_text_formatting
/-- `complexType fret`, musicxml.xsd 2121-2131. -/
def c_fret : List SchemaAttr := g_font ++ g_color
/-- `complexType level`, musicxml.xsd 2133-2143. -/
def c_level : List SchemaAttr := [⟨chars "reference", false, .t_yes_no⟩] ++ g_level_display
/-- `complexType midi-device`, musicxml.xsd 2145-2155. -/
def c_midi_device : List SchemaAttr := [⟨chars "port", false, .t_midi_16⟩, ⟨chars "id", false, .t_xs_IDREF⟩]
/-- `complexType midi-instrument`, musicxml.xsd 2157-2204. -/
def c_midi_instrument : List SchemaAttr := [⟨chars "id", true, .t_xs_IDREF⟩]
/-- `complexType name-display`, musicxml.xsd 2206-2217. -/
def c_name_display : List SchemaAttr := g_print_object
/-- `complexType other-play`, musicxml.xsd 2219-2228. -/
def c_other_play : List SchemaAttr := [⟨chars "type", true, .t_xs_token⟩]
/-- `complexType play`, musicxml.xsd 2230-2247. -/
def c_play : List SchemaAttr := [⟨chars "id", false, .t_xs_IDREF⟩]
/-- `complexType string`, musicxml.xsd 2249-2259. -/
def c_string : List SchemaAttr := g_print_style ++ g_placement
/-- `complexType typed-text`, musicxml.xsd 2261-2270. -/
def c_typed_text : List SchemaAttr := [⟨chars "type", false, .t_xs_token⟩]
/-- `complexType wavy-line`, musicxml.xsd 2272-2282. -/
def c_wavy_line : List SchemaAttr := [⟨chars "type", true, .t_start_stop_continue⟩,
   ⟨chars "number", false, .t_number_level⟩] ++
  g_position ++
  g_placement ++
  g_color ++
  g_trill_sound
/-- `complexType attributes`, musicxml.xsd 2286-2358. -/
def c_attributes : List SchemaAttr := []
/-- `complexType beat-repeat`, musicxml.xsd 2370-2380. -/
def c_beat_repeat : List SchemaAttr := [⟨chars "type", true, .t_start_stop⟩,
   ⟨chars "slashes", false, .t_xs_positiveInteger⟩,
   ⟨chars "use-dots", false, .t_yes_no⟩]
/-- `complexType cancel`, musicxml.xsd 2382-2391. -/
def c_cancel : List SchemaAttr := [⟨chars "location", false, .t_cancel_location⟩]
/-- `complexType clef`, musicxml.xsd 2393-2426. -/
def c_clef : List SchemaAttr := [⟨chars "number", false, .t_staff_number⟩,
   ⟨chars "additional", false, .t_yes_no⟩,
   ⟨chars "size", false, .t_symbol_size⟩,
   ⟨chars "after-barline", false, .t_yes_no⟩] ++
  g_print_style ++
  g_print_object
/-- `complexType interchangeable`, musicxml.xsd 2428-2438. -/
def c_interchangeable : List SchemaAttr := [⟨chars "symbol", false, .t_time_symbol⟩, ⟨chars "separator", false, .t_time_separator⟩]
/-- `complexType key`, musicxml.xsd 2440-2458. -/
def c_key : List SchemaAttr := [⟨chars "number", false, .t_staff_number⟩] ++ g_print_style ++ g_print_object
/-- `complexType key-octave`, musicxml.xsd 2460-2470. -/
def c_key_octave : List SchemaAttr := [⟨chars "number", true, .t_xs_positiveInteger⟩, ⟨chars "cancel", false, .t_yes_no⟩]
/-- `complexType measure-repeat`, musicxml.xsd 2472-2484. -/
def c_measure_repeat : List SchemaAttr := [⟨chars "type", true, .t_start_stop⟩, ⟨chars "slashes", false, .t_xs_positiveInteger⟩]
/-- `complexType measure-style`, musicxml.xsd 2486-2501. -/
def c_measure_style : List SchemaAttr := [⟨chars "number", false, .t_staff_number⟩] ++ g_font ++ g_color
/-- `complexType multiple-rest`, musicxml.xsd 2503-2512. -/
def c_multiple_rest : List SchemaAttr := [⟨chars "use-symbols", false, .t_yes_no⟩]
/-- `complexType part-symbol`, musicxml.xsd 2514-2526. -/
def c_part_symbol : List SchemaAttr := [⟨chars "top-staff", false, .t_staff_number⟩, ⟨chars "bottom-staff", false, .t_staff_number⟩] ++ g_position ++ g_color
/-- `complexType slash`, musicxml.xsd 2528-2536. -/
def c_slash : List SchemaAttr := [⟨chars "type", true, .t_start_stop⟩, ⟨chars "use-dots", false, .t_yes_no⟩, ⟨chars "use-stems", false, .t_yes_no⟩]
/-- `complexType staff-details`, musicxml.xsd 2538-2565. -/
def c_staff_details : List SchemaAttr := [⟨chars "number", false, .t_staff_number⟩,
   ⟨chars "show-frets", false, .t_show_frets⟩] ++
  g_print_object ++
  g_print_spacing
/-- `complexType staff-tuning`, musicxml.xsd 2567-2573. -/
def c_staff_tuning : List SchemaAttr := [⟨chars "line", false, .t_staff_line⟩]
/-- `complexType time`, musicxml.xsd 2575-2597. -/
def c_time : List SchemaAttr := [⟨chars "number", false, .t_staff_number⟩,
   ⟨chars "symbol", false, .t_time_symbol⟩,
   ⟨chars "separator", false, .t_time_separator⟩] ++
  g_print_style_align ++
  g_print_object
/-- `complexType transpose`, musicxml.xsd 2599-2626. -/
def c_transpose : List SchemaAttr := [⟨chars "number", false, .t_staff_number⟩]
/-- `complexType bar-style-color`, musicxml.xsd 2630-2639. -/
def c_bar_style_color : List SchemaAttr := g_color
/-- `complexType barline`, musicxml.xsd 2641-2661. -/
def c_barline : List SchemaAttr := [⟨chars "location", false, .t_right_left_middle⟩,
   ⟨chars "segno", false, .t_xs_token⟩,
   ⟨chars "coda", false, .t_xs_token⟩,
   ⟨chars "divisions", false, .t_divisions⟩]
/-- `complexType ending`, musicxml.xsd 2663-2680. -/
def c_ending : List SchemaAttr := [⟨chars "number", true, .t_ending_number⟩,
   ⟨chars "type", true, .t_start_stop_discontinue⟩] ++
  g_print_object ++
  g_print_style ++
  [⟨chars "end-length", false, .t_tenths⟩,
   ⟨chars "text-x", false, .t_tenths⟩,
   ⟨chars "text-y", false, .t_tenths⟩]
/-- `complexType repeat`, musicxml.xsd 2682-2689. -/
def c_repeat : List SchemaAttr := [⟨chars "direction", true, .t_backward_forward⟩,
   ⟨chars "times", false, .t_xs_nonNegativeInteger⟩,
   ⟨chars "winged", false, .t_winged⟩]
/-- `complexType accord`, musicxml.xsd 2693-2699. -/
def c_accord : List SchemaAttr := [⟨chars "string", false, .t_string_number⟩]
/-- `complexType accordion-registration`, musicxml.xsd 2701-2723. -/
def c_accordion_registration : List SchemaAttr := g_print_style_align
/-- `complexType barre`, musicxml.xsd 2725-2731. -/
def c_barre : List SchemaAttr := [⟨chars "type", true, .t_start_stop⟩] ++ g_color
/-- `complexType bass`, musicxml.xsd 2733-2741. -/
def c_bass : List SchemaAttr := []
/-- `complexType bass-alter`, musicxml.xsd 2743-2754. -/
def c_bass_alter : List SchemaAttr := g_print_object ++ g_print_style ++ [⟨chars "location", false, .t_left_right⟩]
/-- `complexType bass-step`, musicxml.xsd 2756-2766. -/
def c_bass_step : List SchemaAttr := [⟨chars "text", false, .t_xs_token⟩] ++ g_print_style
/-- `complexType beater`, musicxml.xsd 2768-2777. -/
def c_beater : List SchemaAttr := [⟨chars "tip", false, .t_tip_direction⟩]
/-- `complexType bracket`, musicxml.xsd 2779-2791. -/
def c_bracket : List SchemaAttr := [⟨chars "type", true, .t_start_stop_continue⟩,
   ⟨chars "number", false, .t_number_level⟩,
   ⟨chars "line-end", true, .t_line_end⟩,
   ⟨chars "end-length", false, .t_tenths⟩] ++
  g_line_type ++
  g_dashed_formatting ++
  g_position ++
  g_color
/-- `complexType dashes`, musicxml.xsd 2793-2802. -/
def c_dashes : List SchemaAttr := [⟨chars "type", true, .t_start_stop_continue⟩,
   ⟨chars "number", false, .t_number_level⟩] ++
  g_dashed_formatting ++
  g_position ++
  g_color
/-- `complexType degree`, musicxml.xsd 2804-2816. -/
def c_degree : List SchemaAttr := g_print_object
/-- `complexType degree-alter`, musicxml.xsd 2818-2828. -/
def c_degree_alter : List SchemaAttr := g_print_style ++ [⟨chars "plus-minus", false, .t_yes_no⟩]
/-- `complexType degree-type`, musicxml.xsd 2830-2840. -/
def c_degree_type : List SchemaAttr := [⟨chars "text", false, .t_xs_token⟩] ++ g_print_style
/-- `complexType degree-value`, musicxml.xsd 2842-2853. -/
def c_degree_value : List SchemaAttr := [⟨chars "symbol", false, .t_degree_symbol_value⟩, ⟨chars "text", false, .t_xs_token⟩] ++ g_print_style
/-- `complexType direction`, musicxml.xsd 2855-2870. -/
def c_direction : List SchemaAttr := g_placement ++ g_directive
/-- `complexType direction-type`, musicxml.xsd 2872-2928. -/
def c_direction_type : List SchemaAttr := []
/-- `complexType feature`, musicxml.xsd 2930-2939. -/
def c_feature : List SchemaAttr := [⟨chars "type", false, .t_xs_token⟩]
/-- `complexType first-fret`, musicxml.xsd 2941-2951. -/
def c_first_fret : List SchemaAttr := [⟨chars "text", false, .t_xs_token⟩, ⟨chars "location", false, .t_left_right⟩]
/-- `complexType frame`, musicxml.xsd 2953-2978. -/
def c_frame : List SchemaAttr := g_position ++
  g_color ++
  g_halign ++
  g_valign_image ++
  [⟨chars "height", false, .t_tenths⟩,
   ⟨chars "width", false, .t_tenths⟩,
   ⟨chars "unplayed", false, .t_xs_token⟩]
/-- `complexType frame-note`, musicxml.xsd 2980-2990. -/
def c_frame_note : List SchemaAttr := []
/-- `complexType grouping`, musicxml.xsd 2992-3004. -/
def c_grouping : List SchemaAttr := [⟨chars "type", true, .t_start_stop_single⟩,
   ⟨chars "number", false, .t_xs_token⟩,
   ⟨chars "member-of", false, .t_xs_token⟩]
/-- `complexType harmony`, musicxml.xsd 3006-3026. -/
def c_harmony : List SchemaAttr := [⟨chars "type", false, .t_harmony_type⟩] ++
  g_print_object ++
  [⟨chars "print-frame", false, .t_yes_no⟩] ++
  g_print_style ++
  g_placement
/-- `complexType harp-pedals`, musicxml.xsd 3028-3036. -/
def c_harp_pedals : List SchemaAttr := g_print_style_align
/-- `complexType image`, musicxml.xsd 3038-3043. -/
def c_image : List SchemaAttr := g_image_attributes
/-- `complexType inversion`, musicxml.xsd 3045-3054. -/
def c_inversion : List SchemaAttr := g_print_style
/-- `complexType kind`, musicxml.xsd 3056-3086. -/
def c_kind : List SchemaAttr := [⟨chars "use-symbols", false, .t_yes_no⟩,
   ⟨chars "text", false, .t_xs_token⟩,
   ⟨chars "stack-degrees", false, .t_yes_no⟩,
   ⟨chars "parentheses-degrees", false, .t_yes_no⟩,
   ⟨chars "bracket-degrees", false, .t_yes_no⟩] ++
  g_print_style ++
  g_halign ++
  g_valign
/-- `complexType measure-numbering`, musicxml.xsd 3088-3097. -/
def c_measure_numbering : List SchemaAttr := g_print_style_align
/-- `complexType metronome`, musicxml.xsd 3099-3126. -/
def c_metronome : List SchemaAttr := g_print_style_align ++ g_justify ++ [⟨chars "parentheses", false, .t_yes_no⟩]
/-- `complexType metronome-beam`, musicxml.xsd 3128-3137. -/
def c_metronome_beam : List SchemaAttr := [⟨chars "number", false, .t_beam_level⟩]
/-- `complexType metronome-note`, musicxml.xsd 3139-3157. -/
def c_metronome_note : List SchemaAttr := []
/-- `complexType time-modification`, musicxml.xsd 4614-4642. -/
def c_time_modification : List SchemaAttr := []
/-- `complexType metronome-tuplet`, musicxml.xsd 3159-3170. -/
def c_metronome_tuplet : List SchemaAttr := c_time_modification ++
  [⟨chars "type", true, .t_start_stop⟩,
   ⟨chars "bracket", false, .t_yes_no⟩,
   ⟨chars "show-number", false, .t_show_tuplet⟩]
/-- `complexType octave-shift`, musicxml.xsd 3172-3181. -/
def c_octave_shift : List SchemaAttr := [⟨chars "type", true, .t_up_down_stop_continue⟩,
   ⟨chars "number", false, .t_number_level⟩,
   ⟨chars "size", false, .t_xs_positiveInteger⟩] ++
  g_dashed_formatting ++
  g_print_style
/-- `complexType offset`, musicxml.xsd 3183-3192. -/
def c_offset : List SchemaAttr := [⟨chars "sound", false, .t_yes_no⟩]
/-- `complexType other-direction`, musicxml.xsd 3194-3204. -/
def c_other_direction : List SchemaAttr := g_print_object ++ g_print_style_align
/-- `complexType pedal`, musicxml.xsd 3206-3214. -/
def c_pedal : List SchemaAttr := [⟨chars "type", true, .t_start_stop_change_continue⟩,
   ⟨chars "line", false, .t_yes_no⟩,
   ⟨chars "sign", false, .t_yes_no⟩] ++
  g_print_style_align
/-- `complexType pedal-tuning`, musicxml.xsd 3216-3232. -/
def c_pedal_tuning : List SchemaAttr := []
/-- `complexType per-minute`, musicxml.xsd 3234-3243. -/
def c_per_minute : List SchemaAttr := g_font
/-- `complexType percussion`, musicxml.xsd 3245-3264. -/
def c_percussion : List SchemaAttr := g_print_style_align ++ g_enclosure
/-- `complexType principal-voice`, musicxml.xsd 3266-3277. -/
def c_principal_voice : List SchemaAttr := [⟨chars "type", true, .t_start_stop⟩, ⟨chars "symbol", true, .t_principal_voice_symbol⟩] ++ g_print_style_align
/-- `complexType print`, musicxml.xsd 3279-3293. -/
def c_print : List SchemaAttr := g_print_attributes
/-- `complexType root`, musicxml.xsd 3295-3303. -/
def c_root : List SchemaAttr := []
/-- `complexType root-alter`, musicxml.xsd 3305-3316. -/
def c_root_alter : List SchemaAttr := g_print_object ++ g_print_style ++ [⟨chars "location", false, .t_left_right⟩]
/-- `complexType root-step`, musicxml.xsd 3318-3328. -/
def c_root_step : List SchemaAttr := [⟨chars "text", false, .t_xs_token⟩] ++ g_print_style
/-- `complexType scordatura`, musicxml.xsd 3330-3337. -/
def c_scordatura : List SchemaAttr := []
/-- `complexType sound`, musicxml.xsd 3339-3394. -/
def c_sound : List SchemaAttr := [⟨chars "tempo", false, .t_non_negative_decimal⟩,
   ⟨chars "dynamics", false, .t_non_negative_decimal⟩,
   ⟨chars "dacapo", false, .t_yes_no⟩,
   ⟨chars "segno", false, .t_xs_token⟩,
   ⟨chars "dalsegno", false, .t_xs_token⟩,
   ⟨chars "coda", false, .t_xs_token⟩,
   ⟨chars "tocoda", false, .t_xs_token⟩,
   ⟨chars "divisions", false, .t_divisions⟩,
   ⟨chars "forward-repeat", false, .t_yes_no⟩,
   ⟨chars "fine", false, .t_xs_token⟩,
   ⟨chars "time-only", false, .t_time_only⟩,
   ⟨chars "pizzicato", false, .t_yes_no⟩,
   ⟨chars "pan", false, .t_rotation_degrees⟩,
   ⟨chars "elevation", false, .t_rotation_degrees⟩,
   ⟨chars "damper-pedal", false, .t_yes_no_number⟩,
   ⟨chars "soft-pedal", false, .t_yes_no_number⟩,
   ⟨chars "sostenuto-pedal", false, .t_yes_no_number⟩]
/-- `complexType stick`, musicxml.xsd 3396-3405. -/
def c_stick : List SchemaAttr := [⟨chars "tip", false, .t_tip_direction⟩]
/-- `complexType string-mute`, musicxml.xsd 3407-3413. -/
def c_string_mute : List SchemaAttr := [⟨chars "type", true, .t_on_off⟩] ++ g_print_style_align
/-- `complexType wedge`, musicxml.xsd 3415-3427. -/
def c_wedge : List SchemaAttr := [⟨chars "type", true, .t_wedge_type⟩,
   ⟨chars "number", false, .t_number_level⟩,
   ⟨chars "spread", false, .t_tenths⟩,
   ⟨chars "niente", false, .t_yes_no⟩] ++
  g_line_type ++
  g_dashed_formatting ++
  g_position ++
  g_color
/-- `complexType encoding`, musicxml.xsd 3431-3442. -/
def c_encoding : List SchemaAttr := []
/-- `complexType identification`, musicxml.xsd 3444-3472. -/
def c_identification : List SchemaAttr := []
/-- `complexType miscellaneous`, musicxml.xsd 3474-3481. -/
def c_miscellaneous : List SchemaAttr := []
/-- `complexType miscellaneous-field`, musicxml.xsd 3483-3492. -/
def c_miscellaneous_field : List SchemaAttr := [⟨chars "name", true, .t_xs_token⟩]
/-- `complexType supports`, musicxml.xsd 3494-3502. -/
def c_supports : List SchemaAttr := [⟨chars "type", true, .t_yes_no⟩,
   ⟨chars "element", true, .t_xs_NMTOKEN⟩,
   ⟨chars "attribute", false, .t_xs_NMTOKEN⟩,
   ⟨chars "value", false, .t_xs_token⟩]
/-- `complexType appearance`, musicxml.xsd 3506-3516. -/
def c_appearance : List SchemaAttr := []
/-- `complexType distance`, musicxml.xsd 3518-3527. -/
def c_distance : List SchemaAttr := [⟨chars "type", true, .t_distance_type⟩]
/-- `complexType line-width`, musicxml.xsd 3529-3538. -/
def c_line_width : List SchemaAttr := [⟨chars "type", true, .t_line_width_type⟩]
/-- `complexType measure-layout`, musicxml.xsd 3540-3551. -/
def c_measure_layout : List SchemaAttr := []
/-- `complexType note-size`, musicxml.xsd 3553-3562. -/
def c_note_size : List SchemaAttr := [⟨chars "type", true, .t_note_size_type⟩]
/-- `complexType other-appearance`, musicxml.xsd 3564-3573. -/
def c_other_appearance : List SchemaAttr := [⟨chars "type", true, .t_xs_token⟩]
/-- `complexType page-layout`, musicxml.xsd 3575-3586. -/
def c_page_layout : List SchemaAttr := []
/-- `complexType page-margins`, musicxml.xsd 3588-3594. -/
def c_page_margins : List SchemaAttr := [⟨chars "type", false, .t_margin_type⟩]
/-- `complexType scaling`, musicxml.xsd 3596-3604. -/
def c_scaling : List SchemaAttr := []
/-- `complexType staff-layout`, musicxml.xsd 3606-3614. -/
def c_staff_layout : List SchemaAttr := [⟨chars "number", false, .t_staff_number⟩]
/-- `complexType system-dividers`, musicxml.xsd 3616-3626. -/
def c_system_dividers : List SchemaAttr := []
/-- `complexType system-layout`, musicxml.xsd 3628-3640. -/
def c_system_layout : List SchemaAttr := []
/-- `complexType system-margins`, musicxml.xsd 3642-3647. -/
def c_system_margins : List SchemaAttr := []
/-- `complexType bookmark`, musicxml.xsd 3651-3658. -/
def c_bookmark : List SchemaAttr := [⟨chars "id", true, .t_xs_ID⟩, ⟨chars "name", false, .t_xs_token⟩] ++ g_element_position
/-- `complexType link`, musicxml.xsd 3660-3668. -/
def c_link : List SchemaAttr := g_link_attributes ++ [⟨chars "name", false, .t_xs_token⟩] ++ g_element_position ++ g_position
/-- `complexType accidental`, musicxml.xsd 3672-3684. -/
def c_accidental : List SchemaAttr := [⟨chars "cautionary", false, .t_yes_no⟩, ⟨chars "editorial", false, .t_yes_no⟩] ++ g_level_display ++ g_print_style
/-- `complexType accidental-mark`, musicxml.xsd 3686-3696. -/
def c_accidental_mark : List SchemaAttr := g_print_style ++ g_placement
/-- `complexType arpeggiate`, musicxml.xsd 3698-3707. -/
def c_arpeggiate : List SchemaAttr := [⟨chars "number", false, .t_number_level⟩,
   ⟨chars "direction", false, .t_up_down⟩] ++
  g_position ++
  g_placement ++
  g_color
/-- `complexType articulations`, musicxml.xsd 3709-3791. -/
def c_articulations : List SchemaAttr := []
/-- `complexType arrow`, musicxml.xsd 3793-3806. -/
def c_arrow : List SchemaAttr := g_print_style ++ g_placement
/-- `complexType backup`, musicxml.xsd 3808-3816. -/
def c_backup : List SchemaAttr := []
/-- `complexType beam`, musicxml.xsd 3818-3836. -/
def c_beam : List SchemaAttr := [⟨chars "number", false, .t_beam_level⟩, ⟨chars "repeater", false, .t_yes_no⟩, ⟨chars "fan", false, .t_fan⟩] ++ g_color
/-- `complexType bend`, musicxml.xsd 3838-3868. -/
def c_bend : List SchemaAttr := g_print_style ++ g_bend_sound
/-- `complexType breath-mark`, musicxml.xsd 3870-3880. -/
def c_breath_mark : List SchemaAttr := g_print_style ++ g_placement
/-- `complexType empty-line`, musicxml.xsd 3882-3891. -/
def c_empty_line : List SchemaAttr := g_line_shape ++ g_line_type ++ g_dashed_formatting ++ g_print_style ++ g_placement
/-- `complexType extend`, musicxml.xsd 3893-3899. -/
def c_extend : List SchemaAttr := [⟨chars "type", false, .t_start_stop_continue⟩] ++ g_print_style
/-- `complexType figure`, musicxml.xsd 3901-3923. -/
def c_figure : List SchemaAttr := []
/-- `complexType figured-bass`, musicxml.xsd 3925-3939. -/
def c_figured_bass : List SchemaAttr := g_print_style ++ g_printout ++ [⟨chars "parentheses", false, .t_yes_no⟩]
/-- `complexType forward`, musicxml.xsd 3941-3950. -/
def c_forward : List SchemaAttr := []
/-- `complexType glissando`, musicxml.xsd 3952-3965. -/
def c_glissando : List SchemaAttr := [⟨chars "type", true, .t_start_stop⟩,
   ⟨chars "number", false, .t_number_level⟩] ++
  g_line_type ++
  g_dashed_formatting ++
  g_print_style
/-- `complexType grace`, musicxml.xsd 3967-3975. -/
def c_grace : List SchemaAttr := [⟨chars "steal-time-previous", false, .t_percent⟩,
   ⟨chars "steal-time-following", false, .t_percent⟩,
   ⟨chars "make-time", false, .t_divisions⟩,
   ⟨chars "slash", false, .t_yes_no⟩]
/-- `complexType hammer-on-pull-off`, musicxml.xsd 3977-3989. -/
def c_hammer_on_pull_off : List SchemaAttr := [⟨chars "type", true, .t_start_stop⟩, ⟨chars "number", false, .t_number_level⟩] ++ g_print_style ++ g_placement
/-- `complexType handbell`, musicxml.xsd 3991-4001. -/
def c_handbell : List SchemaAttr := g_print_style ++ g_placement
/-- `complexType harmonic`, musicxml.xsd 4003-4041. -/
def c_harmonic : List SchemaAttr := g_print_object ++ g_print_style ++ g_placement
/-- `complexType heel-toe`, musicxml.xsd 4043-4052. -/
def c_heel_toe : List SchemaAttr := c_empty_placement ++ [⟨chars "substitution", false, .t_yes_no⟩]
/-- `complexType hole`, musicxml.xsd 4054-4073. -/
def c_hole : List SchemaAttr := g_print_style ++ g_placement
/-- `complexType hole-closed`, musicxml.xsd 4075-4084. -/
def c_hole_closed : List SchemaAttr := [⟨chars "location", false, .t_hole_closed_location⟩]
/-- `complexType instrument`, musicxml.xsd 4086-4091. -/
def c_instrument : List SchemaAttr := [⟨chars "id", true, .t_xs_IDREF⟩]
/-- `complexType lyric`, musicxml.xsd 4093-4142. -/
def c_lyric : List SchemaAttr := [⟨chars "number", false, .t_xs_NMTOKEN⟩,
   ⟨chars "name", false, .t_xs_token⟩] ++
  g_justify ++
  g_position ++
  g_placement ++
  g_color ++
  g_print_object
/-- `complexType mordent`, musicxml.xsd 4144-4155. -/
def c_mordent : List SchemaAttr := c_empty_trill_sound ++
  [⟨chars "long", false, .t_yes_no⟩,
   ⟨chars "approach", false, .t_above_below⟩,
   ⟨chars "departure", false, .t_above_below⟩]
/-- `complexType non-arpeggiate`, musicxml.xsd 4157-4166. -/
def c_non_arpeggiate : List SchemaAttr := [⟨chars "type", true, .t_top_bottom⟩, ⟨chars "number", false, .t_number_level⟩] ++ g_position ++ g_placement ++ g_color
/-- `complexType notations`, musicxml.xsd 4168-4192. -/
def c_notations : List SchemaAttr := g_print_object
/-- `complexType note`, musicxml.xsd 4194-4251. -/
def c_note : List SchemaAttr := g_x_position ++
  g_font ++
  g_color ++
  g_printout ++
  [⟨chars "dynamics", false, .t_non_negative_decimal⟩,
   ⟨chars "end-dynamics", false, .t_non_negative_decimal⟩,
   ⟨chars "attack", false, .t_divisions⟩,
   ⟨chars "release", false, .t_divisions⟩,
   ⟨chars "time-only", false, .t_time_only⟩,
   ⟨chars "pizzicato", false, .t_yes_no⟩]
/-- `complexType note-type`, musicxml.xsd 4253-4262. -/
def c_note_type : List SchemaAttr := [⟨chars "size", false, .t_symbol_size⟩]
/-- `complexType notehead`, musicxml.xsd 4264-4280. -/
def c_notehead : List SchemaAttr := [⟨chars "filled", false, .t_yes_no⟩, ⟨chars "parentheses", false, .t_yes_no⟩] ++ g_font ++ g_color
/-- `complexType notehead-text`, musicxml.xsd 4282-4292. -/
def c_notehead_text : List SchemaAttr := []
/-- `complexType ornaments`, musicxml.xsd 4294-4360. -/
def c_ornaments : List SchemaAttr := []
/-- `complexType other-notation`, musicxml.xsd 4362-4375. -/
def c_other_notation : List SchemaAttr := [⟨chars "type", true, .t_start_stop_single⟩,
   ⟨chars "number", false, .t_number_level⟩] ++
  g_print_object ++
  g_print_style ++
  g_placement
/-- `complexType pitch`, musicxml.xsd 4377-4386. -/
def c_pitch : List SchemaAttr := []
/-- `complexType placement-text`, musicxml.xsd 4388-4398. -/
def c_placement_text : List SchemaAttr := g_print_style ++ g_placement
/-- `complexType rest`, musicxml.xsd 4400-4408. -/
def c_rest : List SchemaAttr := [⟨chars "measure", false, .t_yes_no⟩]
/-- `complexType slide`, musicxml.xsd 4410-4424. -/
def c_slide : List SchemaAttr := [⟨chars "type", true, .t_start_stop⟩,
   ⟨chars "number", false, .t_number_level⟩] ++
  g_line_type ++
  g_dashed_formatting ++
  g_print_style ++
  g_bend_sound
/-- `complexType slur`, musicxml.xsd 4426-4439. -/
def c_slur : List SchemaAttr := [⟨chars "type", true, .t_start_stop_continue⟩,
   ⟨chars "number", false, .t_number_level⟩] ++
  g_line_type ++
  g_dashed_formatting ++
  g_position ++
  g_placement ++
  g_orientation ++
  g_bezier ++
  g_color
/-- `complexType stem`, musicxml.xsd 4441-4451. -/
def c_stem : List SchemaAttr := g_y_position ++ g_color
/-- `complexType strong-accent`, musicxml.xsd 4453-4462. -/
def c_strong_accent : List SchemaAttr := c_empty_placement ++ [⟨chars "type", false, .t_up_down⟩]
/-- `complexType style-text`, musicxml.xsd 4464-4473. -/
def c_style_text : List SchemaAttr := g_print_style
/-- `complexType technical`, musicxml.xsd 4475-4553. -/
def c_technical : List SchemaAttr := []
/-- `complexType text-element-data`, musicxml.xsd 4555-4570. -/
def c_text_element_data : List SchemaAttr := g_font ++
  g_color ++
  g_text_decoration ++
  g_text_rotation ++
  g_letter_spacing ++
  [⟨chars "xml:lang", false, .t_xml_lang⟩] ++
  g_text_direction
/-- `complexType text-font-color`, musicxml.xsd 4572-4587. -/
def c_text_font_color : List SchemaAttr := g_font ++
  g_color ++
  g_text_decoration ++
  g_text_rotation ++
  g_letter_spacing ++
  [⟨chars "xml:lang", false, .t_xml_lang⟩] ++
  g_text_direction
/-- `complexType tie`, musicxml.xsd 4589-4595. -/
def c_tie : List SchemaAttr := [⟨chars "type", true, .t_start_stop⟩, ⟨chars "time-only", false, .t_time_only⟩]
/-- `complexType tied`, musicxml.xsd 4597-4612. -/
def c_tied : List SchemaAttr := [⟨chars "type", true, .t_start_stop_continue⟩,
   ⟨chars "number", false, .t_number_level⟩] ++
  g_line_type ++
  g_dashed_formatting ++
  g_position ++
  g_placement ++
  g_orientation ++
  g_bezier ++
  g_color
/-- `complexType tremolo`, musicxml.xsd 4644-4659. -/
def c_tremolo : List SchemaAttr := [⟨chars "type", false, .t_start_stop_single⟩] ++ g_print_style ++ g_placement
/-- `complexType tuplet`, musicxml.xsd 4661-4689. -/
def c_tuplet : List SchemaAttr := [⟨chars "type", true, .t_start_stop⟩,
   ⟨chars "number", false, .t_number_level⟩,
   ⟨chars "bracket", false, .t_yes_no⟩,
   ⟨chars "show-number", false, .t_show_tuplet⟩,
   ⟨chars "show-type", false, .t_show_tuplet⟩] ++
  g_line_shape ++
  g_position ++
  g_placement
/-- `complexType tuplet-dot`, musicxml.xsd 4691-4697. -/
def c_tuplet_dot : List SchemaAttr := g_font ++ g_color
/-- `complexType tuplet-number`, musicxml.xsd 4699-4709. -/
def c_tuplet_number : List SchemaAttr := g_font ++ g_color
/-- `complexType tuplet-portion`, musicxml.xsd 4711-4720. -/
def c_tuplet_portion : List SchemaAttr := []
/-- `complexType tuplet-type`, musicxml.xsd 4722-4732. -/
def c_tuplet_type : List SchemaAttr := g_font ++ g_color
/-- `complexType unpitched`, musicxml.xsd 4734-4741. -/
def c_unpitched : List SchemaAttr := []
/-- `complexType credit`, musicxml.xsd 4745-4773. -/
def c_credit : List SchemaAttr := [⟨chars "page", false, .t_xs_positiveInteger⟩]
/-- `complexType defaults`, musicxml.xsd 4775-4788. -/
def c_defaults : List SchemaAttr := []
/-- `complexType empty-font`, musicxml.xsd 4790-4795. -/
def c_empty_font : List SchemaAttr := g_font
/-- `complexType group-barline`, musicxml.xsd 4797-4806. -/
def c_group_barline : List SchemaAttr := g_color
/-- `complexType group-name`, musicxml.xsd 4808-4817. -/
def c_group_name : List SchemaAttr := g_group_name_text
/-- `complexType group-symbol`, musicxml.xsd 4819-4829. -/
def c_group_symbol : List SchemaAttr := g_position ++ g_color
/-- `complexType lyric-font`, musicxml.xsd 4831-4838. -/
def c_lyric_font : List SchemaAttr := [⟨chars "number", false, .t_xs_NMTOKEN⟩, ⟨chars "name", false, .t_xs_token⟩] ++ g_font
/-- `complexType lyric-language`, musicxml.xsd 4840-4847. -/
def c_lyric_language : List SchemaAttr := [⟨chars "number", false, .t_xs_NMTOKEN⟩, ⟨chars "name", false, .t_xs_token⟩, ⟨chars "xml:lang", true, .t_xml_lang⟩]
/-- `complexType opus`, musicxml.xsd 4849-4854. -/
def c_opus : List SchemaAttr := g_link_attributes
/-- `complexType part-group`, musicxml.xsd 4856-4888. -/
def c_part_group : List SchemaAttr := [⟨chars "type", true, .t_start_stop⟩, ⟨chars "number", false, .t_xs_token⟩]
/-- `complexType part-list`, musicxml.xsd 4890-4902. -/
def c_part_list : List SchemaAttr := []
/-- `complexType part-name`, musicxml.xsd 4904-4913. -/
def c_part_name : List SchemaAttr := g_part_name_text
/-- `complexType score-instrument`, musicxml.xsd 4915-4952. -/
def c_score_instrument : List SchemaAttr := [⟨chars "id", true, .t_xs_ID⟩]
/-- `complexType score-part`, musicxml.xsd 4954-4976. -/
def c_score_part : List SchemaAttr := [⟨chars "id", true, .t_xs_ID⟩]
/-- `complexType virtual-instrument`, musicxml.xsd 4978-4994. -/
def c_virtual_instrument : List SchemaAttr := []
/-- `complexType work`, musicxml.xsd 4996-5013. -/
def c_work : List SchemaAttr := []
/-- `element directive`, musicxml.xsd 2347-2359. -/
def e_directive : List SchemaAttr := g_print_style ++ [⟨chars "xml:lang", false, .t_xml_lang⟩]
/-- `element score-partwise`, musicxml.xsd 5378-5393. -/
def e_score_partwise : List SchemaAttr := g_document_attributes
/-- `element part`, musicxml.xsd 5385-5393. -/
def e_part : List SchemaAttr := g_part_attributes
/-- `element measure`, musicxml.xsd 5388-5393. -/
def e_measure : List SchemaAttr := g_measure_attributes
/-- `element score-timewise`, musicxml.xsd 5403-5418. -/
def e_score_timewise : List SchemaAttr := g_document_attributes

end Schema

open Schema in
/-- The elements of the schema and their attributes, part 1. -/
def schemaElements1 : List (List Char × List SchemaAttr) := [
  (chars "accent", c_empty_placement), (chars "accidental", c_accidental), (chars "accidental-mark", c_accidental_mark),
  (chars "accidental-text", c_accidental_text), (chars "accord", c_accord), (chars "accordion-high", c_empty),
  (chars "accordion-low", c_empty), (chars "accordion-middle", []), (chars "accordion-registration", c_accordion_registration),
  (chars "actual-notes", []), (chars "alter", []), (chars "appearance", c_appearance), (chars "arpeggiate", c_arpeggiate),
  (chars "arrow", c_arrow), (chars "arrow-direction", []), (chars "arrow-style", []), (chars "articulations", c_articulations),
  (chars "artificial", c_empty), (chars "attributes", c_attributes), (chars "backup", c_backup), (chars "bar-style", c_bar_style_color),
  (chars "barline", c_barline), (chars "barre", c_barre), (chars "base-pitch", c_empty), (chars "bass", c_bass),
  (chars "bass-alter", c_bass_alter), (chars "bass-step", c_bass_step), (chars "beam", c_beam), (chars "beat-repeat", c_beat_repeat),
  (chars "beat-type", []), (chars "beat-unit", []), (chars "beat-unit-dot", c_empty), (chars "beater", c_beater), (chars "beats", []),
  (chars "bend", c_bend), (chars "bend-alter", []), (chars "bookmark", c_bookmark), (chars "bottom-margin", []),
  (chars "bracket", c_bracket), (chars "breath-mark", c_breath_mark), (chars "caesura", c_empty_placement), (chars "cancel", c_cancel),
  (chars "capo", []), (chars "chord", c_empty), (chars "chromatic", []), (chars "circular-arrow", []), (chars "clef", c_clef),
  (chars "clef-octave-change", []), (chars "coda", c_empty_print_style_align), (chars "creator", c_typed_text), (chars "credit", c_credit),
  (chars "credit-image", c_image), (chars "credit-type", []), (chars "credit-words", c_formatted_text), (chars "cue", c_empty),
  (chars "damp", c_empty_print_style_align), (chars "damp-all", c_empty_print_style_align), (chars "dashes", c_dashes),
  (chars "defaults", c_defaults), (chars "degree", c_degree)]

open Schema in
/-- The elements of the schema and their attributes, part 2. -/
def schemaElements2 : List (List Char × List SchemaAttr) := [
  (chars "degree-alter", c_degree_alter), (chars "degree-type", c_degree_type), (chars "degree-value", c_degree_value),
  (chars "delayed-inverted-turn", c_horizontal_turn), (chars "delayed-turn", c_horizontal_turn),
  (chars "detached-legato", c_empty_placement), (chars "diatonic", []), (chars "direction", c_direction),
  (chars "direction-type", c_direction_type), (chars "directive", e_directive), (chars "display-octave", []), (chars "display-step", []),
  (chars "display-text", c_formatted_text), (chars "distance", c_distance), (chars "divisions", []), (chars "doit", c_empty_line),
  (chars "dot", c_empty_placement), (chars "double", c_empty), (chars "double-tongue", c_empty_placement),
  (chars "down-bow", c_empty_placement), (chars "duration", []), (chars "dynamics", c_dynamics), (chars "effect", []),
  (chars "elevation", []), (chars "elision", c_text_font_color), (chars "encoder", c_typed_text), (chars "encoding", c_encoding),
  (chars "encoding-date", []), (chars "encoding-description", []), (chars "end-line", c_empty), (chars "end-paragraph", c_empty),
  (chars "ending", c_ending), (chars "ensemble", []), (chars "extend", c_extend), (chars "eyeglasses", c_empty_print_style_align),
  (chars "f", c_empty), (chars "falloff", c_empty_line), (chars "feature", c_feature), (chars "fermata", c_fermata), (chars "ff", c_empty),
  (chars "fff", c_empty), (chars "ffff", c_empty), (chars "fffff", c_empty), (chars "ffffff", c_empty), (chars "fifths", []),
  (chars "figure", c_figure), (chars "figure-number", c_style_text), (chars "figured-bass", c_figured_bass),
  (chars "fingering", c_fingering), (chars "fingernails", c_empty_placement), (chars "first-fret", c_first_fret),
  (chars "footnote", c_formatted_text), (chars "forward", c_forward), (chars "fp", c_empty), (chars "frame", c_frame),
  (chars "frame-frets", []), (chars "frame-note", c_frame_note), (chars "frame-strings", []), (chars "fret", c_fret),
  (chars "function", c_style_text)]

open Schema in
/-- The elements of the schema and their attributes, part 3. -/
def schemaElements3 : List (List Char × List SchemaAttr) := [
  (chars "fz", c_empty), (chars "glass", []), (chars "glissando", c_glissando), (chars "grace", c_grace), (chars "group", []),
  (chars "group-abbreviation", c_group_name), (chars "group-abbreviation-display", c_name_display),
  (chars "group-barline", c_group_barline), (chars "group-name", c_group_name), (chars "group-name-display", c_name_display),
  (chars "group-symbol", c_group_symbol), (chars "group-time", c_empty), (chars "grouping", c_grouping),
  (chars "hammer-on", c_hammer_on_pull_off), (chars "handbell", c_handbell), (chars "harmonic", c_harmonic), (chars "harmony", c_harmony),
  (chars "harp-pedals", c_harp_pedals), (chars "heel", c_heel_toe), (chars "hole", c_hole), (chars "hole-closed", c_hole_closed),
  (chars "hole-shape", []), (chars "hole-type", []), (chars "humming", c_empty), (chars "identification", c_identification),
  (chars "image", c_image), (chars "instrument", c_instrument), (chars "instrument-abbreviation", []), (chars "instrument-name", []),
  (chars "instrument-sound", []), (chars "instruments", []), (chars "interchangeable", c_interchangeable),
  (chars "inversion", c_inversion), (chars "inverted-mordent", c_mordent), (chars "inverted-turn", c_horizontal_turn), (chars "ipa", []),
  (chars "key", c_key), (chars "key-accidental", []), (chars "key-alter", []), (chars "key-octave", c_key_octave), (chars "key-step", []),
  (chars "kind", c_kind), (chars "laughing", c_empty), (chars "left-divider", c_empty_print_object_style_align), (chars "left-margin", []),
  (chars "level", c_level), (chars "line", []), (chars "line-width", c_line_width), (chars "link", c_link), (chars "lyric", c_lyric),
  (chars "lyric-font", c_lyric_font), (chars "lyric-language", c_lyric_language), (chars "measure", e_measure),
  (chars "measure-distance", []), (chars "measure-layout", c_measure_layout), (chars "measure-numbering", c_measure_numbering),
  (chars "measure-repeat", c_measure_repeat), (chars "measure-style", c_measure_style), (chars "membrane", []), (chars "metal", [])]

open Schema in
/-- The elements of the schema and their attributes, part 4. -/
def schemaElements4 : List (List Char × List SchemaAttr) := [
  (chars "metronome", c_metronome), (chars "metronome-beam", c_metronome_beam), (chars "metronome-dot", c_empty),
  (chars "metronome-note", c_metronome_note), (chars "metronome-relation", []), (chars "metronome-tuplet", c_metronome_tuplet),
  (chars "metronome-type", []), (chars "mf", c_empty), (chars "midi-bank", []), (chars "midi-channel", []),
  (chars "midi-device", c_midi_device), (chars "midi-instrument", c_midi_instrument), (chars "midi-name", []), (chars "midi-program", []),
  (chars "midi-unpitched", []), (chars "millimeters", []), (chars "miscellaneous", c_miscellaneous),
  (chars "miscellaneous-field", c_miscellaneous_field), (chars "mode", []), (chars "mordent", c_mordent), (chars "movement-number", []),
  (chars "movement-title", []), (chars "mp", c_empty), (chars "multiple-rest", c_multiple_rest), (chars "music-font", c_empty_font),
  (chars "mute", []), (chars "natural", c_empty), (chars "non-arpeggiate", c_non_arpeggiate), (chars "normal-dot", c_empty),
  (chars "normal-notes", []), (chars "normal-type", []), (chars "notations", c_notations), (chars "note", c_note),
  (chars "note-size", c_note_size), (chars "notehead", c_notehead), (chars "notehead-text", c_notehead_text), (chars "octave", []),
  (chars "octave-change", []), (chars "octave-shift", c_octave_shift), (chars "offset", c_offset),
  (chars "open-string", c_empty_placement), (chars "opus", c_opus), (chars "ornaments", c_ornaments),
  (chars "other-appearance", c_other_appearance), (chars "other-articulation", c_placement_text),
  (chars "other-direction", c_other_direction), (chars "other-dynamics", []), (chars "other-notation", c_other_notation),
  (chars "other-ornament", c_placement_text), (chars "other-percussion", []), (chars "other-play", c_other_play),
  (chars "other-technical", c_placement_text), (chars "p", c_empty), (chars "page-height", []), (chars "page-layout", c_page_layout),
  (chars "page-margins", c_page_margins), (chars "page-width", []), (chars "pan", []), (chars "part", e_part),
  (chars "part-abbreviation", c_part_name)]

open Schema in
/-- The elements of the schema and their attributes, part 5. -/
def schemaElements5 : List (List Char × List SchemaAttr) := [
  (chars "part-abbreviation-display", c_name_display), (chars "part-group", c_part_group), (chars "part-list", c_part_list),
  (chars "part-name", c_part_name), (chars "part-name-display", c_name_display), (chars "part-symbol", c_part_symbol),
  (chars "pedal", c_pedal), (chars "pedal-alter", []), (chars "pedal-step", []), (chars "pedal-tuning", c_pedal_tuning),
  (chars "per-minute", c_per_minute), (chars "percussion", c_percussion), (chars "pitch", c_pitch), (chars "pitched", []),
  (chars "play", c_play), (chars "plop", c_empty_line), (chars "pluck", c_placement_text), (chars "pp", c_empty), (chars "ppp", c_empty),
  (chars "pppp", c_empty), (chars "ppppp", c_empty), (chars "pppppp", c_empty), (chars "pre-bend", c_empty),
  (chars "prefix", c_style_text), (chars "principal-voice", c_principal_voice), (chars "print", c_print),
  (chars "pull-off", c_hammer_on_pull_off), (chars "rehearsal", c_formatted_text), (chars "relation", c_typed_text),
  (chars "release", c_empty), (chars "repeat", c_repeat), (chars "rest", c_rest), (chars "rf", c_empty), (chars "rfz", c_empty),
  (chars "right-divider", c_empty_print_object_style_align), (chars "right-margin", []), (chars "rights", c_typed_text),
  (chars "root", c_root), (chars "root-alter", c_root_alter), (chars "root-step", c_root_step), (chars "scaling", c_scaling),
  (chars "schleifer", c_empty_placement), (chars "scoop", c_empty_line), (chars "scordatura", c_scordatura),
  (chars "score-instrument", c_score_instrument), (chars "score-part", c_score_part), (chars "score-partwise", e_score_partwise),
  (chars "score-timewise", e_score_timewise), (chars "segno", c_empty_print_style_align), (chars "semi-pitched", []),
  (chars "senza-misura", []), (chars "sf", c_empty), (chars "sffz", c_empty), (chars "sfp", c_empty), (chars "sfpp", c_empty),
  (chars "sfz", c_empty), (chars "shake", c_empty_trill_sound), (chars "sign", []), (chars "slash", c_slash), (chars "slash-dot", c_empty)]

open Schema in
/-- The elements of the schema and their attributes, part 6. -/
def schemaElements6 : List (List Char × List SchemaAttr) := [
  (chars "slash-type", []), (chars "slide", c_slide), (chars "slur", c_slur), (chars "snap-pizzicato", c_empty_placement),
  (chars "software", []), (chars "solo", c_empty), (chars "sound", c_sound), (chars "sounding-pitch", c_empty), (chars "source", []),
  (chars "spiccato", c_empty_placement), (chars "staccatissimo", c_empty_placement), (chars "staccato", c_empty_placement),
  (chars "staff", []), (chars "staff-details", c_staff_details), (chars "staff-distance", []), (chars "staff-layout", c_staff_layout),
  (chars "staff-lines", []), (chars "staff-size", []), (chars "staff-tuning", c_staff_tuning), (chars "staff-type", []),
  (chars "staves", []), (chars "stem", c_stem), (chars "step", []), (chars "stick", c_stick), (chars "stick-location", []),
  (chars "stick-material", []), (chars "stick-type", []), (chars "stopped", c_empty_placement), (chars "stress", c_empty_placement),
  (chars "string", c_string), (chars "string-mute", c_string_mute), (chars "strong-accent", c_strong_accent),
  (chars "suffix", c_style_text), (chars "supports", c_supports), (chars "syllabic", []), (chars "system-distance", []),
  (chars "system-dividers", c_system_dividers), (chars "system-layout", c_system_layout), (chars "system-margins", c_system_margins),
  (chars "tap", c_placement_text), (chars "technical", c_technical), (chars "tenths", []), (chars "tenuto", c_empty_placement),
  (chars "text", c_text_element_data), (chars "thumb-position", c_empty_placement), (chars "tie", c_tie), (chars "tied", c_tied),
  (chars "time", c_time), (chars "time-modification", c_time_modification), (chars "time-relation", []), (chars "timpani", c_empty),
  (chars "toe", c_heel_toe), (chars "top-margin", []), (chars "top-system-distance", []), (chars "touching-pitch", c_empty),
  (chars "transpose", c_transpose), (chars "tremolo", c_tremolo), (chars "trill-mark", c_empty_trill_sound),
  (chars "triple-tongue", c_empty_placement), (chars "tuning-alter", [])]

open Schema in
/-- The elements of the schema and their attributes, part 7. -/
def schemaElements7 : List (List Char × List SchemaAttr) := [
  (chars "tuning-octave", []), (chars "tuning-step", []), (chars "tuplet", c_tuplet), (chars "tuplet-actual", c_tuplet_portion),
  (chars "tuplet-dot", c_tuplet_dot), (chars "tuplet-normal", c_tuplet_portion), (chars "tuplet-number", c_tuplet_number),
  (chars "tuplet-type", c_tuplet_type), (chars "turn", c_horizontal_turn), (chars "type", c_note_type), (chars "unpitched", c_unpitched),
  (chars "unstress", c_empty_placement), (chars "up-bow", c_empty_placement), (chars "vertical-turn", c_empty_trill_sound),
  (chars "virtual-instrument", c_virtual_instrument), (chars "virtual-library", []), (chars "virtual-name", []), (chars "voice", []),
  (chars "volume", []), (chars "wavy-line", c_wavy_line), (chars "wedge", c_wedge), (chars "with-bar", c_placement_text),
  (chars "wood", []), (chars "word-font", c_empty_font), (chars "words", c_formatted_text), (chars "work", c_work),
  (chars "work-number", []), (chars "work-title", [])]

/-- The elements of the schema and their attributes. -/
def schemaElements : List (List Char × List SchemaAttr) :=
  schemaElements1 ++ schemaElements2 ++ schemaElements3 ++ schemaElements4 ++ schemaElements5 ++ schemaElements6 ++ schemaElements7

end Mx.Spec
