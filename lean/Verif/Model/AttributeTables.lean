import Verif.Model.Attributes

/-
The attribute structs of the elements, private/mx/core/elements/*Attributes.h and .cpp.  Generated from the source by a script: for each struct its members in
the order of declaration (type; whether the constructor sets the flag, which then is a constant), the flags in `hasValues`, the lines of `toStream`
(member, name, flag) and of `fromXElementImpl` (name, member, flag) in their order, and the local flags checked at the end.
-/
namespace Mx

namespace AttrTables

/-- The attribute name `accelerate`. -/
def n_accelerate : Str := chars "accelerate"
/-- The attribute name `actuate`. -/
def n_actuate : Str := chars "actuate"
/-- The attribute name `additional`. -/
def n_additional : Str := chars "additional"
/-- The attribute name `after-barline`. -/
def n_after_barline : Str := chars "after-barline"
/-- The attribute name `alternate`. -/
def n_alternate : Str := chars "alternate"
/-- The attribute name `approach`. -/
def n_approach : Str := chars "approach"
/-- The attribute name `attack`. -/
def n_attack : Str := chars "attack"
/-- The attribute name `attribute`. -/
def n_attribute : Str := chars "attribute"
/-- The attribute name `beats`. -/
def n_beats : Str := chars "beats"
/-- The attribute name `bezier-offset`. -/
def n_bezier_offset : Str := chars "bezier-offset"
/-- The attribute name `bezier-offset-2`. -/
def n_bezier_offset_2 : Str := chars "bezier-offset-2"
/-- The attribute name `bezier-offset2`. -/
def n_bezier_offset2 : Str := chars "bezier-offset2"
/-- The attribute name `bezier-x`. -/
def n_bezier_x : Str := chars "bezier-x"
/-- The attribute name `bezier-x-2`. -/
def n_bezier_x_2 : Str := chars "bezier-x-2"
/-- The attribute name `bezier-x2`. -/
def n_bezier_x2 : Str := chars "bezier-x2"
/-- The attribute name `bezier-y`. -/
def n_bezier_y : Str := chars "bezier-y"
/-- The attribute name `bezier-y-2`. -/
def n_bezier_y_2 : Str := chars "bezier-y-2"
/-- The attribute name `bezier-y2`. -/
def n_bezier_y2 : Str := chars "bezier-y2"
/-- The attribute name `blank-page`. -/
def n_blank_page : Str := chars "blank-page"
/-- The attribute name `bottom-staff`. -/
def n_bottom_staff : Str := chars "bottom-staff"
/-- The attribute name `bracket`. -/
def n_bracket : Str := chars "bracket"
/-- The attribute name `bracket-degrees`. -/
def n_bracket_degrees : Str := chars "bracket-degrees"
/-- The attribute name `cancel`. -/
def n_cancel : Str := chars "cancel"
/-- The attribute name `cautionary`. -/
def n_cautionary : Str := chars "cautionary"
/-- The attribute name `coda`. -/
def n_coda : Str := chars "coda"
/-- The attribute name `color`. -/
def n_color : Str := chars "color"
/-- The attribute name `dacapo`. -/
def n_dacapo : Str := chars "dacapo"
/-- The attribute name `dalsegno`. -/
def n_dalsegno : Str := chars "dalsegno"
/-- The attribute name `damper-pedal`. -/
def n_damper_pedal : Str := chars "damper-pedal"
/-- The attribute name `dash-length`. -/
def n_dash_length : Str := chars "dash-length"
/-- The attribute name `default-x`. -/
def n_default_x : Str := chars "default-x"
/-- The attribute name `default-y`. -/
def n_default_y : Str := chars "default-y"
/-- The attribute name `departure`. -/
def n_departure : Str := chars "departure"
/-- The attribute name `direction`. -/
def n_direction : Str := chars "direction"
/-- The attribute name `directive`. -/
def n_directive : Str := chars "directive"
/-- The attribute name `divisions`. -/
def n_divisions : Str := chars "divisions"
/-- The attribute name `dynamics`. -/
def n_dynamics : Str := chars "dynamics"
/-- The attribute name `editorial`. -/
def n_editorial : Str := chars "editorial"
/-- The attribute name `element`. -/
def n_element : Str := chars "element"
/-- The attribute name `elevation`. -/
def n_elevation : Str := chars "elevation"
/-- The attribute name `enclosure`. -/
def n_enclosure : Str := chars "enclosure"
/-- The attribute name `end-dynamics`. -/
def n_end_dynamics : Str := chars "end-dynamics"
/-- The attribute name `end-length`. -/
def n_end_length : Str := chars "end-length"
/-- The attribute name `fan`. -/
def n_fan : Str := chars "fan"
/-- The attribute name `filled`. -/
def n_filled : Str := chars "filled"
/-- The attribute name `fine`. -/
def n_fine : Str := chars "fine"
/-- The attribute name `first-beat`. -/
def n_first_beat : Str := chars "first-beat"
/-- The attribute name `font-family`. -/
def n_font_family : Str := chars "font-family"
/-- The attribute name `font-size`. -/
def n_font_size : Str := chars "font-size"
/-- The attribute name `font-style`. -/
def n_font_style : Str := chars "font-style"
/-- The attribute name `font-weight`. -/
def n_font_weight : Str := chars "font-weight"
/-- The attribute name `forward-repeat`. -/
def n_forward_repeat : Str := chars "forward-repeat"
/-- The attribute name `halign`. -/
def n_halign : Str := chars "halign"
/-- The attribute name `height`. -/
def n_height : Str := chars "height"
/-- The attribute name `href`. -/
def n_href : Str := chars "href"
/-- The attribute name `id`. -/
def n_id : Str := chars "id"
/-- The attribute name `implicit`. -/
def n_implicit : Str := chars "implicit"
/-- The attribute name `justify`. -/
def n_justify : Str := chars "justify"
/-- The attribute name `lang`. -/
def n_lang : Str := chars "lang"
/-- The attribute name `last-beat`. -/
def n_last_beat : Str := chars "last-beat"
/-- The attribute name `letter-spacing`. -/
def n_letter_spacing : Str := chars "letter-spacing"
/-- The attribute name `line`. -/
def n_line : Str := chars "line"
/-- The attribute name `line-end`. -/
def n_line_end : Str := chars "line-end"
/-- The attribute name `line-height`. -/
def n_line_height : Str := chars "line-height"
/-- The attribute name `line-shape`. -/
def n_line_shape : Str := chars "line-shape"
/-- The attribute name `line-through`. -/
def n_line_through : Str := chars "line-through"
/-- The attribute name `line-type`. -/
def n_line_type : Str := chars "line-type"
/-- The attribute name `location`. -/
def n_location : Str := chars "location"
/-- The attribute name `long`. -/
def n_long : Str := chars "long"
/-- The attribute name `make-time`. -/
def n_make_time : Str := chars "make-time"
/-- The attribute name `measure`. -/
def n_measure : Str := chars "measure"
/-- The attribute name `member-of`. -/
def n_member_of : Str := chars "member-of"
/-- The attribute name `name`. -/
def n_name : Str := chars "name"
/-- The attribute name `new-page`. -/
def n_new_page : Str := chars "new-page"
/-- The attribute name `new-system`. -/
def n_new_system : Str := chars "new-system"
/-- The attribute name `niente`. -/
def n_niente : Str := chars "niente"
/-- The attribute name `non-controlling`. -/
def n_non_controlling : Str := chars "non-controlling"
/-- The attribute name `number`. -/
def n_number : Str := chars "number"
/-- The attribute name `orientation`. -/
def n_orientation : Str := chars "orientation"
/-- The attribute name `overline`. -/
def n_overline : Str := chars "overline"
/-- The attribute name `page`. -/
def n_page : Str := chars "page"
/-- The attribute name `page-number`. -/
def n_page_number : Str := chars "page-number"
/-- The attribute name `pan`. -/
def n_pan : Str := chars "pan"
/-- The attribute name `parentheses`. -/
def n_parentheses : Str := chars "parentheses"
/-- The attribute name `parentheses-degrees`. -/
def n_parentheses_degrees : Str := chars "parentheses-degrees"
/-- The attribute name `pizzicato`. -/
def n_pizzicato : Str := chars "pizzicato"
/-- The attribute name `placement`. -/
def n_placement : Str := chars "placement"
/-- The attribute name `plus-minus`. -/
def n_plus_minus : Str := chars "plus-minus"
/-- The attribute name `port`. -/
def n_port : Str := chars "port"
/-- The attribute name `position`. -/
def n_position : Str := chars "position"
/-- The attribute name `print-dot`. -/
def n_print_dot : Str := chars "print-dot"
/-- The attribute name `print-frame`. -/
def n_print_frame : Str := chars "print-frame"
/-- The attribute name `print-lyric`. -/
def n_print_lyric : Str := chars "print-lyric"
/-- The attribute name `print-object`. -/
def n_print_object : Str := chars "print-object"
/-- The attribute name `print-spacing`. -/
def n_print_spacing : Str := chars "print-spacing"
/-- The attribute name `reference`. -/
def n_reference : Str := chars "reference"
/-- The attribute name `relative-x`. -/
def n_relative_x : Str := chars "relative-x"
/-- The attribute name `relative-y`. -/
def n_relative_y : Str := chars "relative-y"
/-- The attribute name `release`. -/
def n_release : Str := chars "release"
/-- The attribute name `repeater`. -/
def n_repeater : Str := chars "repeater"
/-- The attribute name `role`. -/
def n_role : Str := chars "role"
/-- The attribute name `rotation`. -/
def n_rotation : Str := chars "rotation"
/-- The attribute name `second-beat`. -/
def n_second_beat : Str := chars "second-beat"
/-- The attribute name `segno`. -/
def n_segno : Str := chars "segno"
/-- The attribute name `separator`. -/
def n_separator : Str := chars "separator"
/-- The attribute name `show`. -/
def n_show : Str := chars "show"
/-- The attribute name `show-frets`. -/
def n_show_frets : Str := chars "show-frets"
/-- The attribute name `show-number`. -/
def n_show_number : Str := chars "show-number"
/-- The attribute name `show-type`. -/
def n_show_type : Str := chars "show-type"
/-- The attribute name `sign`. -/
def n_sign : Str := chars "sign"
/-- The attribute name `size`. -/
def n_size : Str := chars "size"
/-- The attribute name `slash`. -/
def n_slash : Str := chars "slash"
/-- The attribute name `slashes`. -/
def n_slashes : Str := chars "slashes"
/-- The attribute name `soft-pedal`. -/
def n_soft_pedal : Str := chars "soft-pedal"
/-- The attribute name `sostenuto-pedal`. -/
def n_sostenuto_pedal : Str := chars "sostenuto-pedal"
/-- The attribute name `sound`. -/
def n_sound : Str := chars "sound"
/-- The attribute name `source`. -/
def n_source : Str := chars "source"
/-- The attribute name `space`. -/
def n_space : Str := chars "space"
/-- The attribute name `space-length`. -/
def n_space_length : Str := chars "space-length"
/-- The attribute name `spread`. -/
def n_spread : Str := chars "spread"
/-- The attribute name `stack-degrees`. -/
def n_stack_degrees : Str := chars "stack-degrees"
/-- The attribute name `staff-spacing`. -/
def n_staff_spacing : Str := chars "staff-spacing"
/-- The attribute name `start-note`. -/
def n_start_note : Str := chars "start-note"
/-- The attribute name `steal-time-following`. -/
def n_steal_time_following : Str := chars "steal-time-following"
/-- The attribute name `steal-time-previous`. -/
def n_steal_time_previous : Str := chars "steal-time-previous"
/-- The attribute name `string`. -/
def n_string : Str := chars "string"
/-- The attribute name `substitution`. -/
def n_substitution : Str := chars "substitution"
/-- The attribute name `symbol`. -/
def n_symbol : Str := chars "symbol"
/-- The attribute name `tempo`. -/
def n_tempo : Str := chars "tempo"
/-- The attribute name `text`. -/
def n_text : Str := chars "text"
/-- The attribute name `text-x`. -/
def n_text_x : Str := chars "text-x"
/-- The attribute name `text-y`. -/
def n_text_y : Str := chars "text-y"
/-- The attribute name `time-only`. -/
def n_time_only : Str := chars "time-only"
/-- The attribute name `times`. -/
def n_times : Str := chars "times"
/-- The attribute name `tip`. -/
def n_tip : Str := chars "tip"
/-- The attribute name `title`. -/
def n_title : Str := chars "title"
/-- The attribute name `tocoda`. -/
def n_tocoda : Str := chars "tocoda"
/-- The attribute name `top-staff`. -/
def n_top_staff : Str := chars "top-staff"
/-- The attribute name `trill-step`. -/
def n_trill_step : Str := chars "trill-step"
/-- The attribute name `two-note-turn`. -/
def n_two_note_turn : Str := chars "two-note-turn"
/-- The attribute name `type`. -/
def n_type : Str := chars "type"
/-- The attribute name `underline`. -/
def n_underline : Str := chars "underline"
/-- The attribute name `unplayed`. -/
def n_unplayed : Str := chars "unplayed"
/-- The attribute name `use-dots`. -/
def n_use_dots : Str := chars "use-dots"
/-- The attribute name `use-stems`. -/
def n_use_stems : Str := chars "use-stems"
/-- The attribute name `use-symbols`. -/
def n_use_symbols : Str := chars "use-symbols"
/-- The attribute name `valign`. -/
def n_valign : Str := chars "valign"
/-- The attribute name `value`. -/
def n_value : Str := chars "value"
/-- The attribute name `version`. -/
def n_version : Str := chars "version"
/-- The attribute name `width`. -/
def n_width : Str := chars "width"
/-- The attribute name `winged`. -/
def n_winged : Str := chars "winged"
/-- The attribute name `xlink:actuate`. -/
def n_xlink_actuate : Str := chars "xlink:actuate"
/-- The attribute name `xlink:href`. -/
def n_xlink_href : Str := chars "xlink:href"
/-- The attribute name `xlink:role`. -/
def n_xlink_role : Str := chars "xlink:role"
/-- The attribute name `xlink:show`. -/
def n_xlink_show : Str := chars "xlink:show"
/-- The attribute name `xlink:title`. -/
def n_xlink_title : Str := chars "xlink:title"
/-- The attribute name `xlink:type`. -/
def n_xlink_type : Str := chars "xlink:type"
/-- The attribute name `xml:lang`. -/
def n_xml_lang : Str := chars "xml:lang"
/-- The attribute name `xml:space`. -/
def n_xml_space : Str := chars "xml:space"

/-- `AccidentalAttributes`, private/mx/core/elements/AccidentalAttributes.h 25, private/mx/core/elements/AccidentalAttributes.cpp 13-111. -/
def AccidentalAttributes : AttrClass where
  members := [⟨.enum .YesNo, false⟩, ⟨.enum .YesNo, false⟩, ⟨.enum .YesNo, false⟩, ⟨.enum .YesNo, false⟩, ⟨.enum .SymbolSize, false⟩,
    ⟨.decimal .TenthsValue, false⟩, ⟨.decimal .TenthsValue, false⟩, ⟨.decimal .TenthsValue, false⟩, ⟨.decimal .TenthsValue, false⟩,
    ⟨.commaText, false⟩, ⟨.enum .FontStyle, false⟩, ⟨.fontSize, false⟩, ⟨.enum .FontWeight, false⟩]
  hasValues := [0, 1, 2, 3, 4, 5, 6, 7, 8, 9, 10, 11, 12]
  writes := [⟨0, n_cautionary, 0⟩, ⟨1, n_editorial, 1⟩, ⟨2, n_parentheses, 2⟩, ⟨3, n_bracket, 3⟩, ⟨4, n_size, 4⟩, ⟨5, n_default_x, 5⟩,
    ⟨6, n_default_y, 6⟩, ⟨7, n_relative_x, 7⟩, ⟨8, n_relative_y, 8⟩, ⟨9, n_font_family, 9⟩, ⟨10, n_font_style, 10⟩, ⟨11, n_font_size, 11⟩,
    ⟨12, n_font_weight, 12⟩]
  reads := [⟨n_cautionary, some 0, .has 0, false⟩, ⟨n_editorial, some 1, .has 1, false⟩, ⟨n_parentheses, some 2, .has 2, false⟩,
    ⟨n_bracket, some 3, .has 3, false⟩, ⟨n_size, some 4, .has 4, false⟩, ⟨n_default_x, some 5, .has 5, false⟩,
    ⟨n_default_y, some 6, .has 6, false⟩, ⟨n_relative_x, some 7, .has 7, false⟩, ⟨n_relative_y, some 8, .has 8, false⟩,
    ⟨n_font_family, some 9, .has 9, false⟩, ⟨n_font_style, some 10, .has 10, false⟩, ⟨n_font_size, some 11, .has 11, false⟩,
    ⟨n_font_weight, some 12, .has 12, false⟩]
  checks := []

/-- `AccidentalMarkAttributes`, private/mx/core/elements/AccidentalMarkAttributes.h 25, private/mx/core/elements/AccidentalMarkAttributes.cpp 13-91. -/
def AccidentalMarkAttributes : AttrClass where
  members := [⟨.decimal .TenthsValue, false⟩, ⟨.decimal .TenthsValue, false⟩, ⟨.decimal .TenthsValue, false⟩, ⟨.decimal .TenthsValue, false⟩,
    ⟨.commaText, false⟩, ⟨.enum .FontStyle, false⟩, ⟨.fontSize, false⟩, ⟨.enum .FontWeight, false⟩, ⟨.enum .AboveBelow, false⟩]
  hasValues := [0, 1, 2, 3, 4, 5, 6, 7, 8]
  writes := [⟨0, n_default_x, 0⟩, ⟨1, n_default_y, 1⟩, ⟨2, n_relative_x, 2⟩, ⟨3, n_relative_y, 3⟩, ⟨4, n_font_family, 4⟩, ⟨5, n_font_style, 5⟩,
    ⟨6, n_font_size, 6⟩, ⟨7, n_font_weight, 7⟩, ⟨8, n_placement, 8⟩]
  reads := [⟨n_default_x, some 0, .has 0, false⟩, ⟨n_default_y, some 1, .has 1, false⟩, ⟨n_relative_x, some 2, .has 2, false⟩,
    ⟨n_relative_y, some 3, .has 3, false⟩, ⟨n_font_family, some 4, .has 4, false⟩, ⟨n_font_style, some 5, .has 5, false⟩,
    ⟨n_font_size, some 6, .has 6, false⟩, ⟨n_font_weight, some 7, .has 7, false⟩, ⟨n_placement, some 8, .has 8, false⟩]
  checks := []

/-- `AccidentalTextAttributes`, private/mx/core/elements/AccidentalTextAttributes.h 28, private/mx/core/elements/AccidentalTextAttributes.cpp 13-143. -/
def AccidentalTextAttributes : AttrClass where
  members := [⟨.enum .LeftCenterRight, false⟩, ⟨.decimal .TenthsValue, false⟩, ⟨.decimal .TenthsValue, false⟩, ⟨.decimal .TenthsValue, false⟩,
    ⟨.decimal .TenthsValue, false⟩, ⟨.commaText, false⟩, ⟨.enum .FontStyle, false⟩, ⟨.fontSize, false⟩, ⟨.enum .FontWeight, false⟩,
    ⟨.enum .LeftCenterRight, false⟩, ⟨.int .NumberOfLines, false⟩, ⟨.int .NumberOfLines, false⟩, ⟨.int .NumberOfLines, false⟩,
    ⟨.decimal .RotationDegrees, false⟩, ⟨.numberOrNormal, false⟩, ⟨.numberOrNormal, false⟩, ⟨.string, false⟩, ⟨.enum .XmlSpace, false⟩,
    ⟨.enum .EnclosureShape, false⟩]
  hasValues := [0, 1, 2, 3, 4, 5, 6, 7, 8, 9, 10, 11, 12, 13, 14, 15, 16, 17, 18]
  writes := [⟨0, n_justify, 0⟩, ⟨1, n_default_x, 1⟩, ⟨2, n_default_y, 2⟩, ⟨3, n_relative_x, 3⟩, ⟨4, n_relative_y, 4⟩, ⟨5, n_font_family, 5⟩,
    ⟨6, n_font_style, 6⟩, ⟨7, n_font_size, 7⟩, ⟨8, n_font_weight, 8⟩, ⟨9, n_halign, 9⟩, ⟨10, n_underline, 10⟩, ⟨11, n_overline, 11⟩,
    ⟨12, n_line_through, 12⟩, ⟨13, n_rotation, 13⟩, ⟨14, n_letter_spacing, 14⟩, ⟨15, n_line_height, 15⟩, ⟨16, n_xml_lang, 16⟩,
    ⟨17, n_xml_space, 17⟩, ⟨18, n_enclosure, 18⟩]
  reads := [⟨n_justify, some 0, .has 0, false⟩, ⟨n_default_x, some 1, .has 1, false⟩, ⟨n_default_y, some 2, .has 2, false⟩,
    ⟨n_relative_x, some 3, .has 3, false⟩, ⟨n_relative_y, some 4, .has 4, false⟩, ⟨n_font_family, some 5, .has 5, false⟩,
    ⟨n_font_style, some 6, .has 6, false⟩, ⟨n_font_size, some 7, .has 7, false⟩, ⟨n_font_weight, some 8, .has 8, false⟩,
    ⟨n_halign, some 9, .has 9, false⟩, ⟨n_underline, some 10, .has 10, false⟩, ⟨n_overline, some 11, .has 11, false⟩,
    ⟨n_line_through, some 12, .has 12, false⟩, ⟨n_rotation, some 13, .has 13, false⟩, ⟨n_letter_spacing, some 14, .has 14, false⟩,
    ⟨n_line_height, some 15, .has 15, false⟩, ⟨n_lang, some 16, .has 16, false⟩, ⟨n_xml_lang, some 16, .has 16, false⟩,
    ⟨n_space, some 17, .has 17, false⟩, ⟨n_xml_space, some 17, .has 17, false⟩, ⟨n_enclosure, some 18, .has 18, false⟩]
  checks := []

/-- `AccordAttributes`, private/mx/core/elements/AccordAttributes.h 22, private/mx/core/elements/AccordAttributes.cpp 13-51. -/
def AccordAttributes : AttrClass where
  members := [⟨.int .StringNumber, false⟩]
  hasValues := [0]
  writes := [⟨0, n_string, 0⟩]
  reads := [⟨n_string, some 0, .has 0, false⟩]
  checks := []

/-- `AccordionRegistrationAttributes`, private/mx/core/elements/AccordionRegistrationAttributes.h 26, private/mx/core/elements/AccordionRegistrationAttributes.cpp 13-101. -/
def AccordionRegistrationAttributes : AttrClass where
  members := [⟨.decimal .TenthsValue, false⟩, ⟨.decimal .TenthsValue, false⟩, ⟨.decimal .TenthsValue, false⟩, ⟨.decimal .TenthsValue, false⟩,
    ⟨.commaText, false⟩, ⟨.enum .FontStyle, false⟩, ⟨.fontSize, false⟩, ⟨.enum .FontWeight, false⟩, ⟨.color, false⟩,
    ⟨.enum .LeftCenterRight, false⟩, ⟨.enum .Valign, false⟩]
  hasValues := [0, 1, 2, 3, 4, 5, 6, 7, 8, 9, 10]
  writes := [⟨0, n_default_x, 0⟩, ⟨1, n_default_y, 1⟩, ⟨2, n_relative_x, 2⟩, ⟨3, n_relative_y, 3⟩, ⟨4, n_font_family, 4⟩, ⟨5, n_font_style, 5⟩,
    ⟨6, n_font_size, 6⟩, ⟨7, n_font_weight, 7⟩, ⟨8, n_color, 8⟩, ⟨9, n_halign, 9⟩, ⟨10, n_valign, 10⟩]
  reads := [⟨n_default_x, some 0, .has 0, false⟩, ⟨n_default_y, some 1, .has 1, false⟩, ⟨n_relative_x, some 2, .has 2, false⟩,
    ⟨n_relative_y, some 3, .has 3, false⟩, ⟨n_font_family, some 4, .has 4, false⟩, ⟨n_font_style, some 5, .has 5, false⟩,
    ⟨n_font_size, some 6, .has 6, false⟩, ⟨n_font_weight, some 7, .has 7, false⟩, ⟨n_color, some 8, .has 8, false⟩,
    ⟨n_halign, some 9, .has 9, false⟩, ⟨n_valign, some 10, .has 10, false⟩]
  checks := []

/-- `ArpeggiateAttributes`, private/mx/core/elements/ArpeggiateAttributes.h 24, private/mx/core/elements/ArpeggiateAttributes.cpp 13-81. -/
def ArpeggiateAttributes : AttrClass where
  members := [⟨.int .NumberLevel, false⟩, ⟨.enum .UpDown, false⟩, ⟨.decimal .TenthsValue, false⟩, ⟨.decimal .TenthsValue, false⟩,
    ⟨.decimal .TenthsValue, false⟩, ⟨.decimal .TenthsValue, false⟩, ⟨.enum .AboveBelow, false⟩]
  hasValues := [0, 1, 2, 3, 4, 5, 6]
  writes := [⟨0, n_number, 0⟩, ⟨1, n_direction, 1⟩, ⟨2, n_default_x, 2⟩, ⟨3, n_default_y, 3⟩, ⟨4, n_relative_x, 4⟩, ⟨5, n_relative_y, 5⟩,
    ⟨6, n_placement, 6⟩]
  reads := [⟨n_number, some 0, .has 0, false⟩, ⟨n_direction, some 1, .has 1, false⟩, ⟨n_default_x, some 2, .has 2, false⟩,
    ⟨n_default_y, some 3, .has 3, false⟩, ⟨n_relative_x, some 4, .has 4, false⟩, ⟨n_relative_y, some 5, .has 5, false⟩,
    ⟨n_placement, some 6, .has 6, false⟩]
  checks := []

/-- `ArrowAttributes`, private/mx/core/elements/ArrowAttributes.h 26, private/mx/core/elements/ArrowAttributes.cpp 13-96. -/
def ArrowAttributes : AttrClass where
  members := [⟨.decimal .TenthsValue, false⟩, ⟨.decimal .TenthsValue, false⟩, ⟨.decimal .TenthsValue, false⟩, ⟨.decimal .TenthsValue, false⟩,
    ⟨.commaText, false⟩, ⟨.enum .FontStyle, false⟩, ⟨.fontSize, false⟩, ⟨.enum .FontWeight, false⟩, ⟨.color, false⟩,
    ⟨.enum .AboveBelow, false⟩]
  hasValues := [0, 1, 2, 3, 4, 5, 6, 7, 8, 9]
  writes := [⟨0, n_default_x, 0⟩, ⟨1, n_default_y, 1⟩, ⟨2, n_relative_x, 2⟩, ⟨3, n_relative_y, 3⟩, ⟨4, n_font_family, 4⟩, ⟨5, n_font_style, 5⟩,
    ⟨6, n_font_size, 6⟩, ⟨7, n_font_weight, 7⟩, ⟨8, n_color, 8⟩, ⟨9, n_placement, 9⟩]
  reads := [⟨n_default_x, some 0, .has 0, false⟩, ⟨n_default_y, some 1, .has 1, false⟩, ⟨n_relative_x, some 2, .has 2, false⟩,
    ⟨n_relative_y, some 3, .has 3, false⟩, ⟨n_font_family, some 4, .has 4, false⟩, ⟨n_font_style, some 5, .has 5, false⟩,
    ⟨n_font_size, some 6, .has 6, false⟩, ⟨n_font_weight, some 7, .has 7, false⟩, ⟨n_color, some 8, .has 8, false⟩,
    ⟨n_placement, some 9, .has 9, false⟩]
  checks := []

/-- `BarStyleAttributes`, private/mx/core/elements/BarStyleAttributes.h 22, private/mx/core/elements/BarStyleAttributes.cpp 13-51. -/
def BarStyleAttributes : AttrClass where
  members := [⟨.color, false⟩]
  hasValues := [0]
  writes := [⟨0, n_color, 0⟩]
  reads := [⟨n_color, some 0, .has 0, false⟩]
  checks := []

/-- `BarlineAttributes`, private/mx/core/elements/BarlineAttributes.h 24, private/mx/core/elements/BarlineAttributes.cpp 13-66. -/
def BarlineAttributes : AttrClass where
  members := [⟨.enum .RightLeftMiddle, false⟩, ⟨.token, false⟩, ⟨.token, false⟩, ⟨.decimal .DivisionsValue, false⟩]
  hasValues := [0, 1, 2, 3]
  writes := [⟨0, n_location, 0⟩, ⟨1, n_segno, 1⟩, ⟨2, n_coda, 2⟩, ⟨3, n_divisions, 3⟩]
  reads := [⟨n_location, some 0, .has 0, false⟩, ⟨n_segno, some 1, .has 1, false⟩, ⟨n_coda, some 2, .has 2, false⟩,
    ⟨n_divisions, some 3, .has 3, false⟩]
  checks := []

/-- `BarreAttributes`, private/mx/core/elements/BarreAttributes.h 22, private/mx/core/elements/BarreAttributes.cpp 13-57. -/
def BarreAttributes : AttrClass where
  members := [⟨.enum .StartStop, true⟩]
  hasValues := [0]
  writes := [⟨0, n_type, 0⟩]
  reads := [⟨n_type, some 0, .found 0, false⟩]
  checks := [0]

/-- `BassAlterAttributes`, private/mx/core/elements/BassAlterAttributes.h 25, private/mx/core/elements/BassAlterAttributes.cpp 13-96. -/
def BassAlterAttributes : AttrClass where
  members := [⟨.enum .YesNo, false⟩, ⟨.decimal .TenthsValue, false⟩, ⟨.decimal .TenthsValue, false⟩, ⟨.decimal .TenthsValue, false⟩,
    ⟨.decimal .TenthsValue, false⟩, ⟨.commaText, false⟩, ⟨.enum .FontStyle, false⟩, ⟨.fontSize, false⟩, ⟨.enum .FontWeight, false⟩,
    ⟨.enum .LeftRight, false⟩]
  hasValues := [0, 1, 2, 3, 4, 5, 6, 7, 8, 9]
  writes := [⟨0, n_print_object, 0⟩, ⟨1, n_default_x, 1⟩, ⟨2, n_default_y, 2⟩, ⟨3, n_relative_x, 3⟩, ⟨4, n_relative_y, 4⟩, ⟨5, n_font_family, 5⟩,
    ⟨6, n_font_style, 6⟩, ⟨7, n_font_size, 7⟩, ⟨8, n_font_weight, 8⟩, ⟨9, n_location, 9⟩]
  reads := [⟨n_print_object, some 0, .has 0, false⟩, ⟨n_default_x, some 1, .has 1, false⟩, ⟨n_default_y, some 2, .has 2, false⟩,
    ⟨n_relative_x, some 3, .has 3, false⟩, ⟨n_relative_y, some 4, .has 4, false⟩, ⟨n_font_family, some 5, .has 5, false⟩,
    ⟨n_font_style, some 6, .has 6, false⟩, ⟨n_font_size, some 7, .has 7, false⟩, ⟨n_font_weight, some 8, .has 8, false⟩,
    ⟨n_location, some 9, .has 9, false⟩]
  checks := []

/-- `BassStepAttributes`, private/mx/core/elements/BassStepAttributes.h 25, private/mx/core/elements/BassStepAttributes.cpp 13-91. -/
def BassStepAttributes : AttrClass where
  members := [⟨.token, false⟩, ⟨.decimal .TenthsValue, false⟩, ⟨.decimal .TenthsValue, false⟩, ⟨.decimal .TenthsValue, false⟩,
    ⟨.decimal .TenthsValue, false⟩, ⟨.commaText, false⟩, ⟨.enum .FontStyle, false⟩, ⟨.fontSize, false⟩, ⟨.enum .FontWeight, false⟩]
  hasValues := [0, 1, 2, 3, 4, 5, 6, 7, 8]
  writes := [⟨0, n_text, 0⟩, ⟨1, n_default_x, 1⟩, ⟨2, n_default_y, 2⟩, ⟨3, n_relative_x, 3⟩, ⟨4, n_relative_y, 4⟩, ⟨5, n_font_family, 5⟩,
    ⟨6, n_font_style, 6⟩, ⟨7, n_font_size, 7⟩, ⟨8, n_font_weight, 8⟩]
  reads := [⟨n_text, some 0, .has 0, false⟩, ⟨n_default_x, some 1, .has 1, false⟩, ⟨n_default_y, some 2, .has 2, false⟩,
    ⟨n_relative_x, some 3, .has 3, false⟩, ⟨n_relative_y, some 4, .has 4, false⟩, ⟨n_font_family, some 5, .has 5, false⟩,
    ⟨n_font_style, some 6, .has 6, false⟩, ⟨n_font_size, some 7, .has 7, false⟩, ⟨n_font_weight, some 8, .has 8, false⟩]
  checks := []

/-- `BeamAttributes`, private/mx/core/elements/BeamAttributes.h 23, private/mx/core/elements/BeamAttributes.cpp 13-61. -/
def BeamAttributes : AttrClass where
  members := [⟨.int .BeamLevel, false⟩, ⟨.enum .YesNo, false⟩, ⟨.enum .Fan, false⟩]
  hasValues := [0, 1, 2]
  writes := [⟨0, n_number, 0⟩, ⟨1, n_repeater, 1⟩, ⟨2, n_fan, 2⟩]
  reads := [⟨n_number, some 0, .has 0, false⟩, ⟨n_repeater, some 1, .has 1, false⟩, ⟨n_fan, some 2, .has 2, false⟩]
  checks := []

/-- `BeatRepeatAttributes`, private/mx/core/elements/BeatRepeatAttributes.h 23, private/mx/core/elements/BeatRepeatAttributes.cpp 13-67. -/
def BeatRepeatAttributes : AttrClass where
  members := [⟨.enum .StartStop, true⟩, ⟨.int .PositiveInteger, false⟩, ⟨.enum .YesNo, false⟩]
  hasValues := [0, 1, 2]
  writes := [⟨0, n_type, 0⟩, ⟨1, n_slashes, 1⟩, ⟨2, n_use_dots, 2⟩]
  reads := [⟨n_type, some 0, .found 0, false⟩, ⟨n_slashes, some 1, .has 1, false⟩, ⟨n_use_dots, some 2, .has 2, false⟩]
  checks := [0]

/-- `BeaterAttributes`, private/mx/core/elements/BeaterAttributes.h 22, private/mx/core/elements/BeaterAttributes.cpp 13-51. -/
def BeaterAttributes : AttrClass where
  members := [⟨.enum .TipDirection, false⟩]
  hasValues := [0]
  writes := [⟨0, n_tip, 0⟩]
  reads := [⟨n_tip, some 0, .has 0, false⟩]
  checks := []

/-- `BendAttributes`, private/mx/core/elements/BendAttributes.h 26, private/mx/core/elements/BendAttributes.cpp 13-111. -/
def BendAttributes : AttrClass where
  members := [⟨.decimal .TenthsValue, false⟩, ⟨.decimal .TenthsValue, false⟩, ⟨.decimal .TenthsValue, false⟩, ⟨.decimal .TenthsValue, false⟩,
    ⟨.commaText, false⟩, ⟨.enum .FontStyle, false⟩, ⟨.fontSize, false⟩, ⟨.enum .FontWeight, false⟩, ⟨.color, false⟩,
    ⟨.enum .YesNo, false⟩, ⟨.decimal .TrillBeats, false⟩, ⟨.decimal .Percent, false⟩, ⟨.decimal .Percent, false⟩]
  hasValues := [0, 1, 2, 3, 4, 5, 6, 7, 8, 9, 10, 11, 12]
  writes := [⟨0, n_default_x, 0⟩, ⟨1, n_default_y, 1⟩, ⟨2, n_relative_x, 2⟩, ⟨3, n_relative_y, 3⟩, ⟨4, n_font_family, 4⟩, ⟨5, n_font_style, 5⟩,
    ⟨6, n_font_size, 6⟩, ⟨7, n_font_weight, 7⟩, ⟨8, n_color, 8⟩, ⟨9, n_accelerate, 9⟩, ⟨10, n_beats, 10⟩, ⟨11, n_first_beat, 11⟩,
    ⟨12, n_last_beat, 12⟩]
  reads := [⟨n_default_x, some 0, .has 0, false⟩, ⟨n_default_y, some 1, .has 1, false⟩, ⟨n_relative_x, some 2, .has 2, false⟩,
    ⟨n_relative_y, some 3, .has 3, false⟩, ⟨n_font_family, some 4, .has 4, false⟩, ⟨n_font_style, some 5, .has 5, false⟩,
    ⟨n_font_size, some 6, .has 6, false⟩, ⟨n_font_weight, some 7, .has 7, false⟩, ⟨n_color, some 8, .has 8, false⟩,
    ⟨n_accelerate, some 9, .has 9, false⟩, ⟨n_beats, some 10, .has 10, false⟩, ⟨n_first_beat, some 11, .has 11, false⟩,
    ⟨n_last_beat, some 12, .has 12, false⟩]
  checks := []

/-- `BookmarkAttributes`, private/mx/core/elements/BookmarkAttributes.h 24, private/mx/core/elements/BookmarkAttributes.cpp 13-72. -/
def BookmarkAttributes : AttrClass where
  members := [⟨.id, true⟩, ⟨.token, false⟩, ⟨.token, false⟩, ⟨.int .PositiveInteger, false⟩]
  hasValues := [0, 1, 2, 3]
  writes := [⟨0, n_id, 0⟩, ⟨1, n_name, 1⟩, ⟨2, n_element, 2⟩, ⟨3, n_position, 3⟩]
  reads := [⟨n_id, some 0, .found 0, false⟩, ⟨n_name, some 1, .has 1, false⟩, ⟨n_element, some 2, .has 2, false⟩,
    ⟨n_position, some 3, .has 3, false⟩]
  checks := [0]

/-- `BracketAttributes`, private/mx/core/elements/BracketAttributes.h 34, private/mx/core/elements/BracketAttributes.cpp 13-98. -/
def BracketAttributes : AttrClass where
  members := [⟨.enum .StartStopContinue, true⟩, ⟨.int .NumberLevel, false⟩, ⟨.enum .LineEnd, true⟩, ⟨.decimal .TenthsValue, false⟩,
    ⟨.enum .LineType, false⟩, ⟨.decimal .TenthsValue, false⟩, ⟨.decimal .TenthsValue, false⟩, ⟨.decimal .TenthsValue, false⟩,
    ⟨.decimal .TenthsValue, false⟩, ⟨.decimal .TenthsValue, false⟩, ⟨.decimal .TenthsValue, false⟩, ⟨.color, false⟩]
  hasValues := [0, 2]
  writes := [⟨0, n_type, 0⟩, ⟨1, n_number, 1⟩, ⟨2, n_line_end, 2⟩, ⟨3, n_end_length, 3⟩, ⟨4, n_line_type, 4⟩, ⟨5, n_dash_length, 5⟩,
    ⟨6, n_space_length, 6⟩, ⟨7, n_default_x, 7⟩, ⟨8, n_default_y, 8⟩, ⟨9, n_relative_x, 9⟩, ⟨10, n_relative_y, 10⟩, ⟨11, n_color, 11⟩]
  reads := [⟨n_type, some 0, .found 0, false⟩, ⟨n_number, some 1, .has 1, false⟩, ⟨n_line_end, some 2, .found 2, false⟩,
    ⟨n_end_length, some 3, .has 3, false⟩, ⟨n_line_type, some 4, .has 4, false⟩, ⟨n_dash_length, some 5, .has 5, false⟩,
    ⟨n_space_length, some 6, .has 6, false⟩, ⟨n_default_x, some 7, .has 7, false⟩, ⟨n_default_y, some 8, .has 8, false⟩,
    ⟨n_relative_x, some 9, .has 9, false⟩, ⟨n_relative_y, some 10, .has 10, false⟩, ⟨n_color, some 11, .has 11, false⟩]
  checks := []

/-- `BreathMarkAttributes`, private/mx/core/elements/BreathMarkAttributes.h 26, private/mx/core/elements/BreathMarkAttributes.cpp 13-91. -/
def BreathMarkAttributes : AttrClass where
  members := [⟨.decimal .TenthsValue, false⟩, ⟨.decimal .TenthsValue, false⟩, ⟨.decimal .TenthsValue, false⟩, ⟨.decimal .TenthsValue, false⟩,
    ⟨.commaText, false⟩, ⟨.enum .FontStyle, false⟩, ⟨.fontSize, false⟩, ⟨.enum .FontWeight, false⟩, ⟨.enum .AboveBelow, false⟩]
  hasValues := [0, 1, 2, 3, 4, 5, 6, 7, 8]
  writes := [⟨0, n_default_x, 0⟩, ⟨1, n_default_y, 1⟩, ⟨2, n_relative_x, 2⟩, ⟨3, n_relative_y, 3⟩, ⟨4, n_font_family, 4⟩, ⟨5, n_font_style, 5⟩,
    ⟨6, n_font_size, 6⟩, ⟨7, n_font_weight, 7⟩, ⟨8, n_placement, 8⟩]
  reads := [⟨n_default_x, some 0, .has 0, false⟩, ⟨n_default_y, some 1, .has 1, false⟩, ⟨n_relative_x, some 2, .has 2, false⟩,
    ⟨n_relative_y, some 3, .has 3, false⟩, ⟨n_font_family, some 4, .has 4, false⟩, ⟨n_font_style, some 5, .has 5, false⟩,
    ⟨n_font_size, some 6, .has 6, false⟩, ⟨n_font_weight, some 7, .has 7, false⟩, ⟨n_placement, some 8, .has 8, false⟩]
  checks := []

/-- `CancelAttributes`, private/mx/core/elements/CancelAttributes.h 22, private/mx/core/elements/CancelAttributes.cpp 13-51. -/
def CancelAttributes : AttrClass where
  members := [⟨.enum .CancelLocation, false⟩]
  hasValues := [0]
  writes := [⟨0, n_location, 0⟩]
  reads := [⟨n_location, some 0, .has 0, false⟩]
  checks := []

/-- `ClefAttributes`, private/mx/core/elements/ClefAttributes.h 27, private/mx/core/elements/ClefAttributes.cpp 13-116. -/
def ClefAttributes : AttrClass where
  members := [⟨.int .StaffNumber, false⟩, ⟨.enum .YesNo, false⟩, ⟨.enum .SymbolSize, false⟩, ⟨.enum .YesNo, false⟩, ⟨.decimal .TenthsValue, false⟩,
    ⟨.decimal .TenthsValue, false⟩, ⟨.decimal .TenthsValue, false⟩, ⟨.decimal .TenthsValue, false⟩, ⟨.commaText, false⟩,
    ⟨.enum .FontStyle, false⟩, ⟨.fontSize, false⟩, ⟨.enum .FontWeight, false⟩, ⟨.color, false⟩, ⟨.enum .YesNo, false⟩]
  hasValues := [0, 1, 2, 3, 4, 5, 6, 7, 8, 9, 10, 11, 12, 13]
  writes := [⟨0, n_number, 0⟩, ⟨1, n_additional, 1⟩, ⟨2, n_size, 2⟩, ⟨3, n_after_barline, 3⟩, ⟨4, n_default_x, 4⟩, ⟨5, n_default_y, 5⟩,
    ⟨6, n_relative_x, 6⟩, ⟨7, n_relative_y, 7⟩, ⟨8, n_font_family, 8⟩, ⟨9, n_font_style, 9⟩, ⟨10, n_font_size, 10⟩,
    ⟨11, n_font_weight, 11⟩, ⟨12, n_color, 12⟩, ⟨13, n_print_object, 13⟩]
  reads := [⟨n_number, some 0, .has 0, false⟩, ⟨n_additional, some 1, .has 1, false⟩, ⟨n_size, some 2, .has 2, false⟩,
    ⟨n_after_barline, some 3, .has 3, false⟩, ⟨n_default_x, some 4, .has 4, false⟩, ⟨n_default_y, some 5, .has 5, false⟩,
    ⟨n_relative_x, some 6, .has 6, false⟩, ⟨n_relative_y, some 7, .has 7, false⟩, ⟨n_font_family, some 8, .has 8, false⟩,
    ⟨n_font_style, some 9, .has 9, false⟩, ⟨n_font_size, some 10, .has 10, false⟩, ⟨n_font_weight, some 11, .has 11, false⟩,
    ⟨n_color, some 12, .has 12, false⟩, ⟨n_print_object, some 13, .has 13, false⟩]
  checks := []

/-- `CreatorAttributes`, private/mx/core/elements/CreatorAttributes.h 22, private/mx/core/elements/CreatorAttributes.cpp 13-51. -/
def CreatorAttributes : AttrClass where
  members := [⟨.token, false⟩]
  hasValues := [0]
  writes := [⟨0, n_type, 0⟩]
  reads := [⟨n_type, some 0, .has 0, false⟩]
  checks := []

/-- `CreditAttributes`, private/mx/core/elements/CreditAttributes.h 22, private/mx/core/elements/CreditAttributes.cpp 13-51. -/
def CreditAttributes : AttrClass where
  members := [⟨.int .PositiveInteger, false⟩]
  hasValues := [0]
  writes := [⟨0, n_page, 0⟩]
  reads := [⟨n_page, some 0, .has 0, false⟩]
  checks := []

/-- `CreditImageAttributes`, private/mx/core/elements/CreditImageAttributes.h 25, private/mx/core/elements/CreditImageAttributes.cpp 13-93. -/
def CreditImageAttributes : AttrClass where
  members := [⟨.string, true⟩, ⟨.token, true⟩, ⟨.decimal .TenthsValue, false⟩, ⟨.decimal .TenthsValue, false⟩, ⟨.decimal .TenthsValue, false⟩,
    ⟨.decimal .TenthsValue, false⟩, ⟨.enum .LeftCenterRight, false⟩]
  hasValues := [0, 1, 2, 3, 4, 5, 6]
  writes := [⟨0, n_source, 0⟩, ⟨1, n_type, 1⟩, ⟨2, n_default_x, 2⟩, ⟨3, n_default_y, 3⟩, ⟨4, n_relative_x, 4⟩, ⟨5, n_relative_y, 5⟩,
    ⟨6, n_halign, 6⟩]
  reads := [⟨n_source, some 0, .found 0, false⟩, ⟨n_type, some 1, .found 1, false⟩, ⟨n_default_x, some 2, .has 2, false⟩,
    ⟨n_default_y, some 3, .has 3, false⟩, ⟨n_relative_x, some 4, .has 4, false⟩, ⟨n_relative_y, some 5, .has 5, false⟩,
    ⟨n_halign, some 6, .has 6, false⟩]
  checks := [0, 1]

/-- `CreditWordsAttributes`, private/mx/core/elements/CreditWordsAttributes.h 29, private/mx/core/elements/CreditWordsAttributes.cpp 13-153. -/
def CreditWordsAttributes : AttrClass where
  members := [⟨.enum .LeftCenterRight, false⟩, ⟨.decimal .TenthsValue, false⟩, ⟨.decimal .TenthsValue, false⟩, ⟨.decimal .TenthsValue, false⟩,
    ⟨.decimal .TenthsValue, false⟩, ⟨.commaText, false⟩, ⟨.enum .FontStyle, false⟩, ⟨.fontSize, false⟩, ⟨.enum .FontWeight, false⟩,
    ⟨.color, false⟩, ⟨.enum .LeftCenterRight, false⟩, ⟨.enum .Valign, false⟩, ⟨.int .NumberOfLines, false⟩, ⟨.int .NumberOfLines, false⟩,
    ⟨.int .NumberOfLines, false⟩, ⟨.decimal .RotationDegrees, false⟩, ⟨.numberOrNormal, false⟩, ⟨.numberOrNormal, false⟩,
    ⟨.string, false⟩, ⟨.enum .XmlSpace, false⟩, ⟨.enum .EnclosureShape, false⟩]
  hasValues := [0, 1, 2, 3, 4, 5, 6, 7, 8, 9, 10, 11, 12, 13, 14, 15, 16, 17, 18, 19, 20]
  writes := [⟨0, n_justify, 0⟩, ⟨1, n_default_x, 1⟩, ⟨2, n_default_y, 2⟩, ⟨3, n_relative_x, 3⟩, ⟨4, n_relative_y, 4⟩, ⟨5, n_font_family, 5⟩,
    ⟨6, n_font_style, 6⟩, ⟨7, n_font_size, 7⟩, ⟨8, n_font_weight, 8⟩, ⟨9, n_color, 9⟩, ⟨10, n_halign, 10⟩, ⟨11, n_valign, 11⟩,
    ⟨12, n_underline, 12⟩, ⟨13, n_overline, 13⟩, ⟨14, n_line_through, 14⟩, ⟨15, n_rotation, 15⟩, ⟨16, n_letter_spacing, 16⟩,
    ⟨17, n_line_height, 17⟩, ⟨18, n_xml_lang, 18⟩, ⟨19, n_xml_space, 19⟩, ⟨20, n_enclosure, 20⟩]
  reads := [⟨n_justify, some 0, .has 0, false⟩, ⟨n_default_x, some 1, .has 1, false⟩, ⟨n_default_y, some 2, .has 2, false⟩,
    ⟨n_relative_x, some 3, .has 3, false⟩, ⟨n_relative_y, some 4, .has 4, false⟩, ⟨n_font_family, some 5, .has 5, false⟩,
    ⟨n_font_style, some 6, .has 6, false⟩, ⟨n_font_size, some 7, .has 7, false⟩, ⟨n_font_weight, some 8, .has 8, false⟩,
    ⟨n_color, some 9, .has 9, false⟩, ⟨n_halign, some 10, .has 10, false⟩, ⟨n_valign, some 11, .has 11, false⟩,
    ⟨n_underline, some 12, .has 12, false⟩, ⟨n_overline, some 13, .has 13, false⟩, ⟨n_line_through, some 14, .has 14, false⟩,
    ⟨n_rotation, some 15, .has 15, false⟩, ⟨n_letter_spacing, some 16, .has 16, false⟩, ⟨n_line_height, some 17, .has 17, false⟩,
    ⟨n_lang, some 18, .has 18, false⟩, ⟨n_xml_lang, some 18, .has 18, false⟩, ⟨n_space, some 19, .has 19, false⟩,
    ⟨n_xml_space, some 19, .has 19, false⟩, ⟨n_enclosure, some 20, .has 20, false⟩]
  checks := []

/-- `DashesAttributes`, private/mx/core/elements/DashesAttributes.h 24, private/mx/core/elements/DashesAttributes.cpp 13-92. -/
def DashesAttributes : AttrClass where
  members := [⟨.enum .StartStopContinue, true⟩, ⟨.int .NumberLevel, false⟩, ⟨.decimal .TenthsValue, false⟩, ⟨.decimal .TenthsValue, false⟩,
    ⟨.decimal .TenthsValue, false⟩, ⟨.decimal .TenthsValue, false⟩, ⟨.decimal .TenthsValue, false⟩, ⟨.decimal .TenthsValue, false⟩]
  hasValues := [0, 1, 2, 3, 4, 5, 6, 7]
  writes := [⟨0, n_type, 0⟩, ⟨1, n_number, 1⟩, ⟨2, n_dash_length, 2⟩, ⟨3, n_space_length, 3⟩, ⟨4, n_default_x, 4⟩, ⟨5, n_default_y, 5⟩,
    ⟨6, n_relative_x, 6⟩, ⟨7, n_relative_y, 7⟩]
  reads := [⟨n_type, some 0, .found 0, false⟩, ⟨n_number, some 1, .has 1, false⟩, ⟨n_dash_length, some 2, .has 2, false⟩,
    ⟨n_space_length, some 3, .has 3, false⟩, ⟨n_default_x, some 4, .has 4, false⟩, ⟨n_default_y, some 5, .has 5, false⟩,
    ⟨n_relative_x, some 6, .has 6, false⟩, ⟨n_relative_y, some 7, .has 7, false⟩]
  checks := [0]

/-- `DegreeAlterAttributes`, private/mx/core/elements/DegreeAlterAttributes.h 25, private/mx/core/elements/DegreeAlterAttributes.cpp 13-91. -/
def DegreeAlterAttributes : AttrClass where
  members := [⟨.decimal .TenthsValue, false⟩, ⟨.decimal .TenthsValue, false⟩, ⟨.decimal .TenthsValue, false⟩, ⟨.decimal .TenthsValue, false⟩,
    ⟨.commaText, false⟩, ⟨.enum .FontStyle, false⟩, ⟨.fontSize, false⟩, ⟨.enum .FontWeight, false⟩, ⟨.enum .YesNo, false⟩]
  hasValues := [0, 1, 2, 3, 4, 5, 6, 7, 8]
  writes := [⟨0, n_default_x, 0⟩, ⟨1, n_default_y, 1⟩, ⟨2, n_relative_x, 2⟩, ⟨3, n_relative_y, 3⟩, ⟨4, n_font_family, 4⟩, ⟨5, n_font_style, 5⟩,
    ⟨6, n_font_size, 6⟩, ⟨7, n_font_weight, 7⟩, ⟨8, n_plus_minus, 8⟩]
  reads := [⟨n_default_x, some 0, .has 0, false⟩, ⟨n_default_y, some 1, .has 1, false⟩, ⟨n_relative_x, some 2, .has 2, false⟩,
    ⟨n_relative_y, some 3, .has 3, false⟩, ⟨n_font_family, some 4, .has 4, false⟩, ⟨n_font_style, some 5, .has 5, false⟩,
    ⟨n_font_size, some 6, .has 6, false⟩, ⟨n_font_weight, some 7, .has 7, false⟩, ⟨n_plus_minus, some 8, .has 8, false⟩]
  checks := []

/-- `DegreeAttributes`, private/mx/core/elements/DegreeAttributes.h 22, private/mx/core/elements/DegreeAttributes.cpp 13-51. -/
def DegreeAttributes : AttrClass where
  members := [⟨.enum .YesNo, false⟩]
  hasValues := [0]
  writes := [⟨0, n_print_object, 0⟩]
  reads := [⟨n_print_object, some 0, .has 0, false⟩]
  checks := []

/-- `DegreeTypeAttributes`, private/mx/core/elements/DegreeTypeAttributes.h 25, private/mx/core/elements/DegreeTypeAttributes.cpp 13-91. -/
def DegreeTypeAttributes : AttrClass where
  members := [⟨.token, false⟩, ⟨.decimal .TenthsValue, false⟩, ⟨.decimal .TenthsValue, false⟩, ⟨.decimal .TenthsValue, false⟩,
    ⟨.decimal .TenthsValue, false⟩, ⟨.commaText, false⟩, ⟨.enum .FontStyle, false⟩, ⟨.fontSize, false⟩, ⟨.enum .FontWeight, false⟩]
  hasValues := [0, 1, 2, 3, 4, 5, 6, 7, 8]
  writes := [⟨0, n_text, 0⟩, ⟨1, n_default_x, 1⟩, ⟨2, n_default_y, 2⟩, ⟨3, n_relative_x, 3⟩, ⟨4, n_relative_y, 4⟩, ⟨5, n_font_family, 5⟩,
    ⟨6, n_font_style, 6⟩, ⟨7, n_font_size, 7⟩, ⟨8, n_font_weight, 8⟩]
  reads := [⟨n_text, some 0, .has 0, false⟩, ⟨n_default_x, some 1, .has 1, false⟩, ⟨n_default_y, some 2, .has 2, false⟩,
    ⟨n_relative_x, some 3, .has 3, false⟩, ⟨n_relative_y, some 4, .has 4, false⟩, ⟨n_font_family, some 5, .has 5, false⟩,
    ⟨n_font_style, some 6, .has 6, false⟩, ⟨n_font_size, some 7, .has 7, false⟩, ⟨n_font_weight, some 8, .has 8, false⟩]
  checks := []

/-- `DegreeValueAttributes`, private/mx/core/elements/DegreeValueAttributes.h 25, private/mx/core/elements/DegreeValueAttributes.cpp 13-96. -/
def DegreeValueAttributes : AttrClass where
  members := [⟨.enum .DegreeSymbolValue, false⟩, ⟨.token, false⟩, ⟨.decimal .TenthsValue, false⟩, ⟨.decimal .TenthsValue, false⟩,
    ⟨.decimal .TenthsValue, false⟩, ⟨.decimal .TenthsValue, false⟩, ⟨.commaText, false⟩, ⟨.enum .FontStyle, false⟩, ⟨.fontSize, false⟩,
    ⟨.enum .FontWeight, false⟩]
  hasValues := [0, 1, 2, 3, 4, 5, 6, 7, 8, 9]
  writes := [⟨0, n_symbol, 0⟩, ⟨1, n_text, 1⟩, ⟨2, n_default_x, 2⟩, ⟨3, n_default_y, 3⟩, ⟨4, n_relative_x, 4⟩, ⟨5, n_relative_y, 5⟩,
    ⟨6, n_font_family, 6⟩, ⟨7, n_font_style, 7⟩, ⟨8, n_font_size, 8⟩, ⟨9, n_font_weight, 9⟩]
  reads := [⟨n_symbol, some 0, .has 0, false⟩, ⟨n_text, some 1, .has 1, false⟩, ⟨n_default_x, some 2, .has 2, false⟩,
    ⟨n_default_y, some 3, .has 3, false⟩, ⟨n_relative_x, some 4, .has 4, false⟩, ⟨n_relative_y, some 5, .has 5, false⟩,
    ⟨n_font_family, some 6, .has 6, false⟩, ⟨n_font_style, some 7, .has 7, false⟩, ⟨n_font_size, some 8, .has 8, false⟩,
    ⟨n_font_weight, some 9, .has 9, false⟩]
  checks := []

/-- `DelayedInvertedTurnAttributes`, private/mx/core/elements/DelayedInvertedTurnAttributes.h 25, private/mx/core/elements/DelayedInvertedTurnAttributes.cpp 13-131. -/
def DelayedInvertedTurnAttributes : AttrClass where
  members := [⟨.decimal .TenthsValue, false⟩, ⟨.decimal .TenthsValue, false⟩, ⟨.decimal .TenthsValue, false⟩, ⟨.decimal .TenthsValue, false⟩,
    ⟨.commaText, false⟩, ⟨.enum .FontStyle, false⟩, ⟨.fontSize, false⟩, ⟨.enum .FontWeight, false⟩, ⟨.enum .AboveBelow, false⟩,
    ⟨.enum .StartNote, false⟩, ⟨.enum .TrillStep, false⟩, ⟨.enum .TwoNoteTurn, false⟩, ⟨.enum .YesNo, false⟩,
    ⟨.decimal .TrillBeats, false⟩, ⟨.decimal .Percent, false⟩, ⟨.decimal .Percent, false⟩, ⟨.enum .YesNo, false⟩]
  hasValues := [0, 1, 2, 3, 4, 5, 6, 7, 8, 9, 10, 11, 12, 13, 14, 15, 16]
  writes := [⟨0, n_default_x, 0⟩, ⟨1, n_default_y, 1⟩, ⟨2, n_relative_x, 2⟩, ⟨3, n_relative_y, 3⟩, ⟨4, n_font_family, 4⟩, ⟨5, n_font_style, 5⟩,
    ⟨6, n_font_size, 6⟩, ⟨7, n_font_weight, 7⟩, ⟨8, n_placement, 8⟩, ⟨9, n_start_note, 9⟩, ⟨10, n_trill_step, 10⟩,
    ⟨11, n_two_note_turn, 11⟩, ⟨12, n_accelerate, 12⟩, ⟨13, n_beats, 13⟩, ⟨14, n_second_beat, 14⟩, ⟨15, n_last_beat, 15⟩, ⟨16, n_slash, 16⟩]
  reads := [⟨n_default_x, some 0, .has 0, false⟩, ⟨n_default_y, some 1, .has 1, false⟩, ⟨n_relative_x, some 2, .has 2, false⟩,
    ⟨n_relative_y, some 3, .has 3, false⟩, ⟨n_font_family, some 4, .has 4, false⟩, ⟨n_font_style, some 5, .has 5, false⟩,
    ⟨n_font_size, some 6, .has 6, false⟩, ⟨n_font_weight, some 7, .has 7, false⟩, ⟨n_placement, some 8, .has 8, false⟩,
    ⟨n_start_note, some 9, .has 9, false⟩, ⟨n_trill_step, some 10, .has 10, false⟩, ⟨n_two_note_turn, some 11, .has 11, false⟩,
    ⟨n_accelerate, some 12, .has 12, false⟩, ⟨n_beats, some 13, .has 13, false⟩, ⟨n_second_beat, some 14, .has 14, false⟩,
    ⟨n_last_beat, some 15, .has 15, false⟩, ⟨n_slash, some 16, .has 16, false⟩]
  checks := []

/-- `DelayedTurnAttributes`, private/mx/core/elements/DelayedTurnAttributes.h 25, private/mx/core/elements/DelayedTurnAttributes.cpp 13-131. -/
def DelayedTurnAttributes : AttrClass where
  members := [⟨.decimal .TenthsValue, false⟩, ⟨.decimal .TenthsValue, false⟩, ⟨.decimal .TenthsValue, false⟩, ⟨.decimal .TenthsValue, false⟩,
    ⟨.commaText, false⟩, ⟨.enum .FontStyle, false⟩, ⟨.fontSize, false⟩, ⟨.enum .FontWeight, false⟩, ⟨.enum .AboveBelow, false⟩,
    ⟨.enum .StartNote, false⟩, ⟨.enum .TrillStep, false⟩, ⟨.enum .TwoNoteTurn, false⟩, ⟨.enum .YesNo, false⟩,
    ⟨.decimal .TrillBeats, false⟩, ⟨.decimal .Percent, false⟩, ⟨.decimal .Percent, false⟩, ⟨.enum .YesNo, false⟩]
  hasValues := [0, 1, 2, 3, 4, 5, 6, 7, 8, 9, 10, 11, 12, 13, 14, 15, 16]
  writes := [⟨0, n_default_x, 0⟩, ⟨1, n_default_y, 1⟩, ⟨2, n_relative_x, 2⟩, ⟨3, n_relative_y, 3⟩, ⟨4, n_font_family, 4⟩, ⟨5, n_font_style, 5⟩,
    ⟨6, n_font_size, 6⟩, ⟨7, n_font_weight, 7⟩, ⟨8, n_placement, 8⟩, ⟨9, n_start_note, 9⟩, ⟨10, n_trill_step, 10⟩,
    ⟨11, n_two_note_turn, 11⟩, ⟨12, n_accelerate, 12⟩, ⟨13, n_beats, 13⟩, ⟨14, n_second_beat, 14⟩, ⟨15, n_last_beat, 15⟩, ⟨16, n_slash, 16⟩]
  reads := [⟨n_default_x, some 0, .has 0, false⟩, ⟨n_default_y, some 1, .has 1, false⟩, ⟨n_relative_x, some 2, .has 2, false⟩,
    ⟨n_relative_y, some 3, .has 3, false⟩, ⟨n_font_family, some 4, .has 4, false⟩, ⟨n_font_style, some 5, .has 5, false⟩,
    ⟨n_font_size, some 6, .has 6, false⟩, ⟨n_font_weight, some 7, .has 7, false⟩, ⟨n_placement, some 8, .has 8, false⟩,
    ⟨n_start_note, some 9, .has 9, false⟩, ⟨n_trill_step, some 10, .has 10, false⟩, ⟨n_two_note_turn, some 11, .has 11, false⟩,
    ⟨n_accelerate, some 12, .has 12, false⟩, ⟨n_beats, some 13, .has 13, false⟩, ⟨n_second_beat, some 14, .has 14, false⟩,
    ⟨n_last_beat, some 15, .has 15, false⟩, ⟨n_slash, some 16, .has 16, false⟩]
  checks := []

/-- `DirectionAttributes`, private/mx/core/elements/DirectionAttributes.h 22, private/mx/core/elements/DirectionAttributes.cpp 13-56. -/
def DirectionAttributes : AttrClass where
  members := [⟨.enum .AboveBelow, false⟩, ⟨.enum .YesNo, false⟩]
  hasValues := [0, 1]
  writes := [⟨0, n_placement, 0⟩, ⟨1, n_directive, 1⟩]
  reads := [⟨n_placement, some 0, .has 0, false⟩, ⟨n_directive, some 1, .has 1, false⟩]
  checks := []

/-- `DirectiveAttributes`, private/mx/core/elements/DirectiveAttributes.h 26, private/mx/core/elements/DirectiveAttributes.cpp 13-92. -/
def DirectiveAttributes : AttrClass where
  members := [⟨.decimal .TenthsValue, false⟩, ⟨.decimal .TenthsValue, false⟩, ⟨.decimal .TenthsValue, false⟩, ⟨.decimal .TenthsValue, false⟩,
    ⟨.commaText, false⟩, ⟨.enum .FontStyle, false⟩, ⟨.fontSize, false⟩, ⟨.enum .FontWeight, false⟩, ⟨.string, false⟩]
  hasValues := [0, 1, 2, 3, 4, 5, 6, 7, 8]
  writes := [⟨0, n_default_x, 0⟩, ⟨1, n_default_y, 1⟩, ⟨2, n_relative_x, 2⟩, ⟨3, n_relative_y, 3⟩, ⟨4, n_font_family, 4⟩, ⟨5, n_font_style, 5⟩,
    ⟨6, n_font_size, 6⟩, ⟨7, n_font_weight, 7⟩, ⟨8, n_xml_lang, 8⟩]
  reads := [⟨n_default_x, some 0, .has 0, false⟩, ⟨n_default_y, some 1, .has 1, false⟩, ⟨n_relative_x, some 2, .has 2, false⟩,
    ⟨n_relative_y, some 3, .has 3, false⟩, ⟨n_font_family, some 4, .has 4, false⟩, ⟨n_font_style, some 5, .has 5, false⟩,
    ⟨n_font_size, some 6, .has 6, false⟩, ⟨n_font_weight, some 7, .has 7, false⟩, ⟨n_lang, some 8, .has 8, false⟩,
    ⟨n_xml_lang, some 8, .has 8, false⟩]
  checks := []

/-- `DisplayTextAttributes`, private/mx/core/elements/DisplayTextAttributes.h 28, private/mx/core/elements/DisplayTextAttributes.cpp 13-143. -/
def DisplayTextAttributes : AttrClass where
  members := [⟨.enum .LeftCenterRight, false⟩, ⟨.decimal .TenthsValue, false⟩, ⟨.decimal .TenthsValue, false⟩, ⟨.decimal .TenthsValue, false⟩,
    ⟨.decimal .TenthsValue, false⟩, ⟨.commaText, false⟩, ⟨.enum .FontStyle, false⟩, ⟨.fontSize, false⟩, ⟨.enum .FontWeight, false⟩,
    ⟨.enum .LeftCenterRight, false⟩, ⟨.int .NumberOfLines, false⟩, ⟨.int .NumberOfLines, false⟩, ⟨.int .NumberOfLines, false⟩,
    ⟨.decimal .RotationDegrees, false⟩, ⟨.numberOrNormal, false⟩, ⟨.numberOrNormal, false⟩, ⟨.string, false⟩, ⟨.enum .XmlSpace, false⟩,
    ⟨.enum .EnclosureShape, false⟩]
  hasValues := [0, 1, 2, 3, 4, 5, 6, 7, 8, 9, 10, 11, 12, 13, 14, 15, 16, 17, 18]
  writes := [⟨0, n_justify, 0⟩, ⟨1, n_default_x, 1⟩, ⟨2, n_default_y, 2⟩, ⟨3, n_relative_x, 3⟩, ⟨4, n_relative_y, 4⟩, ⟨5, n_font_family, 5⟩,
    ⟨6, n_font_style, 6⟩, ⟨7, n_font_size, 7⟩, ⟨8, n_font_weight, 8⟩, ⟨9, n_halign, 9⟩, ⟨10, n_underline, 10⟩, ⟨11, n_overline, 11⟩,
    ⟨12, n_line_through, 12⟩, ⟨13, n_rotation, 13⟩, ⟨14, n_letter_spacing, 14⟩, ⟨15, n_line_height, 15⟩, ⟨16, n_xml_lang, 16⟩,
    ⟨17, n_xml_space, 17⟩, ⟨18, n_enclosure, 18⟩]
  reads := [⟨n_justify, some 0, .has 0, false⟩, ⟨n_default_x, some 1, .has 1, false⟩, ⟨n_default_y, some 2, .has 2, false⟩,
    ⟨n_relative_x, some 3, .has 3, false⟩, ⟨n_relative_y, some 4, .has 4, false⟩, ⟨n_font_family, some 5, .has 5, false⟩,
    ⟨n_font_style, some 6, .has 6, false⟩, ⟨n_font_size, some 7, .has 7, false⟩, ⟨n_font_weight, some 8, .has 8, false⟩,
    ⟨n_halign, some 9, .has 9, false⟩, ⟨n_underline, some 10, .has 10, false⟩, ⟨n_overline, some 11, .has 11, false⟩,
    ⟨n_line_through, some 12, .has 12, false⟩, ⟨n_rotation, some 13, .has 13, false⟩, ⟨n_letter_spacing, some 14, .has 14, false⟩,
    ⟨n_line_height, some 15, .has 15, false⟩, ⟨n_lang, some 16, .has 16, false⟩, ⟨n_xml_lang, some 16, .has 16, false⟩,
    ⟨n_space, some 17, .has 17, false⟩, ⟨n_xml_space, some 17, .has 17, false⟩, ⟨n_enclosure, some 18, .has 18, false⟩]
  checks := []

/-- `DistanceAttributes`, private/mx/core/elements/DistanceAttributes.h 22, private/mx/core/elements/DistanceAttributes.cpp 13-57. -/
def DistanceAttributes : AttrClass where
  members := [⟨.distanceType, true⟩]
  hasValues := [0]
  writes := [⟨0, n_type, 0⟩]
  reads := [⟨n_type, some 0, .found 0, false⟩]
  checks := [0]

/-- `DynamicsAttributes`, private/mx/core/elements/DynamicsAttributes.h 27, private/mx/core/elements/DynamicsAttributes.cpp 13-110. -/
def DynamicsAttributes : AttrClass where
  members := [⟨.decimal .TenthsValue, false⟩, ⟨.decimal .TenthsValue, false⟩, ⟨.decimal .TenthsValue, false⟩, ⟨.decimal .TenthsValue, false⟩,
    ⟨.commaText, false⟩, ⟨.enum .FontStyle, false⟩, ⟨.fontSize, false⟩, ⟨.enum .FontWeight, false⟩, ⟨.color, false⟩,
    ⟨.enum .LeftCenterRight, false⟩, ⟨.enum .Valign, false⟩, ⟨.enum .AboveBelow, false⟩, ⟨.int .NumberOfLines, false⟩,
    ⟨.int .NumberOfLines, false⟩, ⟨.int .NumberOfLines, false⟩, ⟨.enum .EnclosureShape, false⟩]
  hasValues := [0, 1, 2, 3, 4, 5, 6, 7, 8, 9, 10, 11, 12, 13, 14, 15]
  writes := [⟨0, n_default_x, 0⟩, ⟨1, n_default_y, 1⟩, ⟨2, n_relative_x, 2⟩, ⟨3, n_relative_y, 3⟩, ⟨4, n_font_family, 4⟩, ⟨5, n_font_style, 5⟩,
    ⟨6, n_font_size, 6⟩, ⟨7, n_font_weight, 7⟩, ⟨8, n_color, 8⟩, ⟨9, n_halign, 9⟩, ⟨10, n_valign, 10⟩, ⟨11, n_placement, 11⟩,
    ⟨12, n_underline, 12⟩, ⟨13, n_overline, 13⟩, ⟨14, n_line_through, 14⟩, ⟨15, n_enclosure, 15⟩]
  reads := [⟨n_default_x, some 0, .has 0, false⟩, ⟨n_default_y, some 1, .has 1, false⟩, ⟨n_relative_x, some 2, .has 2, false⟩,
    ⟨n_relative_y, some 3, .has 3, false⟩, ⟨n_font_family, some 4, .has 4, false⟩, ⟨n_font_style, some 5, .has 5, false⟩,
    ⟨n_font_size, some 6, .has 6, false⟩, ⟨n_font_weight, some 7, .has 7, false⟩, ⟨n_color, some 8, .has 8, false⟩,
    ⟨n_halign, some 9, .has 9, false⟩, ⟨n_valign, some 10, .has 10, false⟩, ⟨n_placement, some 11, .has 11, false⟩,
    ⟨n_underline, some 12, .has 12, false⟩, ⟨n_overline, some 13, .has 13, false⟩, ⟨n_line_through, some 14, .has 14, false⟩,
    ⟨n_enclosure, some 15, .has 15, false⟩]
  checks := []

/-- `ElisionAttributes`, private/mx/core/elements/ElisionAttributes.h 28, private/mx/core/elements/ElisionAttributes.cpp 13-97. -/
def ElisionAttributes : AttrClass where
  members := [⟨.commaText, false⟩, ⟨.enum .FontStyle, false⟩, ⟨.fontSize, false⟩, ⟨.enum .FontWeight, false⟩, ⟨.int .NumberOfLines, false⟩,
    ⟨.int .NumberOfLines, false⟩, ⟨.int .NumberOfLines, false⟩, ⟨.decimal .RotationDegrees, false⟩, ⟨.numberOrNormal, false⟩,
    ⟨.string, false⟩]
  hasValues := [0, 1, 2, 3, 4, 5, 6, 7, 8, 9]
  writes := [⟨0, n_font_family, 0⟩, ⟨1, n_font_style, 1⟩, ⟨2, n_font_size, 2⟩, ⟨3, n_font_weight, 3⟩, ⟨4, n_underline, 4⟩, ⟨5, n_overline, 5⟩,
    ⟨6, n_line_through, 6⟩, ⟨7, n_rotation, 7⟩, ⟨8, n_letter_spacing, 8⟩, ⟨9, n_xml_lang, 9⟩]
  reads := [⟨n_font_family, some 0, .has 0, false⟩, ⟨n_font_style, some 1, .has 1, false⟩, ⟨n_font_size, some 2, .has 2, false⟩,
    ⟨n_font_weight, some 3, .has 3, false⟩, ⟨n_underline, some 4, .has 4, false⟩, ⟨n_overline, some 5, .has 5, false⟩,
    ⟨n_line_through, some 6, .has 6, false⟩, ⟨n_rotation, some 7, .has 7, false⟩, ⟨n_letter_spacing, some 8, .has 8, false⟩,
    ⟨n_lang, some 9, .has 9, false⟩, ⟨n_xml_lang, some 9, .has 9, false⟩]
  checks := []

/-- `EmptyFontAttributes`, private/mx/core/elements/EmptyFontAttributes.h 24, private/mx/core/elements/EmptyFontAttributes.cpp 13-66. -/
def EmptyFontAttributes : AttrClass where
  members := [⟨.commaText, false⟩, ⟨.enum .FontStyle, false⟩, ⟨.fontSize, false⟩, ⟨.enum .FontWeight, false⟩]
  hasValues := [0, 1, 2, 3]
  writes := [⟨0, n_font_family, 0⟩, ⟨1, n_font_style, 1⟩, ⟨2, n_font_size, 2⟩, ⟨3, n_font_weight, 3⟩]
  reads := [⟨n_font_family, some 0, .has 0, false⟩, ⟨n_font_style, some 1, .has 1, false⟩, ⟨n_font_size, some 2, .has 2, false⟩,
    ⟨n_font_weight, some 3, .has 3, false⟩]
  checks := []

/-- `EmptyLineAttributes`, private/mx/core/elements/EmptyLineAttributes.h 25, private/mx/core/elements/EmptyLineAttributes.cpp 13-114. -/
def EmptyLineAttributes : AttrClass where
  members := [⟨.enum .LineShape, false⟩, ⟨.enum .LineType, false⟩, ⟨.decimal .TenthsValue, false⟩, ⟨.decimal .TenthsValue, false⟩,
    ⟨.decimal .TenthsValue, false⟩, ⟨.decimal .TenthsValue, false⟩, ⟨.decimal .TenthsValue, false⟩, ⟨.decimal .TenthsValue, false⟩,
    ⟨.commaText, false⟩, ⟨.enum .FontStyle, false⟩, ⟨.fontSize, false⟩, ⟨.enum .FontWeight, false⟩, ⟨.enum .AboveBelow, false⟩]
  hasValues := [0, 1, 2, 3, 4, 5, 6, 7, 8, 9, 10, 11, 12]
  writes := [⟨2, n_dash_length, 2⟩, ⟨0, n_line_shape, 0⟩, ⟨1, n_line_type, 1⟩, ⟨2, n_dash_length, 2⟩, ⟨3, n_space_length, 3⟩, ⟨4, n_default_x, 4⟩,
    ⟨5, n_default_y, 5⟩, ⟨6, n_relative_x, 6⟩, ⟨7, n_relative_y, 7⟩, ⟨8, n_font_family, 8⟩, ⟨9, n_font_style, 9⟩, ⟨10, n_font_size, 10⟩,
    ⟨11, n_font_weight, 11⟩, ⟨12, n_placement, 12⟩]
  reads := [⟨n_line_shape, some 0, .has 0, false⟩, ⟨n_line_type, some 1, .has 1, false⟩, ⟨n_dash_length, some 2, .has 2, false⟩,
    ⟨n_space_length, some 3, .has 3, false⟩, ⟨n_default_x, some 4, .has 4, false⟩, ⟨n_default_y, some 5, .has 5, false⟩,
    ⟨n_relative_x, some 6, .has 6, false⟩, ⟨n_relative_y, some 7, .has 7, false⟩, ⟨n_font_family, some 8, .has 8, false⟩,
    ⟨n_font_style, some 9, .has 9, false⟩, ⟨n_font_size, some 10, .has 10, false⟩, ⟨n_font_weight, some 11, .has 11, false⟩,
    ⟨n_placement, some 12, .has 12, false⟩]
  checks := []

/-- `EmptyPlacementAttributes`, private/mx/core/elements/EmptyPlacementAttributes.h 25, private/mx/core/elements/EmptyPlacementAttributes.cpp 13-91. -/
def EmptyPlacementAttributes : AttrClass where
  members := [⟨.decimal .TenthsValue, false⟩, ⟨.decimal .TenthsValue, false⟩, ⟨.decimal .TenthsValue, false⟩, ⟨.decimal .TenthsValue, false⟩,
    ⟨.commaText, false⟩, ⟨.enum .FontStyle, false⟩, ⟨.fontSize, false⟩, ⟨.enum .FontWeight, false⟩, ⟨.enum .AboveBelow, false⟩]
  hasValues := [0, 1, 2, 3, 4, 5, 6, 7, 8]
  writes := [⟨0, n_default_x, 0⟩, ⟨1, n_default_y, 1⟩, ⟨2, n_relative_x, 2⟩, ⟨3, n_relative_y, 3⟩, ⟨4, n_font_family, 4⟩, ⟨5, n_font_style, 5⟩,
    ⟨6, n_font_size, 6⟩, ⟨7, n_font_weight, 7⟩, ⟨8, n_placement, 8⟩]
  reads := [⟨n_default_x, some 0, .has 0, false⟩, ⟨n_default_y, some 1, .has 1, false⟩, ⟨n_relative_x, some 2, .has 2, false⟩,
    ⟨n_relative_y, some 3, .has 3, false⟩, ⟨n_font_family, some 4, .has 4, false⟩, ⟨n_font_style, some 5, .has 5, false⟩,
    ⟨n_font_size, some 6, .has 6, false⟩, ⟨n_font_weight, some 7, .has 7, false⟩, ⟨n_placement, some 8, .has 8, false⟩]
  checks := []

/-- `EmptyPrintObjectStyleAlignAttributes`, private/mx/core/EmptyPrintObjectStyleAlignAttributes.h 20, private/mx/core/EmptyPrintObjectStyleAlignAttributes.cpp 12-105. -/
def EmptyPrintObjectStyleAlignAttributes : AttrClass where
  members := [⟨.enum .YesNo, false⟩, ⟨.decimal .TenthsValue, false⟩, ⟨.decimal .TenthsValue, false⟩, ⟨.decimal .TenthsValue, false⟩,
    ⟨.decimal .TenthsValue, false⟩, ⟨.commaText, false⟩, ⟨.enum .FontStyle, false⟩, ⟨.fontSize, false⟩, ⟨.enum .FontWeight, false⟩,
    ⟨.color, false⟩, ⟨.enum .LeftCenterRight, false⟩, ⟨.enum .Valign, false⟩]
  hasValues := [0, 1, 2, 3, 4, 5, 6, 7, 8, 9, 10, 11]
  writes := [⟨0, n_print_object, 0⟩, ⟨1, n_default_x, 1⟩, ⟨2, n_default_y, 2⟩, ⟨3, n_relative_x, 3⟩, ⟨4, n_relative_y, 4⟩, ⟨5, n_font_family, 5⟩,
    ⟨6, n_font_style, 6⟩, ⟨7, n_font_size, 7⟩, ⟨8, n_font_weight, 8⟩, ⟨9, n_color, 9⟩, ⟨10, n_halign, 10⟩, ⟨11, n_valign, 11⟩]
  reads := [⟨n_print_object, some 0, .has 0, false⟩, ⟨n_default_x, some 1, .has 1, false⟩, ⟨n_default_y, some 2, .has 2, false⟩,
    ⟨n_relative_x, some 3, .has 3, false⟩, ⟨n_relative_y, some 4, .has 4, false⟩, ⟨n_font_family, some 5, .has 5, false⟩,
    ⟨n_font_style, some 6, .has 6, false⟩, ⟨n_font_size, some 7, .has 7, false⟩, ⟨n_font_weight, some 8, .has 8, false⟩,
    ⟨n_color, some 9, .has 9, false⟩, ⟨n_halign, some 10, .has 10, false⟩, ⟨n_valign, some 11, .has 11, false⟩]
  checks := []

/-- `EmptyTrillSoundAttributes`, private/mx/core/elements/EmptyTrillSoundAttributes.h 25, private/mx/core/elements/EmptyTrillSoundAttributes.cpp 13-126. -/
def EmptyTrillSoundAttributes : AttrClass where
  members := [⟨.decimal .TenthsValue, false⟩, ⟨.decimal .TenthsValue, false⟩, ⟨.decimal .TenthsValue, false⟩, ⟨.decimal .TenthsValue, false⟩,
    ⟨.commaText, false⟩, ⟨.enum .FontStyle, false⟩, ⟨.fontSize, false⟩, ⟨.enum .FontWeight, false⟩, ⟨.enum .AboveBelow, false⟩,
    ⟨.enum .StartNote, false⟩, ⟨.enum .TrillStep, false⟩, ⟨.enum .TwoNoteTurn, false⟩, ⟨.enum .YesNo, false⟩,
    ⟨.decimal .TrillBeats, false⟩, ⟨.decimal .Percent, false⟩, ⟨.decimal .Percent, false⟩]
  hasValues := [0, 1, 2, 3, 4, 5, 6, 7, 8, 9, 10, 11, 12, 13, 14, 15]
  writes := [⟨0, n_default_x, 0⟩, ⟨1, n_default_y, 1⟩, ⟨2, n_relative_x, 2⟩, ⟨3, n_relative_y, 3⟩, ⟨4, n_font_family, 4⟩, ⟨5, n_font_style, 5⟩,
    ⟨6, n_font_size, 6⟩, ⟨7, n_font_weight, 7⟩, ⟨8, n_placement, 8⟩, ⟨9, n_start_note, 9⟩, ⟨10, n_trill_step, 10⟩,
    ⟨11, n_two_note_turn, 11⟩, ⟨12, n_accelerate, 12⟩, ⟨13, n_beats, 13⟩, ⟨14, n_second_beat, 14⟩, ⟨15, n_last_beat, 15⟩]
  reads := [⟨n_default_x, some 0, .has 0, false⟩, ⟨n_default_y, some 1, .has 1, false⟩, ⟨n_relative_x, some 2, .has 2, false⟩,
    ⟨n_relative_y, some 3, .has 3, false⟩, ⟨n_font_family, some 4, .has 4, false⟩, ⟨n_font_style, some 5, .has 5, false⟩,
    ⟨n_font_size, some 6, .has 6, false⟩, ⟨n_font_weight, some 7, .has 7, false⟩, ⟨n_placement, some 8, .has 8, false⟩,
    ⟨n_start_note, some 9, .has 9, false⟩, ⟨n_trill_step, some 10, .has 10, false⟩, ⟨n_two_note_turn, some 11, .has 11, false⟩,
    ⟨n_accelerate, some 12, .has 12, false⟩, ⟨n_beats, some 13, .has 13, false⟩, ⟨n_second_beat, some 14, .has 14, false⟩,
    ⟨n_last_beat, some 15, .has 15, false⟩]
  checks := []

/-- `EncoderAttributes`, private/mx/core/elements/EncoderAttributes.h 22, private/mx/core/elements/EncoderAttributes.cpp 13-51. -/
def EncoderAttributes : AttrClass where
  members := [⟨.token, false⟩]
  hasValues := [0]
  writes := [⟨0, n_type, 0⟩]
  reads := [⟨n_type, some 0, .has 0, false⟩]
  checks := []

/-- `EndingAttributes`, private/mx/core/elements/EndingAttributes.h 26, private/mx/core/elements/EndingAttributes.cpp 13-132. -/
def EndingAttributes : AttrClass where
  members := [⟨.commaInts, true⟩, ⟨.enum .StartStopDiscontinue, true⟩, ⟨.enum .YesNo, false⟩, ⟨.decimal .TenthsValue, false⟩,
    ⟨.decimal .TenthsValue, false⟩, ⟨.decimal .TenthsValue, false⟩, ⟨.decimal .TenthsValue, false⟩, ⟨.commaText, false⟩,
    ⟨.enum .FontStyle, false⟩, ⟨.fontSize, false⟩, ⟨.enum .FontWeight, false⟩, ⟨.decimal .TenthsValue, false⟩,
    ⟨.decimal .TenthsValue, false⟩, ⟨.decimal .TenthsValue, false⟩]
  hasValues := [0, 1, 2, 3, 4, 5, 6, 7, 8, 9, 10, 11, 12, 13]
  writes := [⟨0, n_number, 0⟩, ⟨1, n_type, 1⟩, ⟨2, n_print_object, 2⟩, ⟨3, n_default_x, 3⟩, ⟨4, n_default_y, 4⟩, ⟨5, n_relative_x, 5⟩,
    ⟨6, n_relative_y, 6⟩, ⟨7, n_font_family, 7⟩, ⟨8, n_font_style, 8⟩, ⟨9, n_font_size, 9⟩, ⟨10, n_font_weight, 10⟩,
    ⟨11, n_end_length, 11⟩, ⟨12, n_text_x, 12⟩, ⟨13, n_text_y, 13⟩]
  reads := [⟨n_number, some 0, .found 0, true⟩, ⟨n_type, some 1, .found 1, false⟩, ⟨n_print_object, some 2, .has 2, false⟩,
    ⟨n_default_x, some 3, .has 3, false⟩, ⟨n_default_y, some 4, .has 4, false⟩, ⟨n_relative_x, some 5, .has 5, false⟩,
    ⟨n_relative_y, some 6, .has 6, false⟩, ⟨n_font_family, some 7, .has 7, false⟩, ⟨n_font_style, some 8, .has 8, false⟩,
    ⟨n_font_size, some 9, .has 9, false⟩, ⟨n_font_weight, some 10, .has 10, false⟩, ⟨n_end_length, some 11, .has 11, false⟩,
    ⟨n_text_x, some 12, .has 12, false⟩, ⟨n_text_y, some 13, .has 13, false⟩]
  checks := [0, 1]

/-- `ExtendAttributes`, private/mx/core/elements/ExtendAttributes.h 25, private/mx/core/elements/ExtendAttributes.cpp 13-91. -/
def ExtendAttributes : AttrClass where
  members := [⟨.enum .StartStopContinue, false⟩, ⟨.decimal .TenthsValue, false⟩, ⟨.decimal .TenthsValue, false⟩, ⟨.decimal .TenthsValue, false⟩,
    ⟨.decimal .TenthsValue, false⟩, ⟨.commaText, false⟩, ⟨.enum .FontStyle, false⟩, ⟨.fontSize, false⟩, ⟨.enum .FontWeight, false⟩]
  hasValues := [0, 1, 2, 3, 4, 5, 6, 7, 8]
  writes := [⟨0, n_type, 0⟩, ⟨1, n_default_x, 1⟩, ⟨2, n_default_y, 2⟩, ⟨3, n_relative_x, 3⟩, ⟨4, n_relative_y, 4⟩, ⟨5, n_font_family, 5⟩,
    ⟨6, n_font_style, 6⟩, ⟨7, n_font_size, 7⟩, ⟨8, n_font_weight, 8⟩]
  reads := [⟨n_type, some 0, .has 0, false⟩, ⟨n_default_x, some 1, .has 1, false⟩, ⟨n_default_y, some 2, .has 2, false⟩,
    ⟨n_relative_x, some 3, .has 3, false⟩, ⟨n_relative_y, some 4, .has 4, false⟩, ⟨n_font_family, some 5, .has 5, false⟩,
    ⟨n_font_style, some 6, .has 6, false⟩, ⟨n_font_size, some 7, .has 7, false⟩, ⟨n_font_weight, some 8, .has 8, false⟩]
  checks := []

/-- `FeatureAttributes`, private/mx/core/elements/FeatureAttributes.h 22, private/mx/core/elements/FeatureAttributes.cpp 13-51. -/
def FeatureAttributes : AttrClass where
  members := [⟨.token, false⟩]
  hasValues := [0]
  writes := [⟨0, n_type, 0⟩]
  reads := [⟨n_type, some 0, .has 0, false⟩]
  checks := []

/-- `FermataAttributes`, private/mx/core/elements/FermataAttributes.h 26, private/mx/core/elements/FermataAttributes.cpp 13-96. -/
def FermataAttributes : AttrClass where
  members := [⟨.enum .UprightInverted, false⟩, ⟨.decimal .TenthsValue, false⟩, ⟨.decimal .TenthsValue, false⟩, ⟨.decimal .TenthsValue, false⟩,
    ⟨.decimal .TenthsValue, false⟩, ⟨.commaText, false⟩, ⟨.enum .FontStyle, false⟩, ⟨.fontSize, false⟩, ⟨.enum .FontWeight, false⟩,
    ⟨.color, false⟩]
  hasValues := [0, 1, 2, 3, 4, 5, 6, 7, 8, 9]
  writes := [⟨0, n_type, 0⟩, ⟨1, n_default_x, 1⟩, ⟨2, n_default_y, 2⟩, ⟨3, n_relative_x, 3⟩, ⟨4, n_relative_y, 4⟩, ⟨5, n_font_family, 5⟩,
    ⟨6, n_font_style, 6⟩, ⟨7, n_font_size, 7⟩, ⟨8, n_font_weight, 8⟩, ⟨9, n_color, 9⟩]
  reads := [⟨n_type, some 0, .has 0, false⟩, ⟨n_default_x, some 1, .has 1, false⟩, ⟨n_default_y, some 2, .has 2, false⟩,
    ⟨n_relative_x, some 3, .has 3, false⟩, ⟨n_relative_y, some 4, .has 4, false⟩, ⟨n_font_family, some 5, .has 5, false⟩,
    ⟨n_font_style, some 6, .has 6, false⟩, ⟨n_font_size, some 7, .has 7, false⟩, ⟨n_font_weight, some 8, .has 8, false⟩,
    ⟨n_color, some 9, .has 9, false⟩]
  checks := []

/-- `FigureNumberAttributes`, private/mx/core/elements/FigureNumberAttributes.h 25, private/mx/core/elements/FigureNumberAttributes.cpp 13-86. -/
def FigureNumberAttributes : AttrClass where
  members := [⟨.decimal .TenthsValue, false⟩, ⟨.decimal .TenthsValue, false⟩, ⟨.decimal .TenthsValue, false⟩, ⟨.decimal .TenthsValue, false⟩,
    ⟨.commaText, false⟩, ⟨.enum .FontStyle, false⟩, ⟨.fontSize, false⟩, ⟨.enum .FontWeight, false⟩]
  hasValues := [0, 1, 2, 3, 4, 5, 6, 7]
  writes := [⟨0, n_default_x, 0⟩, ⟨1, n_default_y, 1⟩, ⟨2, n_relative_x, 2⟩, ⟨3, n_relative_y, 3⟩, ⟨4, n_font_family, 4⟩, ⟨5, n_font_style, 5⟩,
    ⟨6, n_font_size, 6⟩, ⟨7, n_font_weight, 7⟩]
  reads := [⟨n_default_x, some 0, .has 0, false⟩, ⟨n_default_y, some 1, .has 1, false⟩, ⟨n_relative_x, some 2, .has 2, false⟩,
    ⟨n_relative_y, some 3, .has 3, false⟩, ⟨n_font_family, some 4, .has 4, false⟩, ⟨n_font_style, some 5, .has 5, false⟩,
    ⟨n_font_size, some 6, .has 6, false⟩, ⟨n_font_weight, some 7, .has 7, false⟩]
  checks := []

/-- `FiguredBassAttributes`, private/mx/core/elements/FiguredBassAttributes.h 26, private/mx/core/elements/FiguredBassAttributes.cpp 13-116. -/
def FiguredBassAttributes : AttrClass where
  members := [⟨.decimal .TenthsValue, false⟩, ⟨.decimal .TenthsValue, false⟩, ⟨.decimal .TenthsValue, false⟩, ⟨.decimal .TenthsValue, false⟩,
    ⟨.commaText, false⟩, ⟨.enum .FontStyle, false⟩, ⟨.fontSize, false⟩, ⟨.enum .FontWeight, false⟩, ⟨.color, false⟩,
    ⟨.enum .YesNo, false⟩, ⟨.enum .YesNo, false⟩, ⟨.enum .YesNo, false⟩, ⟨.enum .YesNo, false⟩, ⟨.enum .YesNo, false⟩]
  hasValues := [0, 1, 2, 3, 4, 5, 6, 7, 8, 9, 10, 11, 12, 13]
  writes := [⟨0, n_default_x, 0⟩, ⟨1, n_default_y, 1⟩, ⟨2, n_relative_x, 2⟩, ⟨3, n_relative_y, 3⟩, ⟨4, n_font_family, 4⟩, ⟨5, n_font_style, 5⟩,
    ⟨6, n_font_size, 6⟩, ⟨7, n_font_weight, 7⟩, ⟨8, n_color, 8⟩, ⟨9, n_print_object, 9⟩, ⟨10, n_print_dot, 10⟩, ⟨11, n_print_spacing, 11⟩,
    ⟨12, n_print_lyric, 12⟩, ⟨13, n_parentheses, 13⟩]
  reads := [⟨n_default_x, some 0, .has 0, false⟩, ⟨n_default_y, some 1, .has 1, false⟩, ⟨n_relative_x, some 2, .has 2, false⟩,
    ⟨n_relative_y, some 3, .has 3, false⟩, ⟨n_font_family, some 4, .has 4, false⟩, ⟨n_font_style, some 5, .has 5, false⟩,
    ⟨n_font_size, some 6, .has 6, false⟩, ⟨n_font_weight, some 7, .has 7, false⟩, ⟨n_color, some 8, .has 8, false⟩,
    ⟨n_print_object, some 9, .has 9, false⟩, ⟨n_print_dot, some 10, .has 10, false⟩, ⟨n_print_spacing, some 11, .has 11, false⟩,
    ⟨n_print_lyric, some 12, .has 12, false⟩, ⟨n_parentheses, some 13, .has 13, false⟩]
  checks := []

/-- `FingeringAttributes`, private/mx/core/elements/FingeringAttributes.h 25, private/mx/core/elements/FingeringAttributes.cpp 13-101. -/
def FingeringAttributes : AttrClass where
  members := [⟨.enum .YesNo, false⟩, ⟨.enum .YesNo, false⟩, ⟨.decimal .TenthsValue, false⟩, ⟨.decimal .TenthsValue, false⟩,
    ⟨.decimal .TenthsValue, false⟩, ⟨.decimal .TenthsValue, false⟩, ⟨.commaText, false⟩, ⟨.enum .FontStyle, false⟩, ⟨.fontSize, false⟩,
    ⟨.enum .FontWeight, false⟩, ⟨.enum .AboveBelow, false⟩]
  hasValues := [0, 1, 2, 3, 4, 5, 6, 7, 8, 9, 10]
  writes := [⟨0, n_substitution, 0⟩, ⟨1, n_alternate, 1⟩, ⟨2, n_default_x, 2⟩, ⟨3, n_default_y, 3⟩, ⟨4, n_relative_x, 4⟩, ⟨5, n_relative_y, 5⟩,
    ⟨6, n_font_family, 6⟩, ⟨7, n_font_style, 7⟩, ⟨8, n_font_size, 8⟩, ⟨9, n_font_weight, 9⟩, ⟨10, n_placement, 10⟩]
  reads := [⟨n_substitution, some 0, .has 0, false⟩, ⟨n_alternate, some 1, .has 1, false⟩, ⟨n_default_x, some 2, .has 2, false⟩,
    ⟨n_default_y, some 3, .has 3, false⟩, ⟨n_relative_x, some 4, .has 4, false⟩, ⟨n_relative_y, some 5, .has 5, false⟩,
    ⟨n_font_family, some 6, .has 6, false⟩, ⟨n_font_style, some 7, .has 7, false⟩, ⟨n_font_size, some 8, .has 8, false⟩,
    ⟨n_font_weight, some 9, .has 9, false⟩, ⟨n_placement, some 10, .has 10, false⟩]
  checks := []

/-- `FirstFretAttributes`, private/mx/core/elements/FirstFretAttributes.h 25, private/mx/core/elements/FirstFretAttributes.cpp 13-56. -/
def FirstFretAttributes : AttrClass where
  members := [⟨.token, false⟩, ⟨.enum .LeftRight, false⟩]
  hasValues := [0, 1]
  writes := [⟨0, n_text, 0⟩, ⟨1, n_location, 1⟩]
  reads := [⟨n_text, some 0, .has 0, false⟩, ⟨n_location, some 1, .has 1, false⟩]
  checks := []

/-- `FootnoteAttributes`, private/mx/core/elements/FootnoteAttributes.h 28, private/mx/core/elements/FootnoteAttributes.cpp 13-143. -/
def FootnoteAttributes : AttrClass where
  members := [⟨.enum .LeftCenterRight, false⟩, ⟨.decimal .TenthsValue, false⟩, ⟨.decimal .TenthsValue, false⟩, ⟨.decimal .TenthsValue, false⟩,
    ⟨.decimal .TenthsValue, false⟩, ⟨.commaText, false⟩, ⟨.enum .FontStyle, false⟩, ⟨.fontSize, false⟩, ⟨.enum .FontWeight, false⟩,
    ⟨.enum .LeftCenterRight, false⟩, ⟨.int .NumberOfLines, false⟩, ⟨.int .NumberOfLines, false⟩, ⟨.int .NumberOfLines, false⟩,
    ⟨.decimal .RotationDegrees, false⟩, ⟨.numberOrNormal, false⟩, ⟨.numberOrNormal, false⟩, ⟨.string, false⟩, ⟨.enum .XmlSpace, false⟩,
    ⟨.enum .EnclosureShape, false⟩]
  hasValues := [0, 1, 2, 3, 4, 5, 6, 7, 8, 9, 10, 11, 12, 13, 14, 15, 16, 17, 18]
  writes := [⟨0, n_justify, 0⟩, ⟨1, n_default_x, 1⟩, ⟨2, n_default_y, 2⟩, ⟨3, n_relative_x, 3⟩, ⟨4, n_relative_y, 4⟩, ⟨5, n_font_family, 5⟩,
    ⟨6, n_font_style, 6⟩, ⟨7, n_font_size, 7⟩, ⟨8, n_font_weight, 8⟩, ⟨9, n_halign, 9⟩, ⟨10, n_underline, 10⟩, ⟨11, n_overline, 11⟩,
    ⟨12, n_line_through, 12⟩, ⟨13, n_rotation, 13⟩, ⟨14, n_letter_spacing, 14⟩, ⟨15, n_line_height, 15⟩, ⟨16, n_xml_lang, 16⟩,
    ⟨17, n_xml_space, 17⟩, ⟨18, n_enclosure, 18⟩]
  reads := [⟨n_justify, some 0, .has 0, false⟩, ⟨n_default_x, some 1, .has 1, false⟩, ⟨n_default_y, some 2, .has 2, false⟩,
    ⟨n_relative_x, some 3, .has 3, false⟩, ⟨n_relative_y, some 4, .has 4, false⟩, ⟨n_font_family, some 5, .has 5, false⟩,
    ⟨n_font_style, some 6, .has 6, false⟩, ⟨n_font_size, some 7, .has 7, false⟩, ⟨n_font_weight, some 8, .has 8, false⟩,
    ⟨n_halign, some 9, .has 9, false⟩, ⟨n_underline, some 10, .has 10, false⟩, ⟨n_overline, some 11, .has 11, false⟩,
    ⟨n_line_through, some 12, .has 12, false⟩, ⟨n_rotation, some 13, .has 13, false⟩, ⟨n_letter_spacing, some 14, .has 14, false⟩,
    ⟨n_line_height, some 15, .has 15, false⟩, ⟨n_lang, some 16, .has 16, false⟩, ⟨n_xml_lang, some 16, .has 16, false⟩,
    ⟨n_space, some 17, .has 17, false⟩, ⟨n_xml_space, some 17, .has 17, false⟩, ⟨n_enclosure, some 18, .has 18, false⟩]
  checks := []

/-- `FrameAttributes`, private/mx/core/elements/FrameAttributes.h 25, private/mx/core/elements/FrameAttributes.cpp 13-96. -/
def FrameAttributes : AttrClass where
  members := [⟨.decimal .TenthsValue, false⟩, ⟨.decimal .TenthsValue, false⟩, ⟨.decimal .TenthsValue, false⟩, ⟨.decimal .TenthsValue, false⟩,
    ⟨.color, false⟩, ⟨.enum .LeftCenterRight, false⟩, ⟨.enum .ValignImage, false⟩, ⟨.decimal .TenthsValue, false⟩,
    ⟨.decimal .TenthsValue, false⟩, ⟨.token, false⟩]
  hasValues := [0, 1, 2, 3, 4, 5, 6, 7, 8, 9]
  writes := [⟨0, n_default_x, 0⟩, ⟨1, n_default_y, 1⟩, ⟨2, n_relative_x, 2⟩, ⟨3, n_relative_y, 3⟩, ⟨4, n_color, 4⟩, ⟨5, n_halign, 5⟩,
    ⟨6, n_valign, 6⟩, ⟨7, n_height, 7⟩, ⟨8, n_width, 8⟩, ⟨9, n_unplayed, 9⟩]
  reads := [⟨n_default_x, some 0, .has 0, false⟩, ⟨n_default_y, some 1, .has 1, false⟩, ⟨n_relative_x, some 2, .has 2, false⟩,
    ⟨n_relative_y, some 3, .has 3, false⟩, ⟨n_color, some 4, .has 4, false⟩, ⟨n_halign, some 5, .has 5, false⟩,
    ⟨n_valign, some 6, .has 6, false⟩, ⟨n_height, some 7, .has 7, false⟩, ⟨n_width, some 8, .has 8, false⟩,
    ⟨n_unplayed, some 9, .has 9, false⟩]
  checks := []

/-- `FretAttributes`, private/mx/core/elements/FretAttributes.h 24, private/mx/core/elements/FretAttributes.cpp 13-66. -/
def FretAttributes : AttrClass where
  members := [⟨.commaText, false⟩, ⟨.enum .FontStyle, false⟩, ⟨.fontSize, false⟩, ⟨.enum .FontWeight, false⟩]
  hasValues := [0, 1, 2, 3]
  writes := [⟨0, n_font_family, 0⟩, ⟨1, n_font_style, 1⟩, ⟨2, n_font_size, 2⟩, ⟨3, n_font_weight, 3⟩]
  reads := [⟨n_font_family, some 0, .has 0, false⟩, ⟨n_font_style, some 1, .has 1, false⟩, ⟨n_font_size, some 2, .has 2, false⟩,
    ⟨n_font_weight, some 3, .has 3, false⟩]
  checks := []

/-- `FunctionAttributes`, private/mx/core/elements/FunctionAttributes.h 25, private/mx/core/elements/FunctionAttributes.cpp 13-86. -/
def FunctionAttributes : AttrClass where
  members := [⟨.decimal .TenthsValue, false⟩, ⟨.decimal .TenthsValue, false⟩, ⟨.decimal .TenthsValue, false⟩, ⟨.decimal .TenthsValue, false⟩,
    ⟨.commaText, false⟩, ⟨.enum .FontStyle, false⟩, ⟨.fontSize, false⟩, ⟨.enum .FontWeight, false⟩]
  hasValues := [0, 1, 2, 3, 4, 5, 6, 7]
  writes := [⟨0, n_default_x, 0⟩, ⟨1, n_default_y, 1⟩, ⟨2, n_relative_x, 2⟩, ⟨3, n_relative_y, 3⟩, ⟨4, n_font_family, 4⟩, ⟨5, n_font_style, 5⟩,
    ⟨6, n_font_size, 6⟩, ⟨7, n_font_weight, 7⟩]
  reads := [⟨n_default_x, some 0, .has 0, false⟩, ⟨n_default_y, some 1, .has 1, false⟩, ⟨n_relative_x, some 2, .has 2, false⟩,
    ⟨n_relative_y, some 3, .has 3, false⟩, ⟨n_font_family, some 4, .has 4, false⟩, ⟨n_font_style, some 5, .has 5, false⟩,
    ⟨n_font_size, some 6, .has 6, false⟩, ⟨n_font_weight, some 7, .has 7, false⟩]
  checks := []

/-- `GlissandoAttributes`, private/mx/core/elements/GlissandoAttributes.h 26, private/mx/core/elements/GlissandoAttributes.cpp 13-117. -/
def GlissandoAttributes : AttrClass where
  members := [⟨.enum .StartStop, true⟩, ⟨.int .NumberLevel, false⟩, ⟨.enum .LineType, false⟩, ⟨.decimal .TenthsValue, false⟩,
    ⟨.decimal .TenthsValue, false⟩, ⟨.decimal .TenthsValue, false⟩, ⟨.decimal .TenthsValue, false⟩, ⟨.decimal .TenthsValue, false⟩,
    ⟨.decimal .TenthsValue, false⟩, ⟨.commaText, false⟩, ⟨.enum .FontStyle, false⟩, ⟨.fontSize, false⟩, ⟨.enum .FontWeight, false⟩]
  hasValues := [0, 1, 2, 3, 4, 5, 6, 7, 8, 9, 10, 11, 12]
  writes := [⟨0, n_type, 0⟩, ⟨1, n_number, 1⟩, ⟨2, n_line_type, 2⟩, ⟨3, n_dash_length, 3⟩, ⟨4, n_space_length, 4⟩, ⟨5, n_default_x, 5⟩,
    ⟨6, n_default_y, 6⟩, ⟨7, n_relative_x, 7⟩, ⟨8, n_relative_y, 8⟩, ⟨9, n_font_family, 9⟩, ⟨10, n_font_style, 10⟩, ⟨11, n_font_size, 11⟩,
    ⟨12, n_font_weight, 12⟩]
  reads := [⟨n_type, some 0, .found 0, false⟩, ⟨n_number, some 1, .has 1, false⟩, ⟨n_line_type, some 2, .has 2, false⟩,
    ⟨n_dash_length, some 3, .has 3, false⟩, ⟨n_space_length, some 4, .has 4, false⟩, ⟨n_default_x, some 5, .has 5, false⟩,
    ⟨n_default_y, some 6, .has 6, false⟩, ⟨n_relative_x, some 7, .has 7, false⟩, ⟨n_relative_y, some 8, .has 8, false⟩,
    ⟨n_font_family, some 9, .has 9, false⟩, ⟨n_font_style, some 10, .has 10, false⟩, ⟨n_font_size, some 11, .has 11, false⟩,
    ⟨n_font_weight, some 12, .has 12, false⟩]
  checks := [0]

/-- `GraceAttributes`, private/mx/core/elements/GraceAttributes.h 23, private/mx/core/elements/GraceAttributes.cpp 13-66. -/
def GraceAttributes : AttrClass where
  members := [⟨.decimal .Percent, false⟩, ⟨.decimal .Percent, false⟩, ⟨.decimal .DivisionsValue, false⟩, ⟨.enum .YesNo, false⟩]
  hasValues := [0, 1, 2, 3]
  writes := [⟨0, n_steal_time_previous, 0⟩, ⟨1, n_steal_time_following, 1⟩, ⟨2, n_make_time, 2⟩, ⟨3, n_slash, 3⟩]
  reads := [⟨n_steal_time_previous, some 0, .has 0, false⟩, ⟨n_steal_time_following, some 1, .has 1, false⟩, ⟨n_make_time, some 2, .has 2, false⟩,
    ⟨n_slash, some 3, .has 3, false⟩]
  checks := []

/-- `GroupAbbreviationAttributes`, private/mx/core/elements/GroupAbbreviationAttributes.h 25, private/mx/core/elements/GroupAbbreviationAttributes.cpp 13-91. -/
def GroupAbbreviationAttributes : AttrClass where
  members := [⟨.decimal .TenthsValue, false⟩, ⟨.decimal .TenthsValue, false⟩, ⟨.decimal .TenthsValue, false⟩, ⟨.decimal .TenthsValue, false⟩,
    ⟨.commaText, false⟩, ⟨.enum .FontStyle, false⟩, ⟨.fontSize, false⟩, ⟨.enum .FontWeight, false⟩, ⟨.enum .LeftCenterRight, false⟩]
  hasValues := [0, 1, 2, 3, 4, 5, 6, 7, 8]
  writes := [⟨0, n_default_x, 0⟩, ⟨1, n_default_y, 1⟩, ⟨2, n_relative_x, 2⟩, ⟨3, n_relative_y, 3⟩, ⟨4, n_font_family, 4⟩, ⟨5, n_font_style, 5⟩,
    ⟨6, n_font_size, 6⟩, ⟨7, n_font_weight, 7⟩, ⟨8, n_justify, 8⟩]
  reads := [⟨n_default_x, some 0, .has 0, false⟩, ⟨n_default_y, some 1, .has 1, false⟩, ⟨n_relative_x, some 2, .has 2, false⟩,
    ⟨n_relative_y, some 3, .has 3, false⟩, ⟨n_font_family, some 4, .has 4, false⟩, ⟨n_font_style, some 5, .has 5, false⟩,
    ⟨n_font_size, some 6, .has 6, false⟩, ⟨n_font_weight, some 7, .has 7, false⟩, ⟨n_justify, some 8, .has 8, false⟩]
  checks := []

/-- `GroupAbbreviationDisplayAttributes`, private/mx/core/elements/GroupAbbreviationDisplayAttributes.h 22, private/mx/core/elements/GroupAbbreviationDisplayAttributes.cpp 13-51. -/
def GroupAbbreviationDisplayAttributes : AttrClass where
  members := [⟨.enum .YesNo, false⟩]
  hasValues := [0]
  writes := [⟨0, n_print_object, 0⟩]
  reads := [⟨n_print_object, some 0, .has 0, false⟩]
  checks := []

/-- `GroupBarlineAttributes`, private/mx/core/elements/GroupBarlineAttributes.h 22, private/mx/core/elements/GroupBarlineAttributes.cpp 13-51. -/
def GroupBarlineAttributes : AttrClass where
  members := [⟨.color, false⟩]
  hasValues := [0]
  writes := [⟨0, n_color, 0⟩]
  reads := [⟨n_color, some 0, .has 0, false⟩]
  checks := []

/-- `GroupNameAttributes`, private/mx/core/elements/GroupNameAttributes.h 25, private/mx/core/elements/GroupNameAttributes.cpp 13-91. -/
def GroupNameAttributes : AttrClass where
  members := [⟨.decimal .TenthsValue, false⟩, ⟨.decimal .TenthsValue, false⟩, ⟨.decimal .TenthsValue, false⟩, ⟨.decimal .TenthsValue, false⟩,
    ⟨.commaText, false⟩, ⟨.enum .FontStyle, false⟩, ⟨.fontSize, false⟩, ⟨.enum .FontWeight, false⟩, ⟨.enum .LeftCenterRight, false⟩]
  hasValues := [0, 1, 2, 3, 4, 5, 6, 7, 8]
  writes := [⟨0, n_default_x, 0⟩, ⟨1, n_default_y, 1⟩, ⟨2, n_relative_x, 2⟩, ⟨3, n_relative_y, 3⟩, ⟨4, n_font_family, 4⟩, ⟨5, n_font_style, 5⟩,
    ⟨6, n_font_size, 6⟩, ⟨7, n_font_weight, 7⟩, ⟨8, n_justify, 8⟩]
  reads := [⟨n_default_x, some 0, .has 0, false⟩, ⟨n_default_y, some 1, .has 1, false⟩, ⟨n_relative_x, some 2, .has 2, false⟩,
    ⟨n_relative_y, some 3, .has 3, false⟩, ⟨n_font_family, some 4, .has 4, false⟩, ⟨n_font_style, some 5, .has 5, false⟩,
    ⟨n_font_size, some 6, .has 6, false⟩, ⟨n_font_weight, some 7, .has 7, false⟩, ⟨n_justify, some 8, .has 8, false⟩]
  checks := []

/-- `GroupNameDisplayAttributes`, private/mx/core/elements/GroupNameDisplayAttributes.h 22, private/mx/core/elements/GroupNameDisplayAttributes.cpp 13-51. -/
def GroupNameDisplayAttributes : AttrClass where
  members := [⟨.enum .YesNo, false⟩]
  hasValues := [0]
  writes := [⟨0, n_print_object, 0⟩]
  reads := [⟨n_print_object, some 0, .has 0, false⟩]
  checks := []

/-- `GroupSymbolAttributes`, private/mx/core/elements/GroupSymbolAttributes.h 22, private/mx/core/elements/GroupSymbolAttributes.cpp 13-66. -/
def GroupSymbolAttributes : AttrClass where
  members := [⟨.decimal .TenthsValue, false⟩, ⟨.decimal .TenthsValue, false⟩, ⟨.decimal .TenthsValue, false⟩, ⟨.decimal .TenthsValue, false⟩]
  hasValues := [0, 1, 2, 3]
  writes := [⟨0, n_default_x, 0⟩, ⟨1, n_default_y, 1⟩, ⟨2, n_relative_x, 2⟩, ⟨3, n_relative_y, 3⟩]
  reads := [⟨n_default_x, some 0, .has 0, false⟩, ⟨n_default_y, some 1, .has 1, false⟩, ⟨n_relative_x, some 2, .has 2, false⟩,
    ⟨n_relative_y, some 3, .has 3, false⟩]
  checks := []

/-- `GroupingAttributes`, private/mx/core/elements/GroupingAttributes.h 23, private/mx/core/elements/GroupingAttributes.cpp 13-67. -/
def GroupingAttributes : AttrClass where
  members := [⟨.enum .StartStopSingle, true⟩, ⟨.token, false⟩, ⟨.token, false⟩]
  hasValues := [0, 1, 2]
  writes := [⟨0, n_type, 0⟩, ⟨1, n_number, 1⟩, ⟨2, n_member_of, 2⟩]
  reads := [⟨n_type, some 0, .found 0, false⟩, ⟨n_number, some 1, .has 1, false⟩, ⟨n_member_of, some 2, .has 2, false⟩]
  checks := [0]

/-- `HammerOnAttributes`, private/mx/core/elements/HammerOnAttributes.h 26, private/mx/core/elements/HammerOnAttributes.cpp 13-107. -/
def HammerOnAttributes : AttrClass where
  members := [⟨.enum .StartStop, true⟩, ⟨.int .NumberLevel, false⟩, ⟨.decimal .TenthsValue, false⟩, ⟨.decimal .TenthsValue, false⟩,
    ⟨.decimal .TenthsValue, false⟩, ⟨.decimal .TenthsValue, false⟩, ⟨.commaText, false⟩, ⟨.enum .FontStyle, false⟩, ⟨.fontSize, false⟩,
    ⟨.enum .FontWeight, false⟩, ⟨.enum .AboveBelow, false⟩]
  hasValues := [0, 1, 2, 3, 4, 5, 6, 7, 8, 9, 10]
  writes := [⟨0, n_type, 0⟩, ⟨1, n_number, 1⟩, ⟨2, n_default_x, 2⟩, ⟨3, n_default_y, 3⟩, ⟨4, n_relative_x, 4⟩, ⟨5, n_relative_y, 5⟩,
    ⟨6, n_font_family, 6⟩, ⟨7, n_font_style, 7⟩, ⟨8, n_font_size, 8⟩, ⟨9, n_font_weight, 9⟩, ⟨10, n_placement, 10⟩]
  reads := [⟨n_type, some 0, .found 0, false⟩, ⟨n_number, some 1, .has 1, false⟩, ⟨n_default_x, some 2, .has 2, false⟩,
    ⟨n_default_y, some 3, .has 3, false⟩, ⟨n_relative_x, some 4, .has 4, false⟩, ⟨n_relative_y, some 5, .has 5, false⟩,
    ⟨n_font_family, some 6, .has 6, false⟩, ⟨n_font_style, some 7, .has 7, false⟩, ⟨n_font_size, some 8, .has 8, false⟩,
    ⟨n_font_weight, some 9, .has 9, false⟩, ⟨n_placement, some 10, .has 10, false⟩]
  checks := [0]

/-- `HandbellAttributes`, private/mx/core/elements/HandbellAttributes.h 25, private/mx/core/elements/HandbellAttributes.cpp 13-91. -/
def HandbellAttributes : AttrClass where
  members := [⟨.decimal .TenthsValue, false⟩, ⟨.decimal .TenthsValue, false⟩, ⟨.decimal .TenthsValue, false⟩, ⟨.decimal .TenthsValue, false⟩,
    ⟨.commaText, false⟩, ⟨.enum .FontStyle, false⟩, ⟨.fontSize, false⟩, ⟨.enum .FontWeight, false⟩, ⟨.enum .AboveBelow, false⟩]
  hasValues := [0, 1, 2, 3, 4, 5, 6, 7, 8]
  writes := [⟨0, n_default_x, 0⟩, ⟨1, n_default_y, 1⟩, ⟨2, n_relative_x, 2⟩, ⟨3, n_relative_y, 3⟩, ⟨4, n_font_family, 4⟩, ⟨5, n_font_style, 5⟩,
    ⟨6, n_font_size, 6⟩, ⟨7, n_font_weight, 7⟩, ⟨8, n_placement, 8⟩]
  reads := [⟨n_default_x, some 0, .has 0, false⟩, ⟨n_default_y, some 1, .has 1, false⟩, ⟨n_relative_x, some 2, .has 2, false⟩,
    ⟨n_relative_y, some 3, .has 3, false⟩, ⟨n_font_family, some 4, .has 4, false⟩, ⟨n_font_style, some 5, .has 5, false⟩,
    ⟨n_font_size, some 6, .has 6, false⟩, ⟨n_font_weight, some 7, .has 7, false⟩, ⟨n_placement, some 8, .has 8, false⟩]
  checks := []

/-- `HarmonicAttributes`, private/mx/core/elements/HarmonicAttributes.h 26, private/mx/core/elements/HarmonicAttributes.cpp 13-101. -/
def HarmonicAttributes : AttrClass where
  members := [⟨.enum .YesNo, false⟩, ⟨.decimal .TenthsValue, false⟩, ⟨.decimal .TenthsValue, false⟩, ⟨.decimal .TenthsValue, false⟩,
    ⟨.decimal .TenthsValue, false⟩, ⟨.commaText, false⟩, ⟨.enum .FontStyle, false⟩, ⟨.fontSize, false⟩, ⟨.enum .FontWeight, false⟩,
    ⟨.color, false⟩, ⟨.enum .AboveBelow, false⟩]
  hasValues := [0, 1, 2, 3, 4, 5, 6, 7, 8, 9, 10]
  writes := [⟨0, n_print_object, 0⟩, ⟨1, n_default_x, 1⟩, ⟨2, n_default_y, 2⟩, ⟨3, n_relative_x, 3⟩, ⟨4, n_relative_y, 4⟩, ⟨5, n_font_family, 5⟩,
    ⟨6, n_font_style, 6⟩, ⟨7, n_font_size, 7⟩, ⟨8, n_font_weight, 8⟩, ⟨9, n_color, 9⟩, ⟨10, n_placement, 10⟩]
  reads := [⟨n_print_object, some 0, .has 0, false⟩, ⟨n_default_x, some 1, .has 1, false⟩, ⟨n_default_y, some 2, .has 2, false⟩,
    ⟨n_relative_x, some 3, .has 3, false⟩, ⟨n_relative_y, some 4, .has 4, false⟩, ⟨n_font_family, some 5, .has 5, false⟩,
    ⟨n_font_style, some 6, .has 6, false⟩, ⟨n_font_size, some 7, .has 7, false⟩, ⟨n_font_weight, some 8, .has 8, false⟩,
    ⟨n_color, some 9, .has 9, false⟩, ⟨n_placement, some 10, .has 10, false⟩]
  checks := []

/-- `HarmonyAttributes`, private/mx/core/elements/HarmonyAttributes.h 26, private/mx/core/elements/HarmonyAttributes.cpp 13-111. -/
def HarmonyAttributes : AttrClass where
  members := [⟨.enum .HarmonyType, false⟩, ⟨.enum .YesNo, false⟩, ⟨.enum .YesNo, false⟩, ⟨.decimal .TenthsValue, false⟩,
    ⟨.decimal .TenthsValue, false⟩, ⟨.decimal .TenthsValue, false⟩, ⟨.decimal .TenthsValue, false⟩, ⟨.commaText, false⟩,
    ⟨.enum .FontStyle, false⟩, ⟨.fontSize, false⟩, ⟨.enum .FontWeight, false⟩, ⟨.color, false⟩, ⟨.enum .AboveBelow, false⟩]
  hasValues := [0, 1, 2, 3, 4, 5, 6, 7, 8, 9, 10, 11, 12]
  writes := [⟨0, n_type, 0⟩, ⟨1, n_print_object, 1⟩, ⟨2, n_print_frame, 2⟩, ⟨3, n_default_x, 3⟩, ⟨4, n_default_y, 4⟩, ⟨5, n_relative_x, 5⟩,
    ⟨6, n_relative_y, 6⟩, ⟨7, n_font_family, 7⟩, ⟨8, n_font_style, 8⟩, ⟨9, n_font_size, 9⟩, ⟨10, n_font_weight, 10⟩, ⟨11, n_color, 11⟩,
    ⟨12, n_placement, 12⟩]
  reads := [⟨n_type, some 0, .has 0, false⟩, ⟨n_print_object, some 1, .has 1, false⟩, ⟨n_print_frame, some 2, .has 2, false⟩,
    ⟨n_default_x, some 3, .has 3, false⟩, ⟨n_default_y, some 4, .has 4, false⟩, ⟨n_relative_x, some 5, .has 5, false⟩,
    ⟨n_relative_y, some 6, .has 6, false⟩, ⟨n_font_family, some 7, .has 7, false⟩, ⟨n_font_style, some 8, .has 8, false⟩,
    ⟨n_font_size, some 9, .has 9, false⟩, ⟨n_font_weight, some 10, .has 10, false⟩, ⟨n_color, some 11, .has 11, false⟩,
    ⟨n_placement, some 12, .has 12, false⟩]
  checks := []

/-- `HarpPedalsAttributes`, private/mx/core/elements/HarpPedalsAttributes.h 26, private/mx/core/elements/HarpPedalsAttributes.cpp 13-101. -/
def HarpPedalsAttributes : AttrClass where
  members := [⟨.decimal .TenthsValue, false⟩, ⟨.decimal .TenthsValue, false⟩, ⟨.decimal .TenthsValue, false⟩, ⟨.decimal .TenthsValue, false⟩,
    ⟨.commaText, false⟩, ⟨.enum .FontStyle, false⟩, ⟨.fontSize, false⟩, ⟨.enum .FontWeight, false⟩, ⟨.color, false⟩,
    ⟨.enum .LeftCenterRight, false⟩, ⟨.enum .Valign, false⟩]
  hasValues := [0, 1, 2, 3, 4, 5, 6, 7, 8, 9, 10]
  writes := [⟨0, n_default_x, 0⟩, ⟨1, n_default_y, 1⟩, ⟨2, n_relative_x, 2⟩, ⟨3, n_relative_y, 3⟩, ⟨4, n_font_family, 4⟩, ⟨5, n_font_style, 5⟩,
    ⟨6, n_font_size, 6⟩, ⟨7, n_font_weight, 7⟩, ⟨8, n_color, 8⟩, ⟨9, n_halign, 9⟩, ⟨10, n_valign, 10⟩]
  reads := [⟨n_default_x, some 0, .has 0, false⟩, ⟨n_default_y, some 1, .has 1, false⟩, ⟨n_relative_x, some 2, .has 2, false⟩,
    ⟨n_relative_y, some 3, .has 3, false⟩, ⟨n_font_family, some 4, .has 4, false⟩, ⟨n_font_style, some 5, .has 5, false⟩,
    ⟨n_font_size, some 6, .has 6, false⟩, ⟨n_font_weight, some 7, .has 7, false⟩, ⟨n_color, some 8, .has 8, false⟩,
    ⟨n_halign, some 9, .has 9, false⟩, ⟨n_valign, some 10, .has 10, false⟩]
  checks := []

/-- `HeelAttributes`, private/mx/core/elements/HeelAttributes.h 26, private/mx/core/elements/HeelAttributes.cpp 13-101. -/
def HeelAttributes : AttrClass where
  members := [⟨.decimal .TenthsValue, false⟩, ⟨.decimal .TenthsValue, false⟩, ⟨.decimal .TenthsValue, false⟩, ⟨.decimal .TenthsValue, false⟩,
    ⟨.commaText, false⟩, ⟨.enum .FontStyle, false⟩, ⟨.fontSize, false⟩, ⟨.enum .FontWeight, false⟩, ⟨.color, false⟩,
    ⟨.enum .AboveBelow, false⟩, ⟨.enum .YesNo, false⟩]
  hasValues := [0, 1, 2, 3, 4, 5, 6, 7, 8, 9, 10]
  writes := [⟨0, n_default_x, 0⟩, ⟨1, n_default_y, 1⟩, ⟨2, n_relative_x, 2⟩, ⟨3, n_relative_y, 3⟩, ⟨4, n_font_family, 4⟩, ⟨5, n_font_style, 5⟩,
    ⟨6, n_font_size, 6⟩, ⟨7, n_font_weight, 7⟩, ⟨8, n_color, 8⟩, ⟨9, n_placement, 9⟩, ⟨10, n_substitution, 10⟩]
  reads := [⟨n_default_x, some 0, .has 0, false⟩, ⟨n_default_y, some 1, .has 1, false⟩, ⟨n_relative_x, some 2, .has 2, false⟩,
    ⟨n_relative_y, some 3, .has 3, false⟩, ⟨n_font_family, some 4, .has 4, false⟩, ⟨n_font_style, some 5, .has 5, false⟩,
    ⟨n_font_size, some 6, .has 6, false⟩, ⟨n_font_weight, some 7, .has 7, false⟩, ⟨n_color, some 8, .has 8, false⟩,
    ⟨n_placement, some 9, .has 9, false⟩, ⟨n_substitution, some 10, .has 10, false⟩]
  checks := []

/-- `HoleAttributes`, private/mx/core/elements/HoleAttributes.h 26, private/mx/core/elements/HoleAttributes.cpp 13-96. -/
def HoleAttributes : AttrClass where
  members := [⟨.decimal .TenthsValue, false⟩, ⟨.decimal .TenthsValue, false⟩, ⟨.decimal .TenthsValue, false⟩, ⟨.decimal .TenthsValue, false⟩,
    ⟨.commaText, false⟩, ⟨.enum .FontStyle, false⟩, ⟨.fontSize, false⟩, ⟨.enum .FontWeight, false⟩, ⟨.color, false⟩,
    ⟨.enum .AboveBelow, false⟩]
  hasValues := [0, 1, 2, 3, 4, 5, 6, 7, 8, 9]
  writes := [⟨0, n_default_x, 0⟩, ⟨1, n_default_y, 1⟩, ⟨2, n_relative_x, 2⟩, ⟨3, n_relative_y, 3⟩, ⟨4, n_font_family, 4⟩, ⟨5, n_font_style, 5⟩,
    ⟨6, n_font_size, 6⟩, ⟨7, n_font_weight, 7⟩, ⟨8, n_color, 8⟩, ⟨9, n_placement, 9⟩]
  reads := [⟨n_default_x, some 0, .has 0, false⟩, ⟨n_default_y, some 1, .has 1, false⟩, ⟨n_relative_x, some 2, .has 2, false⟩,
    ⟨n_relative_y, some 3, .has 3, false⟩, ⟨n_font_family, some 4, .has 4, false⟩, ⟨n_font_style, some 5, .has 5, false⟩,
    ⟨n_font_size, some 6, .has 6, false⟩, ⟨n_font_weight, some 7, .has 7, false⟩, ⟨n_color, some 8, .has 8, false⟩,
    ⟨n_placement, some 9, .has 9, false⟩]
  checks := []

/-- `HoleClosedAttributes`, private/mx/core/elements/HoleClosedAttributes.h 22, private/mx/core/elements/HoleClosedAttributes.cpp 13-51. -/
def HoleClosedAttributes : AttrClass where
  members := [⟨.enum .HoleClosedLocation, false⟩]
  hasValues := [0]
  writes := [⟨0, n_location, 0⟩]
  reads := [⟨n_location, some 0, .has 0, false⟩]
  checks := []

/-- `ImageAttributes`, private/mx/core/elements/ImageAttributes.h 25, private/mx/core/elements/ImageAttributes.cpp 13-93. -/
def ImageAttributes : AttrClass where
  members := [⟨.string, true⟩, ⟨.token, true⟩, ⟨.decimal .TenthsValue, false⟩, ⟨.decimal .TenthsValue, false⟩, ⟨.decimal .TenthsValue, false⟩,
    ⟨.decimal .TenthsValue, false⟩, ⟨.enum .LeftCenterRight, false⟩]
  hasValues := [0, 1, 2, 3, 4, 5, 6]
  writes := [⟨0, n_source, 0⟩, ⟨1, n_type, 1⟩, ⟨2, n_default_x, 2⟩, ⟨3, n_default_y, 3⟩, ⟨4, n_relative_x, 4⟩, ⟨5, n_relative_y, 5⟩,
    ⟨6, n_halign, 6⟩]
  reads := [⟨n_source, some 0, .found 0, false⟩, ⟨n_type, some 1, .found 1, false⟩, ⟨n_default_x, some 2, .has 2, false⟩,
    ⟨n_default_y, some 3, .has 3, false⟩, ⟨n_relative_x, some 4, .has 4, false⟩, ⟨n_relative_y, some 5, .has 5, false⟩,
    ⟨n_halign, some 6, .has 6, false⟩]
  checks := [0, 1]

/-- `InstrumentAttributes`, private/mx/core/elements/InstrumentAttributes.h 22, private/mx/core/elements/InstrumentAttributes.cpp 13-57. -/
def InstrumentAttributes : AttrClass where
  members := [⟨.id, true⟩]
  hasValues := [0]
  writes := [⟨0, n_id, 0⟩]
  reads := [⟨n_id, some 0, .found 0, false⟩]
  checks := [0]

/-- `InterchangeableAttributes`, private/mx/core/elements/InterchangeableAttributes.h 22, private/mx/core/elements/InterchangeableAttributes.cpp 13-55. -/
def InterchangeableAttributes : AttrClass where
  members := [⟨.enum .TimeSymbol, false⟩, ⟨.enum .TimeSeparator, false⟩]
  hasValues := [0, 1]
  writes := [⟨0, n_symbol, 0⟩, ⟨1, n_separator, 1⟩]
  reads := [⟨n_symbol, some 0, .has 0, false⟩, ⟨n_separator, some 1, .has 1, false⟩]
  checks := []

/-- `InversionAttributes`, private/mx/core/elements/InversionAttributes.h 25, private/mx/core/elements/InversionAttributes.cpp 13-86. -/
def InversionAttributes : AttrClass where
  members := [⟨.decimal .TenthsValue, false⟩, ⟨.decimal .TenthsValue, false⟩, ⟨.decimal .TenthsValue, false⟩, ⟨.decimal .TenthsValue, false⟩,
    ⟨.commaText, false⟩, ⟨.enum .FontStyle, false⟩, ⟨.fontSize, false⟩, ⟨.enum .FontWeight, false⟩]
  hasValues := [0, 1, 2, 3, 4, 5, 6, 7]
  writes := [⟨0, n_default_x, 0⟩, ⟨1, n_default_y, 1⟩, ⟨2, n_relative_x, 2⟩, ⟨3, n_relative_y, 3⟩, ⟨4, n_font_family, 4⟩, ⟨5, n_font_style, 5⟩,
    ⟨6, n_font_size, 6⟩, ⟨7, n_font_weight, 7⟩]
  reads := [⟨n_default_x, some 0, .has 0, false⟩, ⟨n_default_y, some 1, .has 1, false⟩, ⟨n_relative_x, some 2, .has 2, false⟩,
    ⟨n_relative_y, some 3, .has 3, false⟩, ⟨n_font_family, some 4, .has 4, false⟩, ⟨n_font_style, some 5, .has 5, false⟩,
    ⟨n_font_size, some 6, .has 6, false⟩, ⟨n_font_weight, some 7, .has 7, false⟩]
  checks := []

/-- `InvertedMordentAttributes`, private/mx/core/elements/InvertedMordentAttributes.h 26, private/mx/core/elements/InvertedMordentAttributes.cpp 14-147. -/
def InvertedMordentAttributes : AttrClass where
  members := [⟨.decimal .TenthsValue, false⟩, ⟨.decimal .TenthsValue, false⟩, ⟨.decimal .TenthsValue, false⟩, ⟨.decimal .TenthsValue, false⟩,
    ⟨.commaText, false⟩, ⟨.enum .FontStyle, false⟩, ⟨.fontSize, false⟩, ⟨.enum .FontWeight, false⟩, ⟨.color, false⟩,
    ⟨.enum .AboveBelow, false⟩, ⟨.enum .StartNote, false⟩, ⟨.enum .TrillStep, false⟩, ⟨.enum .TwoNoteTurn, false⟩, ⟨.enum .YesNo, false⟩,
    ⟨.decimal .TrillBeats, false⟩, ⟨.decimal .Percent, false⟩, ⟨.decimal .Percent, false⟩, ⟨.enum .YesNo, false⟩,
    ⟨.enum .AboveBelow, false⟩, ⟨.enum .AboveBelow, false⟩]
  hasValues := [0, 1, 2, 3, 4, 5, 6, 7, 8, 9, 10, 11, 12, 13, 14, 15, 16, 17, 18, 19]
  writes := [⟨0, n_default_x, 0⟩, ⟨1, n_default_y, 1⟩, ⟨2, n_relative_x, 2⟩, ⟨3, n_relative_y, 3⟩, ⟨4, n_font_family, 4⟩, ⟨5, n_font_style, 5⟩,
    ⟨6, n_font_size, 6⟩, ⟨7, n_font_weight, 7⟩, ⟨8, n_color, 8⟩, ⟨9, n_placement, 9⟩, ⟨10, n_start_note, 10⟩, ⟨11, n_trill_step, 11⟩,
    ⟨12, n_two_note_turn, 12⟩, ⟨13, n_accelerate, 13⟩, ⟨14, n_beats, 14⟩, ⟨15, n_second_beat, 15⟩, ⟨16, n_last_beat, 16⟩,
    ⟨17, n_long, 17⟩, ⟨18, n_approach, 18⟩, ⟨19, n_departure, 19⟩]
  reads := [⟨n_default_x, some 0, .has 0, false⟩, ⟨n_default_y, some 1, .has 1, false⟩, ⟨n_relative_x, some 2, .has 2, false⟩,
    ⟨n_relative_y, some 3, .has 3, false⟩, ⟨n_font_family, some 4, .has 4, false⟩, ⟨n_font_style, some 5, .has 5, false⟩,
    ⟨n_font_size, some 6, .has 6, false⟩, ⟨n_font_weight, some 7, .has 7, false⟩, ⟨n_color, some 8, .has 8, false⟩,
    ⟨n_placement, some 9, .has 9, false⟩, ⟨n_start_note, some 10, .has 10, false⟩, ⟨n_trill_step, some 11, .has 11, false⟩,
    ⟨n_two_note_turn, some 12, .has 12, false⟩, ⟨n_accelerate, some 13, .has 13, false⟩, ⟨n_beats, some 14, .has 14, false⟩,
    ⟨n_second_beat, some 15, .has 15, false⟩, ⟨n_last_beat, some 16, .has 16, false⟩, ⟨n_long, some 17, .has 17, false⟩,
    ⟨n_approach, some 18, .has 18, false⟩, ⟨n_departure, some 19, .has 19, false⟩]
  checks := []

/-- `InvertedTurnAttributes`, private/mx/core/elements/InvertedTurnAttributes.h 25, private/mx/core/elements/InvertedTurnAttributes.cpp 13-131. -/
def InvertedTurnAttributes : AttrClass where
  members := [⟨.decimal .TenthsValue, false⟩, ⟨.decimal .TenthsValue, false⟩, ⟨.decimal .TenthsValue, false⟩, ⟨.decimal .TenthsValue, false⟩,
    ⟨.commaText, false⟩, ⟨.enum .FontStyle, false⟩, ⟨.fontSize, false⟩, ⟨.enum .FontWeight, false⟩, ⟨.enum .AboveBelow, false⟩,
    ⟨.enum .StartNote, false⟩, ⟨.enum .TrillStep, false⟩, ⟨.enum .TwoNoteTurn, false⟩, ⟨.enum .YesNo, false⟩,
    ⟨.decimal .TrillBeats, false⟩, ⟨.decimal .Percent, false⟩, ⟨.decimal .Percent, false⟩, ⟨.enum .YesNo, false⟩]
  hasValues := [0, 1, 2, 3, 4, 5, 6, 7, 8, 9, 10, 11, 12, 13, 14, 15, 16]
  writes := [⟨0, n_default_x, 0⟩, ⟨1, n_default_y, 1⟩, ⟨2, n_relative_x, 2⟩, ⟨3, n_relative_y, 3⟩, ⟨4, n_font_family, 4⟩, ⟨5, n_font_style, 5⟩,
    ⟨6, n_font_size, 6⟩, ⟨7, n_font_weight, 7⟩, ⟨8, n_placement, 8⟩, ⟨9, n_start_note, 9⟩, ⟨10, n_trill_step, 10⟩,
    ⟨11, n_two_note_turn, 11⟩, ⟨12, n_accelerate, 12⟩, ⟨13, n_beats, 13⟩, ⟨14, n_second_beat, 14⟩, ⟨15, n_last_beat, 15⟩, ⟨16, n_slash, 16⟩]
  reads := [⟨n_default_x, some 0, .has 0, false⟩, ⟨n_default_y, some 1, .has 1, false⟩, ⟨n_relative_x, some 2, .has 2, false⟩,
    ⟨n_relative_y, some 3, .has 3, false⟩, ⟨n_font_family, some 4, .has 4, false⟩, ⟨n_font_style, some 5, .has 5, false⟩,
    ⟨n_font_size, some 6, .has 6, false⟩, ⟨n_font_weight, some 7, .has 7, false⟩, ⟨n_placement, some 8, .has 8, false⟩,
    ⟨n_start_note, some 9, .has 9, false⟩, ⟨n_trill_step, some 10, .has 10, false⟩, ⟨n_two_note_turn, some 11, .has 11, false⟩,
    ⟨n_accelerate, some 12, .has 12, false⟩, ⟨n_beats, some 13, .has 13, false⟩, ⟨n_second_beat, some 14, .has 14, false⟩,
    ⟨n_last_beat, some 15, .has 15, false⟩, ⟨n_slash, some 16, .has 16, false⟩]
  checks := []

/-- `KeyAttributes`, private/mx/core/elements/KeyAttributes.h 27, private/mx/core/elements/KeyAttributes.cpp 13-103. -/
def KeyAttributes : AttrClass where
  members := [⟨.int .StaffNumber, false⟩, ⟨.decimal .TenthsValue, false⟩, ⟨.decimal .TenthsValue, false⟩, ⟨.decimal .TenthsValue, false⟩,
    ⟨.decimal .TenthsValue, false⟩, ⟨.commaText, false⟩, ⟨.enum .FontStyle, false⟩, ⟨.fontSize, false⟩, ⟨.enum .FontWeight, false⟩,
    ⟨.color, false⟩, ⟨.enum .YesNo, false⟩]
  hasValues := [0, 1, 2, 3, 4, 5, 6, 7, 8, 9, 10]
  writes := [⟨0, n_number, 0⟩, ⟨1, n_default_x, 1⟩, ⟨2, n_default_y, 2⟩, ⟨3, n_relative_x, 3⟩, ⟨4, n_relative_y, 4⟩, ⟨5, n_font_family, 5⟩,
    ⟨6, n_font_style, 6⟩, ⟨7, n_font_size, 7⟩, ⟨8, n_font_weight, 8⟩, ⟨9, n_color, 9⟩, ⟨10, n_print_object, 10⟩]
  reads := [⟨n_number, some 0, .has 0, false⟩, ⟨n_default_x, some 1, .has 1, false⟩, ⟨n_default_y, some 2, .has 2, false⟩,
    ⟨n_relative_x, some 3, .has 3, false⟩, ⟨n_relative_y, some 4, .has 4, false⟩, ⟨n_font_family, some 5, .has 5, false⟩,
    ⟨n_font_style, some 6, .has 6, false⟩, ⟨n_font_size, some 7, .has 7, false⟩, ⟨n_font_weight, some 8, .has 8, false⟩,
    ⟨n_color, some 9, .has 9, false⟩, ⟨n_print_object, some 10, .has 10, false⟩]
  checks := []

/-- `KeyOctaveAttributes`, private/mx/core/elements/KeyOctaveAttributes.h 23, private/mx/core/elements/KeyOctaveAttributes.cpp 13-62. -/
def KeyOctaveAttributes : AttrClass where
  members := [⟨.int .PositiveInteger, true⟩, ⟨.enum .YesNo, false⟩]
  hasValues := [0, 1]
  writes := [⟨0, n_number, 0⟩, ⟨1, n_cancel, 1⟩]
  reads := [⟨n_number, some 0, .found 0, false⟩, ⟨n_cancel, some 1, .has 1, false⟩]
  checks := [0]

/-- `KindAttributes`, private/mx/core/elements/KindAttributes.h 25, private/mx/core/elements/KindAttributes.cpp 13-116. -/
def KindAttributes : AttrClass where
  members := [⟨.enum .YesNo, false⟩, ⟨.token, false⟩, ⟨.enum .YesNo, false⟩, ⟨.enum .YesNo, false⟩, ⟨.enum .YesNo, false⟩,
    ⟨.decimal .TenthsValue, false⟩, ⟨.decimal .TenthsValue, false⟩, ⟨.decimal .TenthsValue, false⟩, ⟨.decimal .TenthsValue, false⟩,
    ⟨.commaText, false⟩, ⟨.enum .FontStyle, false⟩, ⟨.fontSize, false⟩, ⟨.enum .FontWeight, false⟩, ⟨.enum .LeftCenterRight, false⟩]
  hasValues := [0, 1, 2, 3, 4, 5, 6, 7, 8, 9, 10, 11, 12, 13]
  writes := [⟨0, n_use_symbols, 0⟩, ⟨1, n_text, 1⟩, ⟨2, n_stack_degrees, 2⟩, ⟨3, n_parentheses_degrees, 3⟩, ⟨4, n_bracket_degrees, 4⟩,
    ⟨5, n_default_x, 5⟩, ⟨6, n_default_y, 6⟩, ⟨7, n_relative_x, 7⟩, ⟨8, n_relative_y, 8⟩, ⟨9, n_font_family, 9⟩, ⟨10, n_font_style, 10⟩,
    ⟨11, n_font_size, 11⟩, ⟨12, n_font_weight, 12⟩, ⟨13, n_halign, 13⟩]
  reads := [⟨n_use_symbols, some 0, .has 0, false⟩, ⟨n_text, some 1, .has 1, false⟩, ⟨n_stack_degrees, some 2, .has 2, false⟩,
    ⟨n_parentheses_degrees, some 3, .has 3, false⟩, ⟨n_bracket_degrees, some 4, .has 4, false⟩, ⟨n_default_x, some 5, .has 5, false⟩,
    ⟨n_default_y, some 6, .has 6, false⟩, ⟨n_relative_x, some 7, .has 7, false⟩, ⟨n_relative_y, some 8, .has 8, false⟩,
    ⟨n_font_family, some 9, .has 9, false⟩, ⟨n_font_style, some 10, .has 10, false⟩, ⟨n_font_size, some 11, .has 11, false⟩,
    ⟨n_font_weight, some 12, .has 12, false⟩, ⟨n_halign, some 13, .has 13, false⟩]
  checks := []

/-- `LevelAttributes`, private/mx/core/elements/LevelAttributes.h 22, private/mx/core/elements/LevelAttributes.cpp 13-66. -/
def LevelAttributes : AttrClass where
  members := [⟨.enum .YesNo, false⟩, ⟨.enum .YesNo, false⟩, ⟨.enum .YesNo, false⟩, ⟨.enum .SymbolSize, false⟩]
  hasValues := [0, 1, 2, 3]
  writes := [⟨0, n_reference, 0⟩, ⟨1, n_parentheses, 1⟩, ⟨2, n_bracket, 2⟩, ⟨3, n_size, 3⟩]
  reads := [⟨n_reference, some 0, .has 0, false⟩, ⟨n_parentheses, some 1, .has 1, false⟩, ⟨n_bracket, some 2, .has 2, false⟩,
    ⟨n_size, some 3, .has 3, false⟩]
  checks := []

/-- `LineWidthAttributes`, private/mx/core/elements/LineWidthAttributes.h 22, private/mx/core/elements/LineWidthAttributes.cpp 13-57. -/
def LineWidthAttributes : AttrClass where
  members := [⟨.lineWidthType, true⟩]
  hasValues := [0]
  writes := [⟨0, n_type, 0⟩]
  reads := [⟨n_type, some 0, .found 0, false⟩]
  checks := [0]

/-- `LinkAttributes`, private/mx/core/elements/LinkAttributes.h 29, private/mx/core/elements/LinkAttributes.cpp 13-123. -/
def LinkAttributes : AttrClass where
  members := [⟨.string, true⟩, ⟨.enum .XlinkType, false⟩, ⟨.token, false⟩, ⟨.token, false⟩, ⟨.enum .XlinkShow, false⟩, ⟨.enum .XlinkActuate, false⟩,
    ⟨.token, false⟩, ⟨.token, false⟩, ⟨.int .PositiveInteger, false⟩, ⟨.decimal .TenthsValue, false⟩, ⟨.decimal .TenthsValue, false⟩,
    ⟨.decimal .TenthsValue, false⟩, ⟨.decimal .TenthsValue, false⟩]
  hasValues := [0, 1, 2, 3, 4, 5, 6, 7, 8, 9, 10, 11, 12]
  writes := [⟨0, n_xlink_href, 0⟩, ⟨1, n_xlink_type, 1⟩, ⟨2, n_xlink_role, 2⟩, ⟨3, n_xlink_title, 3⟩, ⟨4, n_xlink_show, 4⟩,
    ⟨5, n_xlink_actuate, 5⟩, ⟨6, n_name, 6⟩, ⟨7, n_element, 7⟩, ⟨8, n_position, 8⟩, ⟨9, n_default_x, 9⟩, ⟨10, n_default_y, 10⟩,
    ⟨11, n_relative_x, 11⟩, ⟨12, n_relative_y, 12⟩]
  reads := [⟨n_href, some 0, .found 0, false⟩, ⟨n_xlink_type, none, .has 1, false⟩, ⟨n_role, some 2, .has 2, false⟩,
    ⟨n_title, some 3, .has 3, false⟩, ⟨n_show, some 4, .has 4, false⟩, ⟨n_actuate, some 5, .has 5, false⟩,
    ⟨n_name, some 6, .has 6, false⟩, ⟨n_element, some 7, .has 7, false⟩, ⟨n_position, some 8, .has 8, false⟩,
    ⟨n_default_x, some 9, .has 9, false⟩, ⟨n_default_y, some 10, .has 10, false⟩, ⟨n_relative_x, some 11, .has 11, false⟩,
    ⟨n_relative_y, some 12, .has 12, false⟩]
  checks := [0]

/-- `LyricAttributes`, private/mx/core/elements/LyricAttributes.h 26, private/mx/core/elements/LyricAttributes.cpp 13-96. -/
def LyricAttributes : AttrClass where
  members := [⟨.token, false⟩, ⟨.token, false⟩, ⟨.enum .LeftCenterRight, false⟩, ⟨.decimal .TenthsValue, false⟩, ⟨.decimal .TenthsValue, false⟩,
    ⟨.decimal .TenthsValue, false⟩, ⟨.decimal .TenthsValue, false⟩, ⟨.enum .AboveBelow, false⟩, ⟨.color, false⟩, ⟨.enum .YesNo, false⟩]
  hasValues := [0, 1, 2, 3, 4, 5, 6, 7, 8, 9]
  writes := [⟨0, n_number, 0⟩, ⟨1, n_name, 1⟩, ⟨2, n_justify, 2⟩, ⟨3, n_default_x, 3⟩, ⟨4, n_default_y, 4⟩, ⟨5, n_relative_x, 5⟩,
    ⟨6, n_relative_y, 6⟩, ⟨7, n_placement, 7⟩, ⟨8, n_color, 8⟩, ⟨9, n_print_object, 9⟩]
  reads := [⟨n_number, some 0, .has 0, false⟩, ⟨n_name, some 1, .has 1, false⟩, ⟨n_justify, some 2, .has 2, false⟩,
    ⟨n_default_x, some 3, .has 3, false⟩, ⟨n_default_y, some 4, .has 4, false⟩, ⟨n_relative_x, some 5, .has 5, false⟩,
    ⟨n_relative_y, some 6, .has 6, false⟩, ⟨n_placement, some 7, .has 7, false⟩, ⟨n_color, some 8, .has 8, false⟩,
    ⟨n_print_object, some 9, .has 9, false⟩]
  checks := []

/-- `LyricFontAttributes`, private/mx/core/elements/LyricFontAttributes.h 26, private/mx/core/elements/LyricFontAttributes.cpp 13-76. -/
def LyricFontAttributes : AttrClass where
  members := [⟨.token, false⟩, ⟨.token, false⟩, ⟨.commaText, false⟩, ⟨.enum .FontStyle, false⟩, ⟨.fontSize, false⟩, ⟨.enum .FontWeight, false⟩]
  hasValues := [0, 1, 2, 3, 4, 5]
  writes := [⟨0, n_number, 0⟩, ⟨1, n_name, 1⟩, ⟨2, n_font_family, 2⟩, ⟨3, n_font_style, 3⟩, ⟨4, n_font_size, 4⟩, ⟨5, n_font_weight, 5⟩]
  reads := [⟨n_number, some 0, .has 0, false⟩, ⟨n_name, some 1, .has 1, false⟩, ⟨n_font_family, some 2, .has 2, false⟩,
    ⟨n_font_style, some 3, .has 3, false⟩, ⟨n_font_size, some 4, .has 4, false⟩, ⟨n_font_weight, some 5, .has 5, false⟩]
  checks := []

/-- `LyricLanguageAttributes`, private/mx/core/elements/LyricLanguageAttributes.h 24, private/mx/core/elements/LyricLanguageAttributes.cpp 13-68. -/
def LyricLanguageAttributes : AttrClass where
  members := [⟨.token, false⟩, ⟨.token, false⟩, ⟨.string, true⟩]
  hasValues := [0, 1, 2]
  writes := [⟨0, n_number, 0⟩, ⟨1, n_name, 1⟩, ⟨2, n_xml_lang, 2⟩]
  reads := [⟨n_number, some 0, .has 0, false⟩, ⟨n_name, some 1, .has 1, false⟩, ⟨n_xml_lang, some 2, .found 2, false⟩,
    ⟨n_lang, some 2, .found 2, false⟩]
  checks := [2]

/-- `MeasureAttributes`, private/mx/core/elements/MeasureAttributes.h 23, private/mx/core/elements/MeasureAttributes.cpp 14-73. -/
def MeasureAttributes : AttrClass where
  members := [⟨.token, true⟩, ⟨.enum .YesNo, false⟩, ⟨.enum .YesNo, false⟩, ⟨.decimal .TenthsValue, false⟩]
  hasValues := [0, 1, 2, 3]
  writes := [⟨0, n_number, 0⟩, ⟨1, n_implicit, 1⟩, ⟨2, n_non_controlling, 2⟩, ⟨3, n_width, 3⟩]
  reads := [⟨n_number, some 0, .found 0, false⟩, ⟨n_implicit, some 1, .has 1, false⟩, ⟨n_non_controlling, some 2, .has 2, false⟩,
    ⟨n_width, some 3, .has 3, false⟩]
  checks := [0]

/-- `MeasureNumberingAttributes`, private/mx/core/elements/MeasureNumberingAttributes.h 25, private/mx/core/elements/MeasureNumberingAttributes.cpp 13-91. -/
def MeasureNumberingAttributes : AttrClass where
  members := [⟨.decimal .TenthsValue, false⟩, ⟨.decimal .TenthsValue, false⟩, ⟨.decimal .TenthsValue, false⟩, ⟨.decimal .TenthsValue, false⟩,
    ⟨.commaText, false⟩, ⟨.enum .FontStyle, false⟩, ⟨.fontSize, false⟩, ⟨.enum .FontWeight, false⟩, ⟨.enum .LeftCenterRight, false⟩]
  hasValues := [0, 1, 2, 3, 4, 5, 6, 7, 8]
  writes := [⟨0, n_default_x, 0⟩, ⟨1, n_default_y, 1⟩, ⟨2, n_relative_x, 2⟩, ⟨3, n_relative_y, 3⟩, ⟨4, n_font_family, 4⟩, ⟨5, n_font_style, 5⟩,
    ⟨6, n_font_size, 6⟩, ⟨7, n_font_weight, 7⟩, ⟨8, n_halign, 8⟩]
  reads := [⟨n_default_x, some 0, .has 0, false⟩, ⟨n_default_y, some 1, .has 1, false⟩, ⟨n_relative_x, some 2, .has 2, false⟩,
    ⟨n_relative_y, some 3, .has 3, false⟩, ⟨n_font_family, some 4, .has 4, false⟩, ⟨n_font_style, some 5, .has 5, false⟩,
    ⟨n_font_size, some 6, .has 6, false⟩, ⟨n_font_weight, some 7, .has 7, false⟩, ⟨n_halign, some 8, .has 8, false⟩]
  checks := []

/-- `MeasureRepeatAttributes`, private/mx/core/elements/MeasureRepeatAttributes.h 23, private/mx/core/elements/MeasureRepeatAttributes.cpp 13-62. -/
def MeasureRepeatAttributes : AttrClass where
  members := [⟨.enum .StartStop, true⟩, ⟨.int .PositiveInteger, false⟩]
  hasValues := [0, 1]
  writes := [⟨0, n_type, 0⟩, ⟨1, n_slashes, 1⟩]
  reads := [⟨n_type, some 0, .found 0, false⟩, ⟨n_slashes, some 1, .has 1, false⟩]
  checks := [0]

/-- `MeasureStyleAttributes`, private/mx/core/elements/MeasureStyleAttributes.h 26, private/mx/core/elements/MeasureStyleAttributes.cpp 13-76. -/
def MeasureStyleAttributes : AttrClass where
  members := [⟨.int .StaffNumber, false⟩, ⟨.commaText, false⟩, ⟨.enum .FontStyle, false⟩, ⟨.fontSize, false⟩, ⟨.enum .FontWeight, false⟩,
    ⟨.color, false⟩]
  hasValues := [0, 1, 2, 3, 4, 5]
  writes := [⟨0, n_number, 0⟩, ⟨1, n_font_family, 1⟩, ⟨2, n_font_style, 2⟩, ⟨3, n_font_size, 3⟩, ⟨4, n_font_weight, 4⟩, ⟨5, n_color, 5⟩]
  reads := [⟨n_number, some 0, .has 0, false⟩, ⟨n_font_family, some 1, .has 1, false⟩, ⟨n_font_style, some 2, .has 2, false⟩,
    ⟨n_font_size, some 3, .has 3, false⟩, ⟨n_font_weight, some 4, .has 4, false⟩, ⟨n_color, some 5, .has 5, false⟩]
  checks := []

/-- `MetronomeAttributes`, private/mx/core/elements/MetronomeAttributes.h 26, private/mx/core/elements/MetronomeAttributes.cpp 13-111. -/
def MetronomeAttributes : AttrClass where
  members := [⟨.decimal .TenthsValue, false⟩, ⟨.decimal .TenthsValue, false⟩, ⟨.decimal .TenthsValue, false⟩, ⟨.decimal .TenthsValue, false⟩,
    ⟨.commaText, false⟩, ⟨.enum .FontStyle, false⟩, ⟨.fontSize, false⟩, ⟨.enum .FontWeight, false⟩, ⟨.color, false⟩,
    ⟨.enum .LeftCenterRight, false⟩, ⟨.enum .Valign, false⟩, ⟨.enum .LeftCenterRight, false⟩, ⟨.enum .YesNo, false⟩]
  hasValues := [0, 1, 2, 3, 4, 5, 6, 7, 8, 9, 10, 11, 12]
  writes := [⟨0, n_default_x, 0⟩, ⟨1, n_default_y, 1⟩, ⟨2, n_relative_x, 2⟩, ⟨3, n_relative_y, 3⟩, ⟨4, n_font_family, 4⟩, ⟨5, n_font_style, 5⟩,
    ⟨6, n_font_size, 6⟩, ⟨7, n_font_weight, 7⟩, ⟨8, n_color, 8⟩, ⟨9, n_halign, 9⟩, ⟨10, n_valign, 10⟩, ⟨11, n_justify, 11⟩,
    ⟨12, n_parentheses, 12⟩]
  reads := [⟨n_default_x, some 0, .has 0, false⟩, ⟨n_default_y, some 1, .has 1, false⟩, ⟨n_relative_x, some 2, .has 2, false⟩,
    ⟨n_relative_y, some 3, .has 3, false⟩, ⟨n_font_family, some 4, .has 4, false⟩, ⟨n_font_style, some 5, .has 5, false⟩,
    ⟨n_font_size, some 6, .has 6, false⟩, ⟨n_font_weight, some 7, .has 7, false⟩, ⟨n_color, some 8, .has 8, false⟩,
    ⟨n_halign, some 9, .has 9, false⟩, ⟨n_valign, some 10, .has 10, false⟩, ⟨n_justify, some 11, .has 11, false⟩,
    ⟨n_parentheses, some 12, .has 12, false⟩]
  checks := []

/-- `MetronomeBeamAttributes`, private/mx/core/elements/MetronomeBeamAttributes.h 22, private/mx/core/elements/MetronomeBeamAttributes.cpp 13-51. -/
def MetronomeBeamAttributes : AttrClass where
  members := [⟨.int .BeamLevel, false⟩]
  hasValues := [0]
  writes := [⟨0, n_number, 0⟩]
  reads := [⟨n_number, some 0, .has 0, false⟩]
  checks := []

/-- `MetronomeTupletAttributes`, private/mx/core/elements/MetronomeTupletAttributes.h 22, private/mx/core/elements/MetronomeTupletAttributes.cpp 13-67. -/
def MetronomeTupletAttributes : AttrClass where
  members := [⟨.enum .StartStop, true⟩, ⟨.enum .YesNo, false⟩, ⟨.enum .ShowTuplet, false⟩]
  hasValues := [0, 1, 2]
  writes := [⟨0, n_type, 0⟩, ⟨1, n_bracket, 1⟩, ⟨2, n_show_number, 2⟩]
  reads := [⟨n_type, some 0, .found 0, false⟩, ⟨n_bracket, some 1, .has 1, false⟩, ⟨n_show_number, some 2, .has 2, false⟩]
  checks := [0]

/-- `MidiDeviceAttributes`, private/mx/core/elements/MidiDeviceAttributes.h 23, private/mx/core/elements/MidiDeviceAttributes.cpp 13-56. -/
def MidiDeviceAttributes : AttrClass where
  members := [⟨.int .Midi16, false⟩, ⟨.id, false⟩]
  hasValues := [0, 1]
  writes := [⟨0, n_port, 0⟩, ⟨1, n_id, 1⟩]
  reads := [⟨n_port, some 0, .has 0, false⟩, ⟨n_id, some 1, .has 1, false⟩]
  checks := []

/-- `MidiInstrumentAttributes`, private/mx/core/elements/MidiInstrumentAttributes.h 22, private/mx/core/elements/MidiInstrumentAttributes.cpp 13-57. -/
def MidiInstrumentAttributes : AttrClass where
  members := [⟨.id, true⟩]
  hasValues := [0]
  writes := [⟨0, n_id, 0⟩]
  reads := [⟨n_id, some 0, .found 0, false⟩]
  checks := [0]

/-- `MiscellaneousFieldAttributes`, private/mx/core/elements/MiscellaneousFieldAttributes.h 22, private/mx/core/elements/MiscellaneousFieldAttributes.cpp 13-57. -/
def MiscellaneousFieldAttributes : AttrClass where
  members := [⟨.token, true⟩]
  hasValues := [0]
  writes := [⟨0, n_name, 0⟩]
  reads := [⟨n_name, some 0, .found 0, false⟩]
  checks := [0]

/-- `MordentAttributes`, private/mx/core/elements/MordentAttributes.h 26, private/mx/core/elements/MordentAttributes.cpp 13-146. -/
def MordentAttributes : AttrClass where
  members := [⟨.decimal .TenthsValue, false⟩, ⟨.decimal .TenthsValue, false⟩, ⟨.decimal .TenthsValue, false⟩, ⟨.decimal .TenthsValue, false⟩,
    ⟨.commaText, false⟩, ⟨.enum .FontStyle, false⟩, ⟨.fontSize, false⟩, ⟨.enum .FontWeight, false⟩, ⟨.color, false⟩,
    ⟨.enum .AboveBelow, false⟩, ⟨.enum .StartNote, false⟩, ⟨.enum .TrillStep, false⟩, ⟨.enum .TwoNoteTurn, false⟩, ⟨.enum .YesNo, false⟩,
    ⟨.decimal .TrillBeats, false⟩, ⟨.decimal .Percent, false⟩, ⟨.decimal .Percent, false⟩, ⟨.enum .YesNo, false⟩,
    ⟨.enum .AboveBelow, false⟩, ⟨.enum .AboveBelow, false⟩]
  hasValues := [0, 1, 2, 3, 4, 5, 6, 7, 8, 9, 10, 11, 12, 13, 14, 15, 16, 17, 18, 19]
  writes := [⟨0, n_default_x, 0⟩, ⟨1, n_default_y, 1⟩, ⟨2, n_relative_x, 2⟩, ⟨3, n_relative_y, 3⟩, ⟨4, n_font_family, 4⟩, ⟨5, n_font_style, 5⟩,
    ⟨6, n_font_size, 6⟩, ⟨7, n_font_weight, 7⟩, ⟨8, n_color, 8⟩, ⟨9, n_placement, 9⟩, ⟨10, n_start_note, 10⟩, ⟨11, n_trill_step, 11⟩,
    ⟨12, n_two_note_turn, 12⟩, ⟨13, n_accelerate, 13⟩, ⟨14, n_beats, 14⟩, ⟨15, n_second_beat, 15⟩, ⟨16, n_last_beat, 16⟩,
    ⟨17, n_long, 17⟩, ⟨18, n_approach, 18⟩, ⟨19, n_departure, 19⟩]
  reads := [⟨n_default_x, some 0, .has 0, false⟩, ⟨n_default_y, some 1, .has 1, false⟩, ⟨n_relative_x, some 2, .has 2, false⟩,
    ⟨n_relative_y, some 3, .has 3, false⟩, ⟨n_font_family, some 4, .has 4, false⟩, ⟨n_font_style, some 5, .has 5, false⟩,
    ⟨n_font_size, some 6, .has 6, false⟩, ⟨n_font_weight, some 7, .has 7, false⟩, ⟨n_color, some 8, .has 8, false⟩,
    ⟨n_placement, some 9, .has 9, false⟩, ⟨n_start_note, some 10, .has 10, false⟩, ⟨n_trill_step, some 11, .has 11, false⟩,
    ⟨n_two_note_turn, some 12, .has 12, false⟩, ⟨n_accelerate, some 13, .has 13, false⟩, ⟨n_beats, some 14, .has 14, false⟩,
    ⟨n_second_beat, some 15, .has 15, false⟩, ⟨n_last_beat, some 16, .has 16, false⟩, ⟨n_long, some 17, .has 17, false⟩,
    ⟨n_approach, some 18, .has 18, false⟩, ⟨n_departure, some 19, .has 19, false⟩]
  checks := []

/-- `MultipleRestAttributes`, private/mx/core/elements/MultipleRestAttributes.h 22, private/mx/core/elements/MultipleRestAttributes.cpp 13-51. -/
def MultipleRestAttributes : AttrClass where
  members := [⟨.enum .YesNo, false⟩]
  hasValues := [0]
  writes := [⟨0, n_use_symbols, 0⟩]
  reads := [⟨n_use_symbols, some 0, .has 0, false⟩]
  checks := []

/-- `NonArpeggiateAttributes`, private/mx/core/elements/NonArpeggiateAttributes.h 24, private/mx/core/elements/NonArpeggiateAttributes.cpp 13-87. -/
def NonArpeggiateAttributes : AttrClass where
  members := [⟨.enum .TopBottom, true⟩, ⟨.int .NumberLevel, false⟩, ⟨.decimal .TenthsValue, false⟩, ⟨.decimal .TenthsValue, false⟩,
    ⟨.decimal .TenthsValue, false⟩, ⟨.decimal .TenthsValue, false⟩, ⟨.enum .AboveBelow, false⟩]
  hasValues := [0, 1, 2, 3, 4, 5, 6]
  writes := [⟨0, n_type, 0⟩, ⟨1, n_number, 1⟩, ⟨2, n_default_x, 2⟩, ⟨3, n_default_y, 3⟩, ⟨4, n_relative_x, 4⟩, ⟨5, n_relative_y, 5⟩,
    ⟨6, n_placement, 6⟩]
  reads := [⟨n_type, some 0, .found 0, false⟩, ⟨n_number, some 1, .has 1, false⟩, ⟨n_default_x, some 2, .has 2, false⟩,
    ⟨n_default_y, some 3, .has 3, false⟩, ⟨n_relative_x, some 4, .has 4, false⟩, ⟨n_relative_y, some 5, .has 5, false⟩,
    ⟨n_placement, some 6, .has 6, false⟩]
  checks := [0]

/-- `NotationsAttributes`, private/mx/core/elements/NotationsAttributes.h 22, private/mx/core/elements/NotationsAttributes.cpp 13-51. -/
def NotationsAttributes : AttrClass where
  members := [⟨.enum .YesNo, false⟩]
  hasValues := [0]
  writes := [⟨0, n_print_object, 0⟩]
  reads := [⟨n_print_object, some 0, .has 0, false⟩]
  checks := []

/-- `NoteAttributes`, private/mx/core/elements/NoteAttributes.h 26, private/mx/core/elements/NoteAttributes.cpp 13-141. -/
def NoteAttributes : AttrClass where
  members := [⟨.decimal .TenthsValue, false⟩, ⟨.decimal .TenthsValue, false⟩, ⟨.decimal .TenthsValue, false⟩, ⟨.decimal .TenthsValue, false⟩,
    ⟨.commaText, false⟩, ⟨.enum .FontStyle, false⟩, ⟨.fontSize, false⟩, ⟨.enum .FontWeight, false⟩, ⟨.color, false⟩,
    ⟨.enum .YesNo, false⟩, ⟨.enum .YesNo, false⟩, ⟨.enum .YesNo, false⟩, ⟨.enum .YesNo, false⟩, ⟨.decimal .NonNegativeDecimal, false⟩,
    ⟨.decimal .NonNegativeDecimal, false⟩, ⟨.decimal .DivisionsValue, false⟩, ⟨.decimal .DivisionsValue, false⟩, ⟨.commaInts, false⟩,
    ⟨.enum .YesNo, false⟩]
  hasValues := [0, 1, 2, 3, 4, 5, 6, 7, 8, 9, 10, 11, 12, 13, 14, 15, 16, 17, 18]
  writes := [⟨0, n_default_x, 0⟩, ⟨1, n_default_y, 1⟩, ⟨2, n_relative_x, 2⟩, ⟨3, n_relative_y, 3⟩, ⟨4, n_font_family, 4⟩, ⟨5, n_font_style, 5⟩,
    ⟨6, n_font_size, 6⟩, ⟨7, n_font_weight, 7⟩, ⟨8, n_color, 8⟩, ⟨9, n_print_object, 9⟩, ⟨10, n_print_dot, 10⟩, ⟨11, n_print_spacing, 11⟩,
    ⟨12, n_print_lyric, 12⟩, ⟨13, n_dynamics, 13⟩, ⟨14, n_end_dynamics, 14⟩, ⟨15, n_attack, 15⟩, ⟨16, n_release, 16⟩,
    ⟨17, n_time_only, 17⟩, ⟨18, n_pizzicato, 18⟩]
  reads := [⟨n_default_x, some 0, .has 0, false⟩, ⟨n_default_y, some 1, .has 1, false⟩, ⟨n_relative_x, some 2, .has 2, false⟩,
    ⟨n_relative_y, some 3, .has 3, false⟩, ⟨n_font_family, some 4, .has 4, false⟩, ⟨n_font_style, some 5, .has 5, false⟩,
    ⟨n_font_size, some 6, .has 6, false⟩, ⟨n_font_weight, some 7, .has 7, false⟩, ⟨n_color, some 8, .has 8, false⟩,
    ⟨n_print_object, some 9, .has 9, false⟩, ⟨n_print_dot, some 10, .has 10, false⟩, ⟨n_print_spacing, some 11, .has 11, false⟩,
    ⟨n_print_lyric, some 12, .has 12, false⟩, ⟨n_dynamics, some 13, .has 13, false⟩, ⟨n_end_dynamics, some 14, .has 14, false⟩,
    ⟨n_attack, some 15, .has 15, false⟩, ⟨n_release, some 16, .has 16, false⟩, ⟨n_time_only, some 17, .has 17, false⟩,
    ⟨n_pizzicato, some 18, .has 18, false⟩]
  checks := []

/-- `NoteSizeAttributes`, private/mx/core/elements/NoteSizeAttributes.h 22, private/mx/core/elements/NoteSizeAttributes.cpp 13-57. -/
def NoteSizeAttributes : AttrClass where
  members := [⟨.enum .NoteSizeType, true⟩]
  hasValues := [0]
  writes := [⟨0, n_type, 0⟩]
  reads := [⟨n_type, some 0, .found 0, false⟩]
  checks := [0]

/-- `NoteheadAttributes`, private/mx/core/elements/NoteheadAttributes.h 25, private/mx/core/elements/NoteheadAttributes.cpp 13-80. -/
def NoteheadAttributes : AttrClass where
  members := [⟨.enum .YesNo, false⟩, ⟨.enum .YesNo, false⟩, ⟨.commaText, false⟩, ⟨.enum .FontStyle, false⟩, ⟨.fontSize, false⟩,
    ⟨.enum .FontWeight, false⟩, ⟨.color, false⟩]
  hasValues := [0, 1, 2, 3, 4, 5, 6]
  writes := [⟨0, n_filled, 0⟩, ⟨1, n_parentheses, 1⟩, ⟨2, n_font_family, 2⟩, ⟨3, n_font_style, 3⟩, ⟨4, n_font_size, 4⟩, ⟨5, n_font_weight, 5⟩,
    ⟨6, n_color, 6⟩]
  reads := [⟨n_filled, some 0, .has 0, false⟩, ⟨n_parentheses, some 1, .has 1, false⟩, ⟨n_font_family, some 2, .has 2, false⟩,
    ⟨n_font_style, some 3, .has 3, false⟩, ⟨n_font_size, some 4, .has 4, false⟩, ⟨n_font_weight, some 5, .has 5, false⟩,
    ⟨n_color, some 6, .has 6, false⟩]
  checks := []

/-- `OctaveShiftAttributes`, private/mx/core/elements/OctaveShiftAttributes.h 26, private/mx/core/elements/OctaveShiftAttributes.cpp 13-117. -/
def OctaveShiftAttributes : AttrClass where
  members := [⟨.enum .UpDownStopContinue, true⟩, ⟨.int .NumberLevel, false⟩, ⟨.int .PositiveInteger, false⟩, ⟨.decimal .TenthsValue, false⟩,
    ⟨.decimal .TenthsValue, false⟩, ⟨.decimal .TenthsValue, false⟩, ⟨.decimal .TenthsValue, false⟩, ⟨.decimal .TenthsValue, false⟩,
    ⟨.decimal .TenthsValue, false⟩, ⟨.commaText, false⟩, ⟨.enum .FontStyle, false⟩, ⟨.fontSize, false⟩, ⟨.enum .FontWeight, false⟩]
  hasValues := [0, 1, 2, 3, 4, 5, 6, 7, 8, 9, 10, 11, 12]
  writes := [⟨0, n_type, 0⟩, ⟨1, n_number, 1⟩, ⟨2, n_size, 2⟩, ⟨3, n_dash_length, 3⟩, ⟨4, n_space_length, 4⟩, ⟨5, n_default_x, 5⟩,
    ⟨6, n_default_y, 6⟩, ⟨7, n_relative_x, 7⟩, ⟨8, n_relative_y, 8⟩, ⟨9, n_font_family, 9⟩, ⟨10, n_font_style, 10⟩, ⟨11, n_font_size, 11⟩,
    ⟨12, n_font_weight, 12⟩]
  reads := [⟨n_type, some 0, .found 0, false⟩, ⟨n_number, some 1, .has 1, false⟩, ⟨n_size, some 2, .has 2, false⟩,
    ⟨n_dash_length, some 3, .has 3, false⟩, ⟨n_space_length, some 4, .has 4, false⟩, ⟨n_default_x, some 5, .has 5, false⟩,
    ⟨n_default_y, some 6, .has 6, false⟩, ⟨n_relative_x, some 7, .has 7, false⟩, ⟨n_relative_y, some 8, .has 8, false⟩,
    ⟨n_font_family, some 9, .has 9, false⟩, ⟨n_font_style, some 10, .has 10, false⟩, ⟨n_font_size, some 11, .has 11, false⟩,
    ⟨n_font_weight, some 12, .has 12, false⟩]
  checks := [0]

/-- `OffsetAttributes`, private/mx/core/elements/OffsetAttributes.h 22, private/mx/core/elements/OffsetAttributes.cpp 13-51. -/
def OffsetAttributes : AttrClass where
  members := [⟨.enum .YesNo, false⟩]
  hasValues := [0]
  writes := [⟨0, n_sound, 0⟩]
  reads := [⟨n_sound, some 0, .has 0, false⟩]
  checks := []

/-- `OpusAttributes`, private/mx/core/elements/OpusAttributes.h 25, private/mx/core/elements/OpusAttributes.cpp 13-88. -/
def OpusAttributes : AttrClass where
  members := [⟨.string, true⟩, ⟨.enum .XlinkType, false⟩, ⟨.token, false⟩, ⟨.token, false⟩, ⟨.enum .XlinkShow, false⟩, ⟨.enum .XlinkActuate, false⟩]
  hasValues := [0, 1, 2, 3, 4, 5]
  writes := [⟨0, n_xlink_href, 0⟩, ⟨1, n_xlink_type, 1⟩, ⟨2, n_xlink_role, 2⟩, ⟨3, n_xlink_title, 3⟩, ⟨4, n_xlink_show, 4⟩, ⟨5, n_xlink_actuate, 5⟩]
  reads := [⟨n_href, some 0, .found 0, false⟩, ⟨n_xlink_type, none, .has 1, false⟩, ⟨n_role, some 2, .has 2, false⟩,
    ⟨n_title, some 3, .has 3, false⟩, ⟨n_show, some 4, .has 4, false⟩, ⟨n_actuate, some 5, .has 5, false⟩]
  checks := [0]

/-- `OtherAppearanceAttributes`, private/mx/core/elements/OtherAppearanceAttributes.h 22, private/mx/core/elements/OtherAppearanceAttributes.cpp 13-57. -/
def OtherAppearanceAttributes : AttrClass where
  members := [⟨.token, true⟩]
  hasValues := [0]
  writes := [⟨0, n_type, 0⟩]
  reads := [⟨n_type, some 0, .found 0, false⟩]
  checks := [0]

/-- `OtherArticulationAttributes`, private/mx/core/elements/OtherArticulationAttributes.h 25, private/mx/core/elements/OtherArticulationAttributes.cpp 13-91. -/
def OtherArticulationAttributes : AttrClass where
  members := [⟨.decimal .TenthsValue, false⟩, ⟨.decimal .TenthsValue, false⟩, ⟨.decimal .TenthsValue, false⟩, ⟨.decimal .TenthsValue, false⟩,
    ⟨.commaText, false⟩, ⟨.enum .FontStyle, false⟩, ⟨.fontSize, false⟩, ⟨.enum .FontWeight, false⟩, ⟨.enum .AboveBelow, false⟩]
  hasValues := [0, 1, 2, 3, 4, 5, 6, 7, 8]
  writes := [⟨0, n_default_x, 0⟩, ⟨1, n_default_y, 1⟩, ⟨2, n_relative_x, 2⟩, ⟨3, n_relative_y, 3⟩, ⟨4, n_font_family, 4⟩, ⟨5, n_font_style, 5⟩,
    ⟨6, n_font_size, 6⟩, ⟨7, n_font_weight, 7⟩, ⟨8, n_placement, 8⟩]
  reads := [⟨n_default_x, some 0, .has 0, false⟩, ⟨n_default_y, some 1, .has 1, false⟩, ⟨n_relative_x, some 2, .has 2, false⟩,
    ⟨n_relative_y, some 3, .has 3, false⟩, ⟨n_font_family, some 4, .has 4, false⟩, ⟨n_font_style, some 5, .has 5, false⟩,
    ⟨n_font_size, some 6, .has 6, false⟩, ⟨n_font_weight, some 7, .has 7, false⟩, ⟨n_placement, some 8, .has 8, false⟩]
  checks := []

/-- `OtherDirectionAttributes`, private/mx/core/elements/OtherDirectionAttributes.h 25, private/mx/core/elements/OtherDirectionAttributes.cpp 13-96. -/
def OtherDirectionAttributes : AttrClass where
  members := [⟨.enum .YesNo, false⟩, ⟨.decimal .TenthsValue, false⟩, ⟨.decimal .TenthsValue, false⟩, ⟨.decimal .TenthsValue, false⟩,
    ⟨.decimal .TenthsValue, false⟩, ⟨.commaText, false⟩, ⟨.enum .FontStyle, false⟩, ⟨.fontSize, false⟩, ⟨.enum .FontWeight, false⟩,
    ⟨.enum .LeftCenterRight, false⟩]
  hasValues := [0, 1, 2, 3, 4, 5, 6, 7, 8, 9]
  writes := [⟨0, n_print_object, 0⟩, ⟨1, n_default_x, 1⟩, ⟨2, n_default_y, 2⟩, ⟨3, n_relative_x, 3⟩, ⟨4, n_relative_y, 4⟩, ⟨5, n_font_family, 5⟩,
    ⟨6, n_font_style, 6⟩, ⟨7, n_font_size, 7⟩, ⟨8, n_font_weight, 8⟩, ⟨9, n_halign, 9⟩]
  reads := [⟨n_print_object, some 0, .has 0, false⟩, ⟨n_default_x, some 1, .has 1, false⟩, ⟨n_default_y, some 2, .has 2, false⟩,
    ⟨n_relative_x, some 3, .has 3, false⟩, ⟨n_relative_y, some 4, .has 4, false⟩, ⟨n_font_family, some 5, .has 5, false⟩,
    ⟨n_font_style, some 6, .has 6, false⟩, ⟨n_font_size, some 7, .has 7, false⟩, ⟨n_font_weight, some 8, .has 8, false⟩,
    ⟨n_halign, some 9, .has 9, false⟩]
  checks := []

/-- `OtherNotationAttributes`, private/mx/core/elements/OtherNotationAttributes.h 26, private/mx/core/elements/OtherNotationAttributes.cpp 13-112. -/
def OtherNotationAttributes : AttrClass where
  members := [⟨.enum .StartStopSingle, true⟩, ⟨.int .NumberLevel, false⟩, ⟨.enum .YesNo, false⟩, ⟨.decimal .TenthsValue, false⟩,
    ⟨.decimal .TenthsValue, false⟩, ⟨.decimal .TenthsValue, false⟩, ⟨.decimal .TenthsValue, false⟩, ⟨.commaText, false⟩,
    ⟨.enum .FontStyle, false⟩, ⟨.fontSize, false⟩, ⟨.enum .FontWeight, false⟩, ⟨.enum .AboveBelow, false⟩]
  hasValues := [0, 1, 2, 3, 4, 5, 6, 7, 8, 9, 10, 11]
  writes := [⟨0, n_type, 0⟩, ⟨1, n_number, 1⟩, ⟨2, n_print_object, 2⟩, ⟨3, n_default_x, 3⟩, ⟨4, n_default_y, 4⟩, ⟨5, n_relative_x, 5⟩,
    ⟨6, n_relative_y, 6⟩, ⟨7, n_font_family, 7⟩, ⟨8, n_font_style, 8⟩, ⟨9, n_font_size, 9⟩, ⟨10, n_font_weight, 10⟩, ⟨11, n_placement, 11⟩]
  reads := [⟨n_type, some 0, .found 0, false⟩, ⟨n_number, some 1, .has 1, false⟩, ⟨n_print_object, some 2, .has 2, false⟩,
    ⟨n_default_x, some 3, .has 3, false⟩, ⟨n_default_y, some 4, .has 4, false⟩, ⟨n_relative_x, some 5, .has 5, false⟩,
    ⟨n_relative_y, some 6, .has 6, false⟩, ⟨n_font_family, some 7, .has 7, false⟩, ⟨n_font_style, some 8, .has 8, false⟩,
    ⟨n_font_size, some 9, .has 9, false⟩, ⟨n_font_weight, some 10, .has 10, false⟩, ⟨n_placement, some 11, .has 11, false⟩]
  checks := [0]

/-- `OtherOrnamentAttributes`, private/mx/core/elements/OtherOrnamentAttributes.h 25, private/mx/core/elements/OtherOrnamentAttributes.cpp 13-91. -/
def OtherOrnamentAttributes : AttrClass where
  members := [⟨.decimal .TenthsValue, false⟩, ⟨.decimal .TenthsValue, false⟩, ⟨.decimal .TenthsValue, false⟩, ⟨.decimal .TenthsValue, false⟩,
    ⟨.commaText, false⟩, ⟨.enum .FontStyle, false⟩, ⟨.fontSize, false⟩, ⟨.enum .FontWeight, false⟩, ⟨.enum .AboveBelow, false⟩]
  hasValues := [0, 1, 2, 3, 4, 5, 6, 7, 8]
  writes := [⟨0, n_default_x, 0⟩, ⟨1, n_default_y, 1⟩, ⟨2, n_relative_x, 2⟩, ⟨3, n_relative_y, 3⟩, ⟨4, n_font_family, 4⟩, ⟨5, n_font_style, 5⟩,
    ⟨6, n_font_size, 6⟩, ⟨7, n_font_weight, 7⟩, ⟨8, n_placement, 8⟩]
  reads := [⟨n_default_x, some 0, .has 0, false⟩, ⟨n_default_y, some 1, .has 1, false⟩, ⟨n_relative_x, some 2, .has 2, false⟩,
    ⟨n_relative_y, some 3, .has 3, false⟩, ⟨n_font_family, some 4, .has 4, false⟩, ⟨n_font_style, some 5, .has 5, false⟩,
    ⟨n_font_size, some 6, .has 6, false⟩, ⟨n_font_weight, some 7, .has 7, false⟩, ⟨n_placement, some 8, .has 8, false⟩]
  checks := []

/-- `OtherPlayAttributes`, private/mx/core/elements/OtherPlayAttributes.h 22, private/mx/core/elements/OtherPlayAttributes.cpp 13-57. -/
def OtherPlayAttributes : AttrClass where
  members := [⟨.token, true⟩]
  hasValues := [0]
  writes := [⟨0, n_type, 0⟩]
  reads := [⟨n_type, some 0, .found 0, false⟩]
  checks := [0]

/-- `OtherTechnicalAttributes`, private/mx/core/elements/OtherTechnicalAttributes.h 25, private/mx/core/elements/OtherTechnicalAttributes.cpp 13-91. -/
def OtherTechnicalAttributes : AttrClass where
  members := [⟨.decimal .TenthsValue, false⟩, ⟨.decimal .TenthsValue, false⟩, ⟨.decimal .TenthsValue, false⟩, ⟨.decimal .TenthsValue, false⟩,
    ⟨.commaText, false⟩, ⟨.enum .FontStyle, false⟩, ⟨.fontSize, false⟩, ⟨.enum .FontWeight, false⟩, ⟨.enum .AboveBelow, false⟩]
  hasValues := [0, 1, 2, 3, 4, 5, 6, 7, 8]
  writes := [⟨0, n_default_x, 0⟩, ⟨1, n_default_y, 1⟩, ⟨2, n_relative_x, 2⟩, ⟨3, n_relative_y, 3⟩, ⟨4, n_font_family, 4⟩, ⟨5, n_font_style, 5⟩,
    ⟨6, n_font_size, 6⟩, ⟨7, n_font_weight, 7⟩, ⟨8, n_placement, 8⟩]
  reads := [⟨n_default_x, some 0, .has 0, false⟩, ⟨n_default_y, some 1, .has 1, false⟩, ⟨n_relative_x, some 2, .has 2, false⟩,
    ⟨n_relative_y, some 3, .has 3, false⟩, ⟨n_font_family, some 4, .has 4, false⟩, ⟨n_font_style, some 5, .has 5, false⟩,
    ⟨n_font_size, some 6, .has 6, false⟩, ⟨n_font_weight, some 7, .has 7, false⟩, ⟨n_placement, some 8, .has 8, false⟩]
  checks := []

/-- `PageMarginsAttributes`, private/mx/core/elements/PageMarginsAttributes.h 22, private/mx/core/elements/PageMarginsAttributes.cpp 13-51. -/
def PageMarginsAttributes : AttrClass where
  members := [⟨.enum .MarginType, false⟩]
  hasValues := [0]
  writes := [⟨0, n_type, 0⟩]
  reads := [⟨n_type, some 0, .has 0, false⟩]
  checks := []

/-- `PartAbbreviationAttributes`, private/mx/core/elements/PartAbbreviationAttributes.h 25, private/mx/core/elements/PartAbbreviationAttributes.cpp 13-96. -/
def PartAbbreviationAttributes : AttrClass where
  members := [⟨.decimal .TenthsValue, false⟩, ⟨.decimal .TenthsValue, false⟩, ⟨.decimal .TenthsValue, false⟩, ⟨.decimal .TenthsValue, false⟩,
    ⟨.commaText, false⟩, ⟨.enum .FontStyle, false⟩, ⟨.fontSize, false⟩, ⟨.enum .FontWeight, false⟩, ⟨.enum .YesNo, false⟩,
    ⟨.enum .LeftCenterRight, false⟩]
  hasValues := [0, 1, 2, 3, 4, 5, 6, 7, 8, 9]
  writes := [⟨0, n_default_x, 0⟩, ⟨1, n_default_y, 1⟩, ⟨2, n_relative_x, 2⟩, ⟨3, n_relative_y, 3⟩, ⟨4, n_font_family, 4⟩, ⟨5, n_font_style, 5⟩,
    ⟨6, n_font_size, 6⟩, ⟨7, n_font_weight, 7⟩, ⟨8, n_print_object, 8⟩, ⟨9, n_justify, 9⟩]
  reads := [⟨n_default_x, some 0, .has 0, false⟩, ⟨n_default_y, some 1, .has 1, false⟩, ⟨n_relative_x, some 2, .has 2, false⟩,
    ⟨n_relative_y, some 3, .has 3, false⟩, ⟨n_font_family, some 4, .has 4, false⟩, ⟨n_font_style, some 5, .has 5, false⟩,
    ⟨n_font_size, some 6, .has 6, false⟩, ⟨n_font_weight, some 7, .has 7, false⟩, ⟨n_print_object, some 8, .has 8, false⟩,
    ⟨n_justify, some 9, .has 9, false⟩]
  checks := []

/-- `PartAbbreviationDisplayAttributes`, private/mx/core/elements/PartAbbreviationDisplayAttributes.h 22, private/mx/core/elements/PartAbbreviationDisplayAttributes.cpp 13-51. -/
def PartAbbreviationDisplayAttributes : AttrClass where
  members := [⟨.enum .YesNo, false⟩]
  hasValues := [0]
  writes := [⟨0, n_print_object, 0⟩]
  reads := [⟨n_print_object, some 0, .has 0, false⟩]
  checks := []

/-- `PartAttributes`, private/mx/core/elements/PartAttributes.h 22, private/mx/core/elements/PartAttributes.cpp 13-57. -/
def PartAttributes : AttrClass where
  members := [⟨.id, true⟩]
  hasValues := [0]
  writes := [⟨0, n_id, 0⟩]
  reads := [⟨n_id, some 0, .found 0, false⟩]
  checks := [0]

/-- `PartGroupAttributes`, private/mx/core/elements/PartGroupAttributes.h 23, private/mx/core/elements/PartGroupAttributes.cpp 13-62. -/
def PartGroupAttributes : AttrClass where
  members := [⟨.enum .StartStop, true⟩, ⟨.token, false⟩]
  hasValues := [0, 1]
  writes := [⟨0, n_type, 0⟩, ⟨1, n_number, 1⟩]
  reads := [⟨n_type, some 0, .found 0, false⟩, ⟨n_number, some 1, .has 1, false⟩]
  checks := [0]

/-- `PartNameAttributes`, private/mx/core/elements/PartNameAttributes.h 26, private/mx/core/elements/PartNameAttributes.cpp 13-101. -/
def PartNameAttributes : AttrClass where
  members := [⟨.decimal .TenthsValue, false⟩, ⟨.decimal .TenthsValue, false⟩, ⟨.decimal .TenthsValue, false⟩, ⟨.decimal .TenthsValue, false⟩,
    ⟨.commaText, false⟩, ⟨.enum .FontStyle, false⟩, ⟨.fontSize, false⟩, ⟨.enum .FontWeight, false⟩, ⟨.color, false⟩,
    ⟨.enum .YesNo, false⟩, ⟨.enum .LeftCenterRight, false⟩]
  hasValues := [0, 1, 2, 3, 4, 5, 6, 7, 8, 9, 10]
  writes := [⟨0, n_default_x, 0⟩, ⟨1, n_default_y, 1⟩, ⟨2, n_relative_x, 2⟩, ⟨3, n_relative_y, 3⟩, ⟨4, n_font_family, 4⟩, ⟨5, n_font_style, 5⟩,
    ⟨6, n_font_size, 6⟩, ⟨7, n_font_weight, 7⟩, ⟨8, n_color, 8⟩, ⟨9, n_print_object, 9⟩, ⟨10, n_justify, 10⟩]
  reads := [⟨n_default_x, some 0, .has 0, false⟩, ⟨n_default_y, some 1, .has 1, false⟩, ⟨n_relative_x, some 2, .has 2, false⟩,
    ⟨n_relative_y, some 3, .has 3, false⟩, ⟨n_font_family, some 4, .has 4, false⟩, ⟨n_font_style, some 5, .has 5, false⟩,
    ⟨n_font_size, some 6, .has 6, false⟩, ⟨n_font_weight, some 7, .has 7, false⟩, ⟨n_color, some 8, .has 8, false⟩,
    ⟨n_print_object, some 9, .has 9, false⟩, ⟨n_justify, some 10, .has 10, false⟩]
  checks := []

/-- `PartNameDisplayAttributes`, private/mx/core/elements/PartNameDisplayAttributes.h 22, private/mx/core/elements/PartNameDisplayAttributes.cpp 13-51. -/
def PartNameDisplayAttributes : AttrClass where
  members := [⟨.enum .YesNo, false⟩]
  hasValues := [0]
  writes := [⟨0, n_print_object, 0⟩]
  reads := [⟨n_print_object, some 0, .has 0, false⟩]
  checks := []

/-- `PartSymbolAttributes`, private/mx/core/elements/PartSymbolAttributes.h 23, private/mx/core/elements/PartSymbolAttributes.cpp 13-76. -/
def PartSymbolAttributes : AttrClass where
  members := [⟨.int .StaffNumber, false⟩, ⟨.int .StaffNumber, false⟩, ⟨.decimal .TenthsValue, false⟩, ⟨.decimal .TenthsValue, false⟩,
    ⟨.decimal .TenthsValue, false⟩, ⟨.decimal .TenthsValue, false⟩]
  hasValues := [0, 1, 2, 3, 4, 5]
  writes := [⟨0, n_top_staff, 0⟩, ⟨1, n_bottom_staff, 1⟩, ⟨2, n_default_x, 2⟩, ⟨3, n_default_y, 3⟩, ⟨4, n_relative_x, 4⟩, ⟨5, n_relative_y, 5⟩]
  reads := [⟨n_top_staff, some 0, .has 0, false⟩, ⟨n_bottom_staff, some 1, .has 1, false⟩, ⟨n_default_x, some 2, .has 2, false⟩,
    ⟨n_default_y, some 3, .has 3, false⟩, ⟨n_relative_x, some 4, .has 4, false⟩, ⟨n_relative_y, some 5, .has 5, false⟩]
  checks := []

/-- `PedalAttributes`, private/mx/core/elements/PedalAttributes.h 25, private/mx/core/elements/PedalAttributes.cpp 13-112. -/
def PedalAttributes : AttrClass where
  members := [⟨.enum .StartStopChangeContinue, true⟩, ⟨.enum .YesNo, false⟩, ⟨.enum .YesNo, false⟩, ⟨.decimal .TenthsValue, false⟩,
    ⟨.decimal .TenthsValue, false⟩, ⟨.decimal .TenthsValue, false⟩, ⟨.decimal .TenthsValue, false⟩, ⟨.commaText, false⟩,
    ⟨.enum .FontStyle, false⟩, ⟨.fontSize, false⟩, ⟨.enum .FontWeight, false⟩, ⟨.enum .LeftCenterRight, false⟩]
  hasValues := [0, 1, 2, 3, 4, 5, 6, 7, 8, 9, 10, 11]
  writes := [⟨0, n_type, 0⟩, ⟨1, n_line, 1⟩, ⟨2, n_sign, 2⟩, ⟨3, n_default_x, 3⟩, ⟨4, n_default_y, 4⟩, ⟨5, n_relative_x, 5⟩, ⟨6, n_relative_y, 6⟩,
    ⟨7, n_font_family, 7⟩, ⟨8, n_font_style, 8⟩, ⟨9, n_font_size, 9⟩, ⟨10, n_font_weight, 10⟩, ⟨11, n_halign, 11⟩]
  reads := [⟨n_type, some 0, .found 0, false⟩, ⟨n_line, some 1, .has 1, false⟩, ⟨n_sign, some 2, .has 2, false⟩,
    ⟨n_default_x, some 3, .has 3, false⟩, ⟨n_default_y, some 4, .has 4, false⟩, ⟨n_relative_x, some 5, .has 5, false⟩,
    ⟨n_relative_y, some 6, .has 6, false⟩, ⟨n_font_family, some 7, .has 7, false⟩, ⟨n_font_style, some 8, .has 8, false⟩,
    ⟨n_font_size, some 9, .has 9, false⟩, ⟨n_font_weight, some 10, .has 10, false⟩, ⟨n_halign, some 11, .has 11, false⟩]
  checks := [0]

/-- `PerMinuteAttributes`, private/mx/core/elements/PerMinuteAttributes.h 24, private/mx/core/elements/PerMinuteAttributes.cpp 13-66. -/
def PerMinuteAttributes : AttrClass where
  members := [⟨.commaText, false⟩, ⟨.enum .FontStyle, false⟩, ⟨.fontSize, false⟩, ⟨.enum .FontWeight, false⟩]
  hasValues := [0, 1, 2, 3]
  writes := [⟨0, n_font_family, 0⟩, ⟨1, n_font_style, 1⟩, ⟨2, n_font_size, 2⟩, ⟨3, n_font_weight, 3⟩]
  reads := [⟨n_font_family, some 0, .has 0, false⟩, ⟨n_font_style, some 1, .has 1, false⟩, ⟨n_font_size, some 2, .has 2, false⟩,
    ⟨n_font_weight, some 3, .has 3, false⟩]
  checks := []

/-- `PercussionAttributes`, private/mx/core/elements/PercussionAttributes.h 26, private/mx/core/elements/PercussionAttributes.cpp 13-106. -/
def PercussionAttributes : AttrClass where
  members := [⟨.decimal .TenthsValue, false⟩, ⟨.decimal .TenthsValue, false⟩, ⟨.decimal .TenthsValue, false⟩, ⟨.decimal .TenthsValue, false⟩,
    ⟨.commaText, false⟩, ⟨.enum .FontStyle, false⟩, ⟨.fontSize, false⟩, ⟨.enum .FontWeight, false⟩, ⟨.color, false⟩,
    ⟨.enum .LeftCenterRight, false⟩, ⟨.enum .Valign, false⟩, ⟨.enum .EnclosureShape, false⟩]
  hasValues := [0, 1, 2, 3, 4, 5, 6, 7, 8, 9, 10, 11]
  writes := [⟨0, n_default_x, 0⟩, ⟨1, n_default_y, 1⟩, ⟨2, n_relative_x, 2⟩, ⟨3, n_relative_y, 3⟩, ⟨4, n_font_family, 4⟩, ⟨5, n_font_style, 5⟩,
    ⟨6, n_font_size, 6⟩, ⟨7, n_font_weight, 7⟩, ⟨8, n_color, 8⟩, ⟨9, n_halign, 9⟩, ⟨10, n_valign, 10⟩, ⟨11, n_enclosure, 11⟩]
  reads := [⟨n_default_x, some 0, .has 0, false⟩, ⟨n_default_y, some 1, .has 1, false⟩, ⟨n_relative_x, some 2, .has 2, false⟩,
    ⟨n_relative_y, some 3, .has 3, false⟩, ⟨n_font_family, some 4, .has 4, false⟩, ⟨n_font_style, some 5, .has 5, false⟩,
    ⟨n_font_size, some 6, .has 6, false⟩, ⟨n_font_weight, some 7, .has 7, false⟩, ⟨n_color, some 8, .has 8, false⟩,
    ⟨n_halign, some 9, .has 9, false⟩, ⟨n_valign, some 10, .has 10, false⟩, ⟨n_enclosure, some 11, .has 11, false⟩]
  checks := []

/-- `PlayAttributes`, private/mx/core/elements/PlayAttributes.h 23, private/mx/core/elements/PlayAttributes.cpp 13-51. -/
def PlayAttributes : AttrClass where
  members := [⟨.id, false⟩]
  hasValues := [0]
  writes := [⟨0, n_id, 0⟩]
  reads := [⟨n_id, some 0, .has 0, false⟩]
  checks := []

/-- `PluckAttributes`, private/mx/core/elements/PluckAttributes.h 25, private/mx/core/elements/PluckAttributes.cpp 13-91. -/
def PluckAttributes : AttrClass where
  members := [⟨.decimal .TenthsValue, false⟩, ⟨.decimal .TenthsValue, false⟩, ⟨.decimal .TenthsValue, false⟩, ⟨.decimal .TenthsValue, false⟩,
    ⟨.commaText, false⟩, ⟨.enum .FontStyle, false⟩, ⟨.fontSize, false⟩, ⟨.enum .FontWeight, false⟩, ⟨.enum .AboveBelow, false⟩]
  hasValues := [0, 1, 2, 3, 4, 5, 6, 7, 8]
  writes := [⟨0, n_default_x, 0⟩, ⟨1, n_default_y, 1⟩, ⟨2, n_relative_x, 2⟩, ⟨3, n_relative_y, 3⟩, ⟨4, n_font_family, 4⟩, ⟨5, n_font_style, 5⟩,
    ⟨6, n_font_size, 6⟩, ⟨7, n_font_weight, 7⟩, ⟨8, n_placement, 8⟩]
  reads := [⟨n_default_x, some 0, .has 0, false⟩, ⟨n_default_y, some 1, .has 1, false⟩, ⟨n_relative_x, some 2, .has 2, false⟩,
    ⟨n_relative_y, some 3, .has 3, false⟩, ⟨n_font_family, some 4, .has 4, false⟩, ⟨n_font_style, some 5, .has 5, false⟩,
    ⟨n_font_size, some 6, .has 6, false⟩, ⟨n_font_weight, some 7, .has 7, false⟩, ⟨n_placement, some 8, .has 8, false⟩]
  checks := []

/-- `PrefixAttributes`, private/mx/core/elements/PrefixAttributes.h 25, private/mx/core/elements/PrefixAttributes.cpp 13-86. -/
def PrefixAttributes : AttrClass where
  members := [⟨.decimal .TenthsValue, false⟩, ⟨.decimal .TenthsValue, false⟩, ⟨.decimal .TenthsValue, false⟩, ⟨.decimal .TenthsValue, false⟩,
    ⟨.commaText, false⟩, ⟨.enum .FontStyle, false⟩, ⟨.fontSize, false⟩, ⟨.enum .FontWeight, false⟩]
  hasValues := [0, 1, 2, 3, 4, 5, 6, 7]
  writes := [⟨0, n_default_x, 0⟩, ⟨1, n_default_y, 1⟩, ⟨2, n_relative_x, 2⟩, ⟨3, n_relative_y, 3⟩, ⟨4, n_font_family, 4⟩, ⟨5, n_font_style, 5⟩,
    ⟨6, n_font_size, 6⟩, ⟨7, n_font_weight, 7⟩]
  reads := [⟨n_default_x, some 0, .has 0, false⟩, ⟨n_default_y, some 1, .has 1, false⟩, ⟨n_relative_x, some 2, .has 2, false⟩,
    ⟨n_relative_y, some 3, .has 3, false⟩, ⟨n_font_family, some 4, .has 4, false⟩, ⟨n_font_style, some 5, .has 5, false⟩,
    ⟨n_font_size, some 6, .has 6, false⟩, ⟨n_font_weight, some 7, .has 7, false⟩]
  checks := []

/-- `PrincipalVoiceAttributes`, private/mx/core/elements/PrincipalVoiceAttributes.h 25, private/mx/core/elements/PrincipalVoiceAttributes.cpp 13-113. -/
def PrincipalVoiceAttributes : AttrClass where
  members := [⟨.enum .StartStop, true⟩, ⟨.enum .PrincipalVoiceSymbol, true⟩, ⟨.decimal .TenthsValue, false⟩, ⟨.decimal .TenthsValue, false⟩,
    ⟨.decimal .TenthsValue, false⟩, ⟨.decimal .TenthsValue, false⟩, ⟨.commaText, false⟩, ⟨.enum .FontStyle, false⟩, ⟨.fontSize, false⟩,
    ⟨.enum .FontWeight, false⟩, ⟨.enum .LeftCenterRight, false⟩]
  hasValues := [0, 1, 2, 3, 4, 5, 6, 7, 8, 9, 10]
  writes := [⟨0, n_type, 0⟩, ⟨1, n_symbol, 1⟩, ⟨2, n_default_x, 2⟩, ⟨3, n_default_y, 3⟩, ⟨4, n_relative_x, 4⟩, ⟨5, n_relative_y, 5⟩,
    ⟨6, n_font_family, 6⟩, ⟨7, n_font_style, 7⟩, ⟨8, n_font_size, 8⟩, ⟨9, n_font_weight, 9⟩, ⟨10, n_halign, 10⟩]
  reads := [⟨n_type, some 0, .found 0, false⟩, ⟨n_symbol, some 1, .found 1, false⟩, ⟨n_default_x, some 2, .has 2, false⟩,
    ⟨n_default_y, some 3, .has 3, false⟩, ⟨n_relative_x, some 4, .has 4, false⟩, ⟨n_relative_y, some 5, .has 5, false⟩,
    ⟨n_font_family, some 6, .has 6, false⟩, ⟨n_font_style, some 7, .has 7, false⟩, ⟨n_font_size, some 8, .has 8, false⟩,
    ⟨n_font_weight, some 9, .has 9, false⟩, ⟨n_halign, some 10, .has 10, false⟩]
  checks := [0, 1]

/-- `PrintAttributes`, private/mx/core/elements/PrintAttributes.h 25, private/mx/core/elements/PrintAttributes.cpp 13-71. -/
def PrintAttributes : AttrClass where
  members := [⟨.decimal .TenthsValue, false⟩, ⟨.enum .YesNo, false⟩, ⟨.enum .YesNo, false⟩, ⟨.int .PositiveInteger, false⟩, ⟨.token, false⟩]
  hasValues := [0, 1, 2, 3, 4]
  writes := [⟨0, n_staff_spacing, 0⟩, ⟨1, n_new_system, 1⟩, ⟨2, n_new_page, 2⟩, ⟨3, n_blank_page, 3⟩, ⟨4, n_page_number, 4⟩]
  reads := [⟨n_staff_spacing, some 0, .has 0, false⟩, ⟨n_new_system, some 1, .has 1, false⟩, ⟨n_new_page, some 2, .has 2, false⟩,
    ⟨n_blank_page, some 3, .has 3, false⟩, ⟨n_page_number, some 4, .has 4, false⟩]
  checks := []

/-- `PullOffAttributes`, private/mx/core/elements/PullOffAttributes.h 26, private/mx/core/elements/PullOffAttributes.cpp 13-107. -/
def PullOffAttributes : AttrClass where
  members := [⟨.enum .StartStop, true⟩, ⟨.int .NumberLevel, false⟩, ⟨.decimal .TenthsValue, false⟩, ⟨.decimal .TenthsValue, false⟩,
    ⟨.decimal .TenthsValue, false⟩, ⟨.decimal .TenthsValue, false⟩, ⟨.commaText, false⟩, ⟨.enum .FontStyle, false⟩, ⟨.fontSize, false⟩,
    ⟨.enum .FontWeight, false⟩, ⟨.enum .AboveBelow, false⟩]
  hasValues := [0, 1, 2, 3, 4, 5, 6, 7, 8, 9, 10]
  writes := [⟨0, n_type, 0⟩, ⟨1, n_number, 1⟩, ⟨2, n_default_x, 2⟩, ⟨3, n_default_y, 3⟩, ⟨4, n_relative_x, 4⟩, ⟨5, n_relative_y, 5⟩,
    ⟨6, n_font_family, 6⟩, ⟨7, n_font_style, 7⟩, ⟨8, n_font_size, 8⟩, ⟨9, n_font_weight, 9⟩, ⟨10, n_placement, 10⟩]
  reads := [⟨n_type, some 0, .found 0, false⟩, ⟨n_number, some 1, .has 1, false⟩, ⟨n_default_x, some 2, .has 2, false⟩,
    ⟨n_default_y, some 3, .has 3, false⟩, ⟨n_relative_x, some 4, .has 4, false⟩, ⟨n_relative_y, some 5, .has 5, false⟩,
    ⟨n_font_family, some 6, .has 6, false⟩, ⟨n_font_style, some 7, .has 7, false⟩, ⟨n_font_size, some 8, .has 8, false⟩,
    ⟨n_font_weight, some 9, .has 9, false⟩, ⟨n_placement, some 10, .has 10, false⟩]
  checks := [0]

/-- `RehearsalAttributes`, private/mx/core/elements/RehearsalAttributes.h 28, private/mx/core/elements/RehearsalAttributes.cpp 13-143. -/
def RehearsalAttributes : AttrClass where
  members := [⟨.enum .LeftCenterRight, false⟩, ⟨.decimal .TenthsValue, false⟩, ⟨.decimal .TenthsValue, false⟩, ⟨.decimal .TenthsValue, false⟩,
    ⟨.decimal .TenthsValue, false⟩, ⟨.commaText, false⟩, ⟨.enum .FontStyle, false⟩, ⟨.fontSize, false⟩, ⟨.enum .FontWeight, false⟩,
    ⟨.enum .LeftCenterRight, false⟩, ⟨.int .NumberOfLines, false⟩, ⟨.int .NumberOfLines, false⟩, ⟨.int .NumberOfLines, false⟩,
    ⟨.decimal .RotationDegrees, false⟩, ⟨.numberOrNormal, false⟩, ⟨.numberOrNormal, false⟩, ⟨.string, false⟩, ⟨.enum .XmlSpace, false⟩,
    ⟨.enum .EnclosureShape, false⟩]
  hasValues := [0, 1, 2, 3, 4, 5, 6, 7, 8, 9, 10, 11, 12, 13, 14, 15, 16, 17, 18]
  writes := [⟨0, n_justify, 0⟩, ⟨1, n_default_x, 1⟩, ⟨2, n_default_y, 2⟩, ⟨3, n_relative_x, 3⟩, ⟨4, n_relative_y, 4⟩, ⟨5, n_font_family, 5⟩,
    ⟨6, n_font_style, 6⟩, ⟨7, n_font_size, 7⟩, ⟨8, n_font_weight, 8⟩, ⟨9, n_halign, 9⟩, ⟨10, n_underline, 10⟩, ⟨11, n_overline, 11⟩,
    ⟨12, n_line_through, 12⟩, ⟨13, n_rotation, 13⟩, ⟨14, n_letter_spacing, 14⟩, ⟨15, n_line_height, 15⟩, ⟨16, n_xml_lang, 16⟩,
    ⟨17, n_xml_space, 17⟩, ⟨18, n_enclosure, 18⟩]
  reads := [⟨n_justify, some 0, .has 0, false⟩, ⟨n_default_x, some 1, .has 1, false⟩, ⟨n_default_y, some 2, .has 2, false⟩,
    ⟨n_relative_x, some 3, .has 3, false⟩, ⟨n_relative_y, some 4, .has 4, false⟩, ⟨n_font_family, some 5, .has 5, false⟩,
    ⟨n_font_style, some 6, .has 6, false⟩, ⟨n_font_size, some 7, .has 7, false⟩, ⟨n_font_weight, some 8, .has 8, false⟩,
    ⟨n_halign, some 9, .has 9, false⟩, ⟨n_underline, some 10, .has 10, false⟩, ⟨n_overline, some 11, .has 11, false⟩,
    ⟨n_line_through, some 12, .has 12, false⟩, ⟨n_rotation, some 13, .has 13, false⟩, ⟨n_letter_spacing, some 14, .has 14, false⟩,
    ⟨n_line_height, some 15, .has 15, false⟩, ⟨n_lang, some 16, .has 16, false⟩, ⟨n_xml_lang, some 16, .has 16, false⟩,
    ⟨n_space, some 17, .has 17, false⟩, ⟨n_xml_space, some 17, .has 17, false⟩, ⟨n_enclosure, some 18, .has 18, false⟩]
  checks := []

/-- `RelationAttributes`, private/mx/core/elements/RelationAttributes.h 22, private/mx/core/elements/RelationAttributes.cpp 13-51. -/
def RelationAttributes : AttrClass where
  members := [⟨.token, false⟩]
  hasValues := [0]
  writes := [⟨0, n_type, 0⟩]
  reads := [⟨n_type, some 0, .has 0, false⟩]
  checks := []

/-- `RepeatAttributes`, private/mx/core/elements/RepeatAttributes.h 23, private/mx/core/elements/RepeatAttributes.cpp 13-67. -/
def RepeatAttributes : AttrClass where
  members := [⟨.enum .BackwardForward, true⟩, ⟨.int .NonNegativeInteger, false⟩, ⟨.enum .Winged, false⟩]
  hasValues := [0, 1, 2]
  writes := [⟨0, n_direction, 0⟩, ⟨1, n_times, 1⟩, ⟨2, n_winged, 2⟩]
  reads := [⟨n_direction, some 0, .found 0, false⟩, ⟨n_times, some 1, .has 1, false⟩, ⟨n_winged, some 2, .has 2, false⟩]
  checks := [0]

/-- `RestAttributes`, private/mx/core/elements/RestAttributes.h 22, private/mx/core/elements/RestAttributes.cpp 13-51. -/
def RestAttributes : AttrClass where
  members := [⟨.enum .YesNo, false⟩]
  hasValues := [0]
  writes := [⟨0, n_measure, 0⟩]
  reads := [⟨n_measure, some 0, .has 0, false⟩]
  checks := []

/-- `RightsAttributes`, private/mx/core/elements/RightsAttributes.h 22, private/mx/core/elements/RightsAttributes.cpp 13-51. -/
def RightsAttributes : AttrClass where
  members := [⟨.token, false⟩]
  hasValues := [0]
  writes := [⟨0, n_type, 0⟩]
  reads := [⟨n_type, some 0, .has 0, false⟩]
  checks := []

/-- `RootAlterAttributes`, private/mx/core/elements/RootAlterAttributes.h 25, private/mx/core/elements/RootAlterAttributes.cpp 13-96. -/
def RootAlterAttributes : AttrClass where
  members := [⟨.enum .YesNo, false⟩, ⟨.decimal .TenthsValue, false⟩, ⟨.decimal .TenthsValue, false⟩, ⟨.decimal .TenthsValue, false⟩,
    ⟨.decimal .TenthsValue, false⟩, ⟨.commaText, false⟩, ⟨.enum .FontStyle, false⟩, ⟨.fontSize, false⟩, ⟨.enum .FontWeight, false⟩,
    ⟨.enum .LeftRight, false⟩]
  hasValues := [0, 1, 2, 3, 4, 5, 6, 7, 8, 9]
  writes := [⟨0, n_print_object, 0⟩, ⟨1, n_default_x, 1⟩, ⟨2, n_default_y, 2⟩, ⟨3, n_relative_x, 3⟩, ⟨4, n_relative_y, 4⟩, ⟨5, n_font_family, 5⟩,
    ⟨6, n_font_style, 6⟩, ⟨7, n_font_size, 7⟩, ⟨8, n_font_weight, 8⟩, ⟨9, n_location, 9⟩]
  reads := [⟨n_print_object, some 0, .has 0, false⟩, ⟨n_default_x, some 1, .has 1, false⟩, ⟨n_default_y, some 2, .has 2, false⟩,
    ⟨n_relative_x, some 3, .has 3, false⟩, ⟨n_relative_y, some 4, .has 4, false⟩, ⟨n_font_family, some 5, .has 5, false⟩,
    ⟨n_font_style, some 6, .has 6, false⟩, ⟨n_font_size, some 7, .has 7, false⟩, ⟨n_font_weight, some 8, .has 8, false⟩,
    ⟨n_location, some 9, .has 9, false⟩]
  checks := []

/-- `RootStepAttributes`, private/mx/core/elements/RootStepAttributes.h 25, private/mx/core/elements/RootStepAttributes.cpp 13-91. -/
def RootStepAttributes : AttrClass where
  members := [⟨.token, false⟩, ⟨.decimal .TenthsValue, false⟩, ⟨.decimal .TenthsValue, false⟩, ⟨.decimal .TenthsValue, false⟩,
    ⟨.decimal .TenthsValue, false⟩, ⟨.commaText, false⟩, ⟨.enum .FontStyle, false⟩, ⟨.fontSize, false⟩, ⟨.enum .FontWeight, false⟩]
  hasValues := [0, 1, 2, 3, 4, 5, 6, 7, 8]
  writes := [⟨0, n_text, 0⟩, ⟨1, n_default_x, 1⟩, ⟨2, n_default_y, 2⟩, ⟨3, n_relative_x, 3⟩, ⟨4, n_relative_y, 4⟩, ⟨5, n_font_family, 5⟩,
    ⟨6, n_font_style, 6⟩, ⟨7, n_font_size, 7⟩, ⟨8, n_font_weight, 8⟩]
  reads := [⟨n_text, some 0, .has 0, false⟩, ⟨n_default_x, some 1, .has 1, false⟩, ⟨n_default_y, some 2, .has 2, false⟩,
    ⟨n_relative_x, some 3, .has 3, false⟩, ⟨n_relative_y, some 4, .has 4, false⟩, ⟨n_font_family, some 5, .has 5, false⟩,
    ⟨n_font_style, some 6, .has 6, false⟩, ⟨n_font_size, some 7, .has 7, false⟩, ⟨n_font_weight, some 8, .has 8, false⟩]
  checks := []

/-- `ScoreInstrumentAttributes`, private/mx/core/elements/ScoreInstrumentAttributes.h 23, private/mx/core/elements/ScoreInstrumentAttributes.cpp 13-57. -/
def ScoreInstrumentAttributes : AttrClass where
  members := [⟨.id, true⟩]
  hasValues := [0]
  writes := [⟨0, n_id, 0⟩]
  reads := [⟨n_id, some 0, .found 0, false⟩]
  checks := [0]

/-- `ScorePartAttributes`, private/mx/core/elements/ScorePartAttributes.h 22, private/mx/core/elements/ScorePartAttributes.cpp 13-57. -/
def ScorePartAttributes : AttrClass where
  members := [⟨.id, true⟩]
  hasValues := [0]
  writes := [⟨0, n_id, 0⟩]
  reads := [⟨n_id, some 0, .found 0, false⟩]
  checks := [0]

/-- `ScorePartwiseAttributes`, private/mx/core/elements/ScorePartwiseAttributes.h 21, private/mx/core/elements/ScorePartwiseAttributes.cpp 16-54. -/
def ScorePartwiseAttributes : AttrClass where
  members := [⟨.token, false⟩]
  hasValues := [0]
  writes := [⟨0, n_version, 0⟩]
  reads := [⟨n_version, some 0, .has 0, false⟩]
  checks := []

/-- `ScoreTimewiseAttributes`, private/mx/core/elements/ScoreTimewiseAttributes.h 21, private/mx/core/elements/ScoreTimewiseAttributes.cpp 15-52. -/
def ScoreTimewiseAttributes : AttrClass where
  members := [⟨.token, false⟩]
  hasValues := [0]
  writes := [⟨0, n_version, 0⟩]
  reads := [⟨n_version, some 0, .has 0, false⟩]
  checks := []

/-- `SlashAttributes`, private/mx/core/elements/SlashAttributes.h 22, private/mx/core/elements/SlashAttributes.cpp 13-67. -/
def SlashAttributes : AttrClass where
  members := [⟨.enum .StartStop, true⟩, ⟨.enum .YesNo, false⟩, ⟨.enum .YesNo, false⟩]
  hasValues := [0, 1, 2]
  writes := [⟨0, n_type, 0⟩, ⟨1, n_use_dots, 1⟩, ⟨2, n_use_stems, 2⟩]
  reads := [⟨n_type, some 0, .found 0, false⟩, ⟨n_use_dots, some 1, .has 1, false⟩, ⟨n_use_stems, some 2, .has 2, false⟩]
  checks := [0]

/-- `SlideAttributes`, private/mx/core/elements/SlideAttributes.h 26, private/mx/core/elements/SlideAttributes.cpp 13-137. -/
def SlideAttributes : AttrClass where
  members := [⟨.enum .StartStop, true⟩, ⟨.int .NumberLevel, false⟩, ⟨.enum .LineType, false⟩, ⟨.decimal .TenthsValue, false⟩,
    ⟨.decimal .TenthsValue, false⟩, ⟨.decimal .TenthsValue, false⟩, ⟨.decimal .TenthsValue, false⟩, ⟨.decimal .TenthsValue, false⟩,
    ⟨.decimal .TenthsValue, false⟩, ⟨.commaText, false⟩, ⟨.enum .FontStyle, false⟩, ⟨.fontSize, false⟩, ⟨.enum .FontWeight, false⟩,
    ⟨.enum .YesNo, false⟩, ⟨.decimal .TrillBeats, false⟩, ⟨.decimal .Percent, false⟩, ⟨.decimal .Percent, false⟩]
  hasValues := [0, 1, 2, 3, 4, 5, 6, 7, 8, 9, 10, 11, 12, 13, 14, 15, 16]
  writes := [⟨0, n_type, 0⟩, ⟨1, n_number, 1⟩, ⟨2, n_line_type, 2⟩, ⟨3, n_dash_length, 3⟩, ⟨4, n_space_length, 4⟩, ⟨5, n_default_x, 5⟩,
    ⟨6, n_default_y, 6⟩, ⟨7, n_relative_x, 7⟩, ⟨8, n_relative_y, 8⟩, ⟨9, n_font_family, 9⟩, ⟨10, n_font_style, 10⟩, ⟨11, n_font_size, 11⟩,
    ⟨12, n_font_weight, 12⟩, ⟨13, n_accelerate, 13⟩, ⟨14, n_beats, 14⟩, ⟨15, n_first_beat, 15⟩, ⟨16, n_last_beat, 16⟩]
  reads := [⟨n_type, some 0, .found 0, false⟩, ⟨n_number, some 1, .has 1, false⟩, ⟨n_line_type, some 2, .has 2, false⟩,
    ⟨n_dash_length, some 3, .has 3, false⟩, ⟨n_space_length, some 4, .has 4, false⟩, ⟨n_default_x, some 5, .has 5, false⟩,
    ⟨n_default_y, some 6, .has 6, false⟩, ⟨n_relative_x, some 7, .has 7, false⟩, ⟨n_relative_y, some 8, .has 8, false⟩,
    ⟨n_font_family, some 9, .has 9, false⟩, ⟨n_font_style, some 10, .has 10, false⟩, ⟨n_font_size, some 11, .has 11, false⟩,
    ⟨n_font_weight, some 12, .has 12, false⟩, ⟨n_accelerate, some 13, .has 13, false⟩, ⟨n_beats, some 14, .has 14, false⟩,
    ⟨n_first_beat, some 15, .has 15, false⟩, ⟨n_last_beat, some 16, .has 16, false⟩]
  checks := [0]

/-- `SlurAttributes`, private/mx/core/elements/SlurAttributes.h 46, private/mx/core/elements/SlurAttributes.cpp 13-140. -/
def SlurAttributes : AttrClass where
  members := [⟨.enum .StartStopContinue, true⟩, ⟨.int .NumberLevel, false⟩, ⟨.enum .LineType, false⟩, ⟨.decimal .TenthsValue, false⟩,
    ⟨.decimal .TenthsValue, false⟩, ⟨.decimal .TenthsValue, false⟩, ⟨.decimal .TenthsValue, false⟩, ⟨.decimal .TenthsValue, false⟩,
    ⟨.decimal .TenthsValue, false⟩, ⟨.enum .AboveBelow, false⟩, ⟨.enum .OverUnder, false⟩, ⟨.decimal .DivisionsValue, false⟩,
    ⟨.decimal .DivisionsValue, false⟩, ⟨.decimal .TenthsValue, false⟩, ⟨.decimal .TenthsValue, false⟩, ⟨.decimal .TenthsValue, false⟩,
    ⟨.decimal .TenthsValue, false⟩, ⟨.color, false⟩]
  hasValues := [0, 1, 3, 4, 5, 6, 7, 8, 9, 10, 11, 12, 13, 14, 15, 16]
  writes := [⟨0, n_type, 0⟩, ⟨1, n_number, 1⟩, ⟨2, n_line_type, 2⟩, ⟨3, n_dash_length, 3⟩, ⟨4, n_space_length, 4⟩, ⟨5, n_default_x, 5⟩,
    ⟨6, n_default_y, 6⟩, ⟨7, n_relative_x, 7⟩, ⟨8, n_relative_y, 8⟩, ⟨9, n_placement, 9⟩, ⟨10, n_orientation, 10⟩,
    ⟨11, n_bezier_offset, 11⟩, ⟨12, n_bezier_offset2, 12⟩, ⟨13, n_bezier_x, 13⟩, ⟨14, n_bezier_y, 14⟩, ⟨15, n_bezier_x2, 15⟩,
    ⟨16, n_bezier_y2, 16⟩, ⟨17, n_color, 17⟩]
  reads := [⟨n_type, some 0, .found 0, false⟩, ⟨n_number, some 1, .has 1, false⟩, ⟨n_line_type, some 2, .has 2, false⟩,
    ⟨n_dash_length, some 3, .has 3, false⟩, ⟨n_space_length, some 4, .has 4, false⟩, ⟨n_default_x, some 5, .has 5, false⟩,
    ⟨n_default_y, some 6, .has 6, false⟩, ⟨n_relative_x, some 7, .has 7, false⟩, ⟨n_relative_y, some 8, .has 8, false⟩,
    ⟨n_placement, some 9, .has 9, false⟩, ⟨n_orientation, some 10, .has 10, false⟩, ⟨n_bezier_offset, some 11, .has 11, false⟩,
    ⟨n_bezier_offset2, some 12, .has 12, false⟩, ⟨n_bezier_x, some 13, .has 13, false⟩, ⟨n_bezier_y, some 14, .has 14, false⟩,
    ⟨n_bezier_x2, some 15, .has 15, false⟩, ⟨n_bezier_y2, some 16, .has 16, false⟩, ⟨n_color, some 17, .has 17, false⟩]
  checks := [0]

/-- `SoundAttributes`, private/mx/core/elements/SoundAttributes.h 26, private/mx/core/elements/SoundAttributes.cpp 13-131. -/
def SoundAttributes : AttrClass where
  members := [⟨.decimal .NonNegativeDecimal, false⟩, ⟨.decimal .NonNegativeDecimal, false⟩, ⟨.enum .YesNo, false⟩, ⟨.token, false⟩, ⟨.token, false⟩,
    ⟨.token, false⟩, ⟨.token, false⟩, ⟨.decimal .DivisionsValue, false⟩, ⟨.enum .YesNo, false⟩, ⟨.token, false⟩, ⟨.commaInts, false⟩,
    ⟨.enum .YesNo, false⟩, ⟨.decimal .RotationDegrees, false⟩, ⟨.decimal .RotationDegrees, false⟩, ⟨.yesNoNumber, false⟩,
    ⟨.yesNoNumber, false⟩, ⟨.yesNoNumber, false⟩]
  hasValues := [0, 1, 2, 3, 4, 5, 6, 7, 8, 9, 10, 11, 12, 13, 14, 15, 16]
  writes := [⟨0, n_tempo, 0⟩, ⟨1, n_dynamics, 1⟩, ⟨2, n_dacapo, 2⟩, ⟨3, n_segno, 3⟩, ⟨4, n_dalsegno, 4⟩, ⟨5, n_coda, 5⟩, ⟨6, n_tocoda, 6⟩,
    ⟨7, n_divisions, 7⟩, ⟨8, n_forward_repeat, 8⟩, ⟨9, n_fine, 9⟩, ⟨10, n_time_only, 10⟩, ⟨11, n_pizzicato, 11⟩, ⟨12, n_pan, 12⟩,
    ⟨13, n_elevation, 13⟩, ⟨14, n_damper_pedal, 14⟩, ⟨15, n_soft_pedal, 15⟩, ⟨16, n_sostenuto_pedal, 16⟩]
  reads := [⟨n_tempo, some 0, .has 0, false⟩, ⟨n_dynamics, some 1, .has 1, false⟩, ⟨n_dacapo, some 2, .has 2, false⟩,
    ⟨n_segno, some 3, .has 3, false⟩, ⟨n_dalsegno, some 4, .has 4, false⟩, ⟨n_coda, some 5, .has 5, false⟩,
    ⟨n_tocoda, some 6, .has 6, false⟩, ⟨n_divisions, some 7, .has 7, false⟩, ⟨n_forward_repeat, some 8, .has 8, false⟩,
    ⟨n_fine, some 9, .has 9, false⟩, ⟨n_time_only, some 10, .has 10, false⟩, ⟨n_pizzicato, some 11, .has 11, false⟩,
    ⟨n_pan, some 12, .has 12, false⟩, ⟨n_elevation, some 13, .has 13, false⟩, ⟨n_damper_pedal, some 14, .has 14, false⟩,
    ⟨n_soft_pedal, some 15, .has 15, false⟩, ⟨n_sostenuto_pedal, some 16, .has 16, false⟩]
  checks := []

/-- `StaffDetailsAttributes`, private/mx/core/elements/StaffDetailsAttributes.h 23, private/mx/core/elements/StaffDetailsAttributes.cpp 13-66. -/
def StaffDetailsAttributes : AttrClass where
  members := [⟨.int .StaffNumber, false⟩, ⟨.enum .ShowFrets, false⟩, ⟨.enum .YesNo, false⟩, ⟨.enum .YesNo, false⟩]
  hasValues := [0, 1, 2, 3]
  writes := [⟨0, n_number, 0⟩, ⟨1, n_show_frets, 1⟩, ⟨2, n_print_object, 2⟩, ⟨3, n_print_spacing, 3⟩]
  reads := [⟨n_number, some 0, .has 0, false⟩, ⟨n_show_frets, some 1, .has 1, false⟩, ⟨n_print_object, some 2, .has 2, false⟩,
    ⟨n_print_spacing, some 3, .has 3, false⟩]
  checks := []

/-- `StaffLayoutAttributes`, private/mx/core/elements/StaffLayoutAttributes.h 22, private/mx/core/elements/StaffLayoutAttributes.cpp 13-51. -/
def StaffLayoutAttributes : AttrClass where
  members := [⟨.int .StaffNumber, false⟩]
  hasValues := [0]
  writes := [⟨0, n_number, 0⟩]
  reads := [⟨n_number, some 0, .has 0, false⟩]
  checks := []

/-- `StaffTuningAttributes`, private/mx/core/elements/StaffTuningAttributes.h 22, private/mx/core/elements/StaffTuningAttributes.cpp 13-51. -/
def StaffTuningAttributes : AttrClass where
  members := [⟨.int .StaffLine, false⟩]
  hasValues := [0]
  writes := [⟨0, n_line, 0⟩]
  reads := [⟨n_line, some 0, .has 0, false⟩]
  checks := []

/-- `StemAttributes`, private/mx/core/elements/StemAttributes.h 22, private/mx/core/elements/StemAttributes.cpp 13-66. -/
def StemAttributes : AttrClass where
  members := [⟨.decimal .TenthsValue, false⟩, ⟨.decimal .TenthsValue, false⟩, ⟨.decimal .TenthsValue, false⟩, ⟨.decimal .TenthsValue, false⟩]
  hasValues := [0, 1, 2, 3]
  writes := [⟨0, n_default_x, 0⟩, ⟨1, n_default_y, 1⟩, ⟨2, n_relative_x, 2⟩, ⟨3, n_relative_y, 3⟩]
  reads := [⟨n_default_x, some 0, .has 0, false⟩, ⟨n_default_y, some 1, .has 1, false⟩, ⟨n_relative_x, some 2, .has 2, false⟩,
    ⟨n_relative_y, some 3, .has 3, false⟩]
  checks := []

/-- `StickAttributes`, private/mx/core/elements/StickAttributes.h 22, private/mx/core/elements/StickAttributes.cpp 13-51. -/
def StickAttributes : AttrClass where
  members := [⟨.enum .TipDirection, false⟩]
  hasValues := [0]
  writes := [⟨0, n_tip, 0⟩]
  reads := [⟨n_tip, some 0, .has 0, false⟩]
  checks := []

/-- `StringAttributes`, private/mx/core/elements/StringAttributes.h 26, private/mx/core/elements/StringAttributes.cpp 13-96. -/
def StringAttributes : AttrClass where
  members := [⟨.decimal .TenthsValue, false⟩, ⟨.decimal .TenthsValue, false⟩, ⟨.decimal .TenthsValue, false⟩, ⟨.decimal .TenthsValue, false⟩,
    ⟨.commaText, false⟩, ⟨.enum .FontStyle, false⟩, ⟨.fontSize, false⟩, ⟨.enum .FontWeight, false⟩, ⟨.color, false⟩,
    ⟨.enum .AboveBelow, false⟩]
  hasValues := [0, 1, 2, 3, 4, 5, 6, 7, 8, 9]
  writes := [⟨0, n_default_x, 0⟩, ⟨1, n_default_y, 1⟩, ⟨2, n_relative_x, 2⟩, ⟨3, n_relative_y, 3⟩, ⟨4, n_font_family, 4⟩, ⟨5, n_font_style, 5⟩,
    ⟨6, n_font_size, 6⟩, ⟨7, n_font_weight, 7⟩, ⟨8, n_color, 8⟩, ⟨9, n_placement, 9⟩]
  reads := [⟨n_default_x, some 0, .has 0, false⟩, ⟨n_default_y, some 1, .has 1, false⟩, ⟨n_relative_x, some 2, .has 2, false⟩,
    ⟨n_relative_y, some 3, .has 3, false⟩, ⟨n_font_family, some 4, .has 4, false⟩, ⟨n_font_style, some 5, .has 5, false⟩,
    ⟨n_font_size, some 6, .has 6, false⟩, ⟨n_font_weight, some 7, .has 7, false⟩, ⟨n_color, some 8, .has 8, false⟩,
    ⟨n_placement, some 9, .has 9, false⟩]
  checks := []

/-- `StringMuteAttributes`, private/mx/core/elements/StringMuteAttributes.h 25, private/mx/core/elements/StringMuteAttributes.cpp 13-102. -/
def StringMuteAttributes : AttrClass where
  members := [⟨.enum .OnOff, true⟩, ⟨.decimal .TenthsValue, false⟩, ⟨.decimal .TenthsValue, false⟩, ⟨.decimal .TenthsValue, false⟩,
    ⟨.decimal .TenthsValue, false⟩, ⟨.commaText, false⟩, ⟨.enum .FontStyle, false⟩, ⟨.fontSize, false⟩, ⟨.enum .FontWeight, false⟩,
    ⟨.enum .LeftCenterRight, false⟩]
  hasValues := [0, 1, 2, 3, 4, 5, 6, 7, 8, 9]
  writes := [⟨0, n_type, 0⟩, ⟨1, n_default_x, 1⟩, ⟨2, n_default_y, 2⟩, ⟨3, n_relative_x, 3⟩, ⟨4, n_relative_y, 4⟩, ⟨5, n_font_family, 5⟩,
    ⟨6, n_font_style, 6⟩, ⟨7, n_font_size, 7⟩, ⟨8, n_font_weight, 8⟩, ⟨9, n_halign, 9⟩]
  reads := [⟨n_type, some 0, .found 0, false⟩, ⟨n_default_x, some 1, .has 1, false⟩, ⟨n_default_y, some 2, .has 2, false⟩,
    ⟨n_relative_x, some 3, .has 3, false⟩, ⟨n_relative_y, some 4, .has 4, false⟩, ⟨n_font_family, some 5, .has 5, false⟩,
    ⟨n_font_style, some 6, .has 6, false⟩, ⟨n_font_size, some 7, .has 7, false⟩, ⟨n_font_weight, some 8, .has 8, false⟩,
    ⟨n_halign, some 9, .has 9, false⟩]
  checks := [0]

/-- `StrongAccentAttributes`, private/mx/core/elements/StrongAccentAttributes.h 26, private/mx/core/elements/StrongAccentAttributes.cpp 13-101. -/
def StrongAccentAttributes : AttrClass where
  members := [⟨.decimal .TenthsValue, false⟩, ⟨.decimal .TenthsValue, false⟩, ⟨.decimal .TenthsValue, false⟩, ⟨.decimal .TenthsValue, false⟩,
    ⟨.commaText, false⟩, ⟨.enum .FontStyle, false⟩, ⟨.fontSize, false⟩, ⟨.enum .FontWeight, false⟩, ⟨.color, false⟩,
    ⟨.enum .AboveBelow, false⟩, ⟨.enum .UpDown, false⟩]
  hasValues := [0, 1, 2, 3, 4, 5, 6, 7, 8, 9, 10]
  writes := [⟨0, n_default_x, 0⟩, ⟨1, n_default_y, 1⟩, ⟨2, n_relative_x, 2⟩, ⟨3, n_relative_y, 3⟩, ⟨4, n_font_family, 4⟩, ⟨5, n_font_style, 5⟩,
    ⟨6, n_font_size, 6⟩, ⟨7, n_font_weight, 7⟩, ⟨8, n_color, 8⟩, ⟨9, n_placement, 9⟩, ⟨10, n_type, 10⟩]
  reads := [⟨n_default_x, some 0, .has 0, false⟩, ⟨n_default_y, some 1, .has 1, false⟩, ⟨n_relative_x, some 2, .has 2, false⟩,
    ⟨n_relative_y, some 3, .has 3, false⟩, ⟨n_font_family, some 4, .has 4, false⟩, ⟨n_font_style, some 5, .has 5, false⟩,
    ⟨n_font_size, some 6, .has 6, false⟩, ⟨n_font_weight, some 7, .has 7, false⟩, ⟨n_color, some 8, .has 8, false⟩,
    ⟨n_placement, some 9, .has 9, false⟩, ⟨n_type, some 10, .has 10, false⟩]
  checks := []

/-- `SuffixAttributes`, private/mx/core/elements/SuffixAttributes.h 25, private/mx/core/elements/SuffixAttributes.cpp 13-86. -/
def SuffixAttributes : AttrClass where
  members := [⟨.decimal .TenthsValue, false⟩, ⟨.decimal .TenthsValue, false⟩, ⟨.decimal .TenthsValue, false⟩, ⟨.decimal .TenthsValue, false⟩,
    ⟨.commaText, false⟩, ⟨.enum .FontStyle, false⟩, ⟨.fontSize, false⟩, ⟨.enum .FontWeight, false⟩]
  hasValues := [0, 1, 2, 3, 4, 5, 6, 7]
  writes := [⟨0, n_default_x, 0⟩, ⟨1, n_default_y, 1⟩, ⟨2, n_relative_x, 2⟩, ⟨3, n_relative_y, 3⟩, ⟨4, n_font_family, 4⟩, ⟨5, n_font_style, 5⟩,
    ⟨6, n_font_size, 6⟩, ⟨7, n_font_weight, 7⟩]
  reads := [⟨n_default_x, some 0, .has 0, false⟩, ⟨n_default_y, some 1, .has 1, false⟩, ⟨n_relative_x, some 2, .has 2, false⟩,
    ⟨n_relative_y, some 3, .has 3, false⟩, ⟨n_font_family, some 4, .has 4, false⟩, ⟨n_font_style, some 5, .has 5, false⟩,
    ⟨n_font_size, some 6, .has 6, false⟩, ⟨n_font_weight, some 7, .has 7, false⟩]
  checks := []

/-- `SupportsAttributes`, private/mx/core/elements/SupportsAttributes.h 25, private/mx/core/elements/SupportsAttributes.cpp 13-78. -/
def SupportsAttributes : AttrClass where
  members := [⟨.enum .YesNo, true⟩, ⟨.token, true⟩, ⟨.token, false⟩, ⟨.token, false⟩]
  hasValues := [0, 1, 2, 3]
  writes := [⟨0, n_type, 0⟩, ⟨1, n_element, 1⟩, ⟨2, n_attribute, 2⟩, ⟨3, n_value, 3⟩]
  reads := [⟨n_type, some 0, .found 0, false⟩, ⟨n_element, some 1, .found 1, false⟩, ⟨n_attribute, some 2, .has 2, false⟩,
    ⟨n_value, some 3, .has 3, false⟩]
  checks := [0, 1]

/-- `TapAttributes`, private/mx/core/elements/TapAttributes.h 25, private/mx/core/elements/TapAttributes.cpp 13-91. -/
def TapAttributes : AttrClass where
  members := [⟨.decimal .TenthsValue, false⟩, ⟨.decimal .TenthsValue, false⟩, ⟨.decimal .TenthsValue, false⟩, ⟨.decimal .TenthsValue, false⟩,
    ⟨.commaText, false⟩, ⟨.enum .FontStyle, false⟩, ⟨.fontSize, false⟩, ⟨.enum .FontWeight, false⟩, ⟨.enum .AboveBelow, false⟩]
  hasValues := [0, 1, 2, 3, 4, 5, 6, 7, 8]
  writes := [⟨0, n_default_x, 0⟩, ⟨1, n_default_y, 1⟩, ⟨2, n_relative_x, 2⟩, ⟨3, n_relative_y, 3⟩, ⟨4, n_font_family, 4⟩, ⟨5, n_font_style, 5⟩,
    ⟨6, n_font_size, 6⟩, ⟨7, n_font_weight, 7⟩, ⟨8, n_placement, 8⟩]
  reads := [⟨n_default_x, some 0, .has 0, false⟩, ⟨n_default_y, some 1, .has 1, false⟩, ⟨n_relative_x, some 2, .has 2, false⟩,
    ⟨n_relative_y, some 3, .has 3, false⟩, ⟨n_font_family, some 4, .has 4, false⟩, ⟨n_font_style, some 5, .has 5, false⟩,
    ⟨n_font_size, some 6, .has 6, false⟩, ⟨n_font_weight, some 7, .has 7, false⟩, ⟨n_placement, some 8, .has 8, false⟩]
  checks := []

/-- `TextAttributes`, private/mx/core/elements/TextAttributes.h 28, private/mx/core/elements/TextAttributes.cpp 13-97. -/
def TextAttributes : AttrClass where
  members := [⟨.commaText, false⟩, ⟨.enum .FontStyle, false⟩, ⟨.fontSize, false⟩, ⟨.enum .FontWeight, false⟩, ⟨.int .NumberOfLines, false⟩,
    ⟨.int .NumberOfLines, false⟩, ⟨.int .NumberOfLines, false⟩, ⟨.decimal .RotationDegrees, false⟩, ⟨.numberOrNormal, false⟩,
    ⟨.string, false⟩]
  hasValues := [0, 1, 2, 3, 4, 5, 6, 7, 8, 9]
  writes := [⟨0, n_font_family, 0⟩, ⟨1, n_font_style, 1⟩, ⟨2, n_font_size, 2⟩, ⟨3, n_font_weight, 3⟩, ⟨4, n_underline, 4⟩, ⟨5, n_overline, 5⟩,
    ⟨6, n_line_through, 6⟩, ⟨7, n_rotation, 7⟩, ⟨8, n_letter_spacing, 8⟩, ⟨9, n_xml_lang, 9⟩]
  reads := [⟨n_font_family, some 0, .has 0, false⟩, ⟨n_font_style, some 1, .has 1, false⟩, ⟨n_font_size, some 2, .has 2, false⟩,
    ⟨n_font_weight, some 3, .has 3, false⟩, ⟨n_underline, some 4, .has 4, false⟩, ⟨n_overline, some 5, .has 5, false⟩,
    ⟨n_line_through, some 6, .has 6, false⟩, ⟨n_rotation, some 7, .has 7, false⟩, ⟨n_letter_spacing, some 8, .has 8, false⟩,
    ⟨n_lang, some 9, .has 9, false⟩, ⟨n_xml_lang, some 9, .has 9, false⟩]
  checks := []

/-- `TieAttributes`, private/mx/core/elements/TieAttributes.h 24, private/mx/core/elements/TieAttributes.cpp 13-62. -/
def TieAttributes : AttrClass where
  members := [⟨.enum .StartStop, true⟩, ⟨.commaInts, false⟩]
  hasValues := [0, 1]
  writes := [⟨0, n_type, 0⟩, ⟨1, n_time_only, 1⟩]
  reads := [⟨n_type, some 0, .found 0, false⟩, ⟨n_time_only, some 1, .has 1, false⟩]
  checks := [0]

/-- `TiedAttributes`, private/mx/core/elements/TiedAttributes.h 25, private/mx/core/elements/TiedAttributes.cpp 13-142. -/
def TiedAttributes : AttrClass where
  members := [⟨.enum .StartStopContinue, true⟩, ⟨.int .NumberLevel, false⟩, ⟨.enum .LineType, false⟩, ⟨.decimal .TenthsValue, false⟩,
    ⟨.decimal .TenthsValue, false⟩, ⟨.decimal .TenthsValue, false⟩, ⟨.decimal .TenthsValue, false⟩, ⟨.decimal .TenthsValue, false⟩,
    ⟨.decimal .TenthsValue, false⟩, ⟨.enum .AboveBelow, false⟩, ⟨.enum .OverUnder, false⟩, ⟨.decimal .DivisionsValue, false⟩,
    ⟨.decimal .DivisionsValue, false⟩, ⟨.decimal .TenthsValue, false⟩, ⟨.decimal .TenthsValue, false⟩, ⟨.decimal .TenthsValue, false⟩,
    ⟨.decimal .TenthsValue, false⟩, ⟨.color, false⟩]
  hasValues := [0, 1, 2, 3, 4, 5, 6, 7, 8, 9, 10, 11, 12, 13, 14, 15, 16, 17]
  writes := [⟨0, n_type, 0⟩, ⟨1, n_number, 1⟩, ⟨2, n_line_type, 2⟩, ⟨3, n_dash_length, 3⟩, ⟨4, n_space_length, 4⟩, ⟨5, n_default_x, 5⟩,
    ⟨6, n_default_y, 6⟩, ⟨7, n_relative_x, 7⟩, ⟨8, n_relative_y, 8⟩, ⟨9, n_placement, 9⟩, ⟨10, n_orientation, 10⟩,
    ⟨11, n_bezier_offset, 11⟩, ⟨12, n_bezier_offset2, 12⟩, ⟨13, n_bezier_x, 13⟩, ⟨14, n_bezier_y, 14⟩, ⟨15, n_bezier_x2, 15⟩,
    ⟨16, n_bezier_y2, 16⟩, ⟨17, n_color, 17⟩]
  reads := [⟨n_type, some 0, .found 0, false⟩, ⟨n_number, some 1, .has 1, false⟩, ⟨n_line_type, some 2, .has 2, false⟩,
    ⟨n_dash_length, some 3, .has 3, false⟩, ⟨n_space_length, some 4, .has 4, false⟩, ⟨n_default_x, some 5, .has 5, false⟩,
    ⟨n_default_y, some 6, .has 6, false⟩, ⟨n_relative_x, some 7, .has 7, false⟩, ⟨n_relative_y, some 8, .has 8, false⟩,
    ⟨n_placement, some 9, .has 9, false⟩, ⟨n_orientation, some 10, .has 10, false⟩, ⟨n_bezier_offset, some 11, .has 11, false⟩,
    ⟨n_bezier_offset_2, some 12, .has 12, false⟩, ⟨n_bezier_x, some 13, .has 13, false⟩, ⟨n_bezier_y, some 14, .has 14, false⟩,
    ⟨n_bezier_x_2, some 15, .has 15, false⟩, ⟨n_bezier_y_2, some 16, .has 16, false⟩, ⟨n_color, some 17, .has 17, false⟩]
  checks := [0]

/-- `TimeAttributes`, private/mx/core/elements/TimeAttributes.h 27, private/mx/core/elements/TimeAttributes.cpp 13-121. -/
def TimeAttributes : AttrClass where
  members := [⟨.int .StaffNumber, false⟩, ⟨.enum .TimeSymbol, false⟩, ⟨.enum .TimeSeparator, false⟩, ⟨.decimal .TenthsValue, false⟩,
    ⟨.decimal .TenthsValue, false⟩, ⟨.decimal .TenthsValue, false⟩, ⟨.decimal .TenthsValue, false⟩, ⟨.commaText, false⟩,
    ⟨.enum .FontStyle, false⟩, ⟨.fontSize, false⟩, ⟨.enum .FontWeight, false⟩, ⟨.color, false⟩, ⟨.enum .LeftCenterRight, false⟩,
    ⟨.enum .Valign, false⟩, ⟨.enum .YesNo, false⟩]
  hasValues := [0, 1, 2, 3, 4, 5, 6, 7, 8, 9, 10, 11, 12, 13, 14]
  writes := [⟨0, n_number, 0⟩, ⟨1, n_symbol, 1⟩, ⟨2, n_separator, 2⟩, ⟨3, n_default_x, 3⟩, ⟨4, n_default_y, 4⟩, ⟨5, n_relative_x, 5⟩,
    ⟨6, n_relative_y, 6⟩, ⟨7, n_font_family, 7⟩, ⟨8, n_font_style, 8⟩, ⟨9, n_font_size, 9⟩, ⟨10, n_font_weight, 10⟩, ⟨11, n_color, 11⟩,
    ⟨12, n_halign, 12⟩, ⟨13, n_valign, 13⟩, ⟨14, n_print_object, 14⟩]
  reads := [⟨n_number, some 0, .has 0, false⟩, ⟨n_symbol, some 1, .has 1, false⟩, ⟨n_separator, some 2, .has 2, false⟩,
    ⟨n_default_x, some 3, .has 3, false⟩, ⟨n_default_y, some 4, .has 4, false⟩, ⟨n_relative_x, some 5, .has 5, false⟩,
    ⟨n_relative_y, some 6, .has 6, false⟩, ⟨n_font_family, some 7, .has 7, false⟩, ⟨n_font_style, some 8, .has 8, false⟩,
    ⟨n_font_size, some 9, .has 9, false⟩, ⟨n_font_weight, some 10, .has 10, false⟩, ⟨n_color, some 11, .has 11, false⟩,
    ⟨n_halign, some 12, .has 12, false⟩, ⟨n_valign, some 13, .has 13, false⟩, ⟨n_print_object, some 14, .has 14, false⟩]
  checks := []

/-- `ToeAttributes`, private/mx/core/elements/ToeAttributes.h 26, private/mx/core/elements/ToeAttributes.cpp 13-101. -/
def ToeAttributes : AttrClass where
  members := [⟨.decimal .TenthsValue, false⟩, ⟨.decimal .TenthsValue, false⟩, ⟨.decimal .TenthsValue, false⟩, ⟨.decimal .TenthsValue, false⟩,
    ⟨.commaText, false⟩, ⟨.enum .FontStyle, false⟩, ⟨.fontSize, false⟩, ⟨.enum .FontWeight, false⟩, ⟨.color, false⟩,
    ⟨.enum .AboveBelow, false⟩, ⟨.enum .YesNo, false⟩]
  hasValues := [0, 1, 2, 3, 4, 5, 6, 7, 8, 9, 10]
  writes := [⟨0, n_default_x, 0⟩, ⟨1, n_default_y, 1⟩, ⟨2, n_relative_x, 2⟩, ⟨3, n_relative_y, 3⟩, ⟨4, n_font_family, 4⟩, ⟨5, n_font_style, 5⟩,
    ⟨6, n_font_size, 6⟩, ⟨7, n_font_weight, 7⟩, ⟨8, n_color, 8⟩, ⟨9, n_placement, 9⟩, ⟨10, n_substitution, 10⟩]
  reads := [⟨n_default_x, some 0, .has 0, false⟩, ⟨n_default_y, some 1, .has 1, false⟩, ⟨n_relative_x, some 2, .has 2, false⟩,
    ⟨n_relative_y, some 3, .has 3, false⟩, ⟨n_font_family, some 4, .has 4, false⟩, ⟨n_font_style, some 5, .has 5, false⟩,
    ⟨n_font_size, some 6, .has 6, false⟩, ⟨n_font_weight, some 7, .has 7, false⟩, ⟨n_color, some 8, .has 8, false⟩,
    ⟨n_placement, some 9, .has 9, false⟩, ⟨n_substitution, some 10, .has 10, false⟩]
  checks := []

/-- `TransposeAttributes`, private/mx/core/elements/TransposeAttributes.h 22, private/mx/core/elements/TransposeAttributes.cpp 13-51. -/
def TransposeAttributes : AttrClass where
  members := [⟨.int .StaffNumber, false⟩]
  hasValues := [0]
  writes := [⟨0, n_number, 0⟩]
  reads := [⟨n_number, some 0, .has 0, false⟩]
  checks := []

/-- `TremoloAttributes`, private/mx/core/elements/TremoloAttributes.h 25, private/mx/core/elements/TremoloAttributes.cpp 13-96. -/
def TremoloAttributes : AttrClass where
  members := [⟨.enum .StartStopSingle, false⟩, ⟨.decimal .TenthsValue, false⟩, ⟨.decimal .TenthsValue, false⟩, ⟨.decimal .TenthsValue, false⟩,
    ⟨.decimal .TenthsValue, false⟩, ⟨.commaText, false⟩, ⟨.enum .FontStyle, false⟩, ⟨.fontSize, false⟩, ⟨.enum .FontWeight, false⟩,
    ⟨.enum .AboveBelow, false⟩]
  hasValues := [0, 1, 2, 3, 4, 5, 6, 7, 8, 9]
  writes := [⟨0, n_type, 0⟩, ⟨1, n_default_x, 1⟩, ⟨2, n_default_y, 2⟩, ⟨3, n_relative_x, 3⟩, ⟨4, n_relative_y, 4⟩, ⟨5, n_font_family, 5⟩,
    ⟨6, n_font_style, 6⟩, ⟨7, n_font_size, 7⟩, ⟨8, n_font_weight, 8⟩, ⟨9, n_placement, 9⟩]
  reads := [⟨n_type, some 0, .has 0, false⟩, ⟨n_default_x, some 1, .has 1, false⟩, ⟨n_default_y, some 2, .has 2, false⟩,
    ⟨n_relative_x, some 3, .has 3, false⟩, ⟨n_relative_y, some 4, .has 4, false⟩, ⟨n_font_family, some 5, .has 5, false⟩,
    ⟨n_font_style, some 6, .has 6, false⟩, ⟨n_font_size, some 7, .has 7, false⟩, ⟨n_font_weight, some 8, .has 8, false⟩,
    ⟨n_placement, some 9, .has 9, false⟩]
  checks := []

/-- `TupletAttributes`, private/mx/core/elements/TupletAttributes.h 24, private/mx/core/elements/TupletAttributes.cpp 13-107. -/
def TupletAttributes : AttrClass where
  members := [⟨.enum .StartStop, true⟩, ⟨.int .NumberLevel, false⟩, ⟨.enum .YesNo, false⟩, ⟨.enum .ShowTuplet, false⟩, ⟨.enum .ShowTuplet, false⟩,
    ⟨.enum .LineShape, false⟩, ⟨.decimal .TenthsValue, false⟩, ⟨.decimal .TenthsValue, false⟩, ⟨.decimal .TenthsValue, false⟩,
    ⟨.decimal .TenthsValue, false⟩, ⟨.enum .AboveBelow, false⟩]
  hasValues := [0, 1, 2, 3, 4, 5, 6, 7, 8, 9, 10]
  writes := [⟨0, n_type, 0⟩, ⟨1, n_number, 1⟩, ⟨2, n_bracket, 2⟩, ⟨3, n_show_number, 3⟩, ⟨4, n_show_type, 4⟩, ⟨5, n_line_shape, 5⟩,
    ⟨6, n_default_x, 6⟩, ⟨7, n_default_y, 7⟩, ⟨8, n_relative_x, 8⟩, ⟨9, n_relative_y, 9⟩, ⟨10, n_placement, 10⟩]
  reads := [⟨n_type, some 0, .found 0, false⟩, ⟨n_number, some 1, .has 1, false⟩, ⟨n_bracket, some 2, .has 2, false⟩,
    ⟨n_show_number, some 3, .has 3, false⟩, ⟨n_show_type, some 4, .has 4, false⟩, ⟨n_line_shape, some 5, .has 5, false⟩,
    ⟨n_default_x, some 6, .has 6, false⟩, ⟨n_default_y, some 7, .has 7, false⟩, ⟨n_relative_x, some 8, .has 8, false⟩,
    ⟨n_relative_y, some 9, .has 9, false⟩, ⟨n_placement, some 10, .has 10, false⟩]
  checks := [0]

/-- `TupletDotAttributes`, private/mx/core/elements/TupletDotAttributes.h 24, private/mx/core/elements/TupletDotAttributes.cpp 13-66. -/
def TupletDotAttributes : AttrClass where
  members := [⟨.commaText, false⟩, ⟨.enum .FontStyle, false⟩, ⟨.fontSize, false⟩, ⟨.enum .FontWeight, false⟩]
  hasValues := [0, 1, 2, 3]
  writes := [⟨0, n_font_family, 0⟩, ⟨1, n_font_style, 1⟩, ⟨2, n_font_size, 2⟩, ⟨3, n_font_weight, 3⟩]
  reads := [⟨n_font_family, some 0, .has 0, false⟩, ⟨n_font_style, some 1, .has 1, false⟩, ⟨n_font_size, some 2, .has 2, false⟩,
    ⟨n_font_weight, some 3, .has 3, false⟩]
  checks := []

/-- `TupletNumberAttributes`, private/mx/core/elements/TupletNumberAttributes.h 24, private/mx/core/elements/TupletNumberAttributes.cpp 13-66. -/
def TupletNumberAttributes : AttrClass where
  members := [⟨.commaText, false⟩, ⟨.enum .FontStyle, false⟩, ⟨.fontSize, false⟩, ⟨.enum .FontWeight, false⟩]
  hasValues := [0, 1, 2, 3]
  writes := [⟨0, n_font_family, 0⟩, ⟨1, n_font_style, 1⟩, ⟨2, n_font_size, 2⟩, ⟨3, n_font_weight, 3⟩]
  reads := [⟨n_font_family, some 0, .has 0, false⟩, ⟨n_font_style, some 1, .has 1, false⟩, ⟨n_font_size, some 2, .has 2, false⟩,
    ⟨n_font_weight, some 3, .has 3, false⟩]
  checks := []

/-- `TupletTypeAttributes`, private/mx/core/elements/TupletTypeAttributes.h 24, private/mx/core/elements/TupletTypeAttributes.cpp 13-66. -/
def TupletTypeAttributes : AttrClass where
  members := [⟨.commaText, false⟩, ⟨.enum .FontStyle, false⟩, ⟨.fontSize, false⟩, ⟨.enum .FontWeight, false⟩]
  hasValues := [0, 1, 2, 3]
  writes := [⟨0, n_font_family, 0⟩, ⟨1, n_font_style, 1⟩, ⟨2, n_font_size, 2⟩, ⟨3, n_font_weight, 3⟩]
  reads := [⟨n_font_family, some 0, .has 0, false⟩, ⟨n_font_style, some 1, .has 1, false⟩, ⟨n_font_size, some 2, .has 2, false⟩,
    ⟨n_font_weight, some 3, .has 3, false⟩]
  checks := []

/-- `TurnAttributes`, private/mx/core/elements/TurnAttributes.h 25, private/mx/core/elements/TurnAttributes.cpp 13-131. -/
def TurnAttributes : AttrClass where
  members := [⟨.decimal .TenthsValue, false⟩, ⟨.decimal .TenthsValue, false⟩, ⟨.decimal .TenthsValue, false⟩, ⟨.decimal .TenthsValue, false⟩,
    ⟨.commaText, false⟩, ⟨.enum .FontStyle, false⟩, ⟨.fontSize, false⟩, ⟨.enum .FontWeight, false⟩, ⟨.enum .AboveBelow, false⟩,
    ⟨.enum .StartNote, false⟩, ⟨.enum .TrillStep, false⟩, ⟨.enum .TwoNoteTurn, false⟩, ⟨.enum .YesNo, false⟩,
    ⟨.decimal .TrillBeats, false⟩, ⟨.decimal .Percent, false⟩, ⟨.decimal .Percent, false⟩, ⟨.enum .YesNo, false⟩]
  hasValues := [0, 1, 2, 3, 4, 5, 6, 7, 8, 9, 10, 11, 12, 13, 14, 15, 16]
  writes := [⟨0, n_default_x, 0⟩, ⟨1, n_default_y, 1⟩, ⟨2, n_relative_x, 2⟩, ⟨3, n_relative_y, 3⟩, ⟨4, n_font_family, 4⟩, ⟨5, n_font_style, 5⟩,
    ⟨6, n_font_size, 6⟩, ⟨7, n_font_weight, 7⟩, ⟨8, n_placement, 8⟩, ⟨9, n_start_note, 9⟩, ⟨10, n_trill_step, 10⟩,
    ⟨11, n_two_note_turn, 11⟩, ⟨12, n_accelerate, 12⟩, ⟨13, n_beats, 13⟩, ⟨14, n_second_beat, 14⟩, ⟨15, n_last_beat, 15⟩, ⟨16, n_slash, 16⟩]
  reads := [⟨n_default_x, some 0, .has 0, false⟩, ⟨n_default_y, some 1, .has 1, false⟩, ⟨n_relative_x, some 2, .has 2, false⟩,
    ⟨n_relative_y, some 3, .has 3, false⟩, ⟨n_font_family, some 4, .has 4, false⟩, ⟨n_font_style, some 5, .has 5, false⟩,
    ⟨n_font_size, some 6, .has 6, false⟩, ⟨n_font_weight, some 7, .has 7, false⟩, ⟨n_placement, some 8, .has 8, false⟩,
    ⟨n_start_note, some 9, .has 9, false⟩, ⟨n_trill_step, some 10, .has 10, false⟩, ⟨n_two_note_turn, some 11, .has 11, false⟩,
    ⟨n_accelerate, some 12, .has 12, false⟩, ⟨n_beats, some 13, .has 13, false⟩, ⟨n_second_beat, some 14, .has 14, false⟩,
    ⟨n_last_beat, some 15, .has 15, false⟩, ⟨n_slash, some 16, .has 16, false⟩]
  checks := []

/-- `TypeAttributes`, private/mx/core/elements/TypeAttributes.h 22, private/mx/core/elements/TypeAttributes.cpp 13-51. -/
def TypeAttributes : AttrClass where
  members := [⟨.enum .SymbolSize, false⟩]
  hasValues := [0]
  writes := [⟨0, n_size, 0⟩]
  reads := [⟨n_size, some 0, .has 0, false⟩]
  checks := []

/-- `WavyLineAttributes`, private/mx/core/elements/WavyLineAttributes.h 24, private/mx/core/elements/WavyLineAttributes.cpp 13-122. -/
def WavyLineAttributes : AttrClass where
  members := [⟨.enum .StartStopContinue, true⟩, ⟨.int .NumberLevel, false⟩, ⟨.decimal .TenthsValue, false⟩, ⟨.decimal .TenthsValue, false⟩,
    ⟨.decimal .TenthsValue, false⟩, ⟨.decimal .TenthsValue, false⟩, ⟨.enum .AboveBelow, false⟩, ⟨.enum .StartNote, false⟩,
    ⟨.enum .TrillStep, false⟩, ⟨.enum .TwoNoteTurn, false⟩, ⟨.enum .YesNo, false⟩, ⟨.decimal .TrillBeats, false⟩,
    ⟨.decimal .Percent, false⟩, ⟨.decimal .Percent, false⟩]
  hasValues := [0, 1, 2, 3, 4, 5, 6, 7, 8, 9, 10, 11, 12, 13]
  writes := [⟨0, n_type, 0⟩, ⟨1, n_number, 1⟩, ⟨2, n_default_x, 2⟩, ⟨3, n_default_y, 3⟩, ⟨4, n_relative_x, 4⟩, ⟨5, n_relative_y, 5⟩,
    ⟨6, n_placement, 6⟩, ⟨7, n_start_note, 7⟩, ⟨8, n_trill_step, 8⟩, ⟨9, n_two_note_turn, 9⟩, ⟨10, n_accelerate, 10⟩, ⟨11, n_beats, 11⟩,
    ⟨12, n_second_beat, 12⟩, ⟨13, n_last_beat, 13⟩]
  reads := [⟨n_type, some 0, .found 0, false⟩, ⟨n_number, some 1, .has 1, false⟩, ⟨n_default_x, some 2, .has 2, false⟩,
    ⟨n_default_y, some 3, .has 3, false⟩, ⟨n_relative_x, some 4, .has 4, false⟩, ⟨n_relative_y, some 5, .has 5, false⟩,
    ⟨n_placement, some 6, .has 6, false⟩, ⟨n_start_note, some 7, .has 7, false⟩, ⟨n_trill_step, some 8, .has 8, false⟩,
    ⟨n_two_note_turn, some 9, .has 9, false⟩, ⟨n_accelerate, some 10, .has 10, false⟩, ⟨n_beats, some 11, .has 11, false⟩,
    ⟨n_second_beat, some 12, .has 12, false⟩, ⟨n_last_beat, some 13, .has 13, false⟩]
  checks := [0]

/-- `WedgeAttributes`, private/mx/core/elements/WedgeAttributes.h 24, private/mx/core/elements/WedgeAttributes.cpp 13-107. -/
def WedgeAttributes : AttrClass where
  members := [⟨.enum .WedgeType, true⟩, ⟨.int .NumberLevel, false⟩, ⟨.enum .LineType, false⟩, ⟨.decimal .TenthsValue, false⟩, ⟨.enum .YesNo, false⟩,
    ⟨.decimal .TenthsValue, false⟩, ⟨.decimal .TenthsValue, false⟩, ⟨.decimal .TenthsValue, false⟩, ⟨.decimal .TenthsValue, false⟩,
    ⟨.decimal .TenthsValue, false⟩, ⟨.decimal .TenthsValue, false⟩]
  hasValues := [0, 1, 2, 3, 4, 5, 6, 7, 8, 9, 10]
  writes := [⟨0, n_type, 0⟩, ⟨1, n_number, 1⟩, ⟨2, n_line_type, 2⟩, ⟨3, n_spread, 3⟩, ⟨4, n_niente, 4⟩, ⟨5, n_dash_length, 5⟩,
    ⟨6, n_space_length, 6⟩, ⟨7, n_default_x, 7⟩, ⟨8, n_default_y, 8⟩, ⟨9, n_relative_x, 9⟩, ⟨10, n_relative_y, 10⟩]
  reads := [⟨n_type, some 0, .found 0, false⟩, ⟨n_number, some 1, .has 1, false⟩, ⟨n_line_type, some 2, .has 2, false⟩,
    ⟨n_spread, some 3, .has 3, false⟩, ⟨n_niente, some 4, .has 4, false⟩, ⟨n_dash_length, some 5, .has 5, false⟩,
    ⟨n_space_length, some 6, .has 6, false⟩, ⟨n_default_x, some 7, .has 7, false⟩, ⟨n_default_y, some 8, .has 8, false⟩,
    ⟨n_relative_x, some 9, .has 9, false⟩, ⟨n_relative_y, some 10, .has 10, false⟩]
  checks := [0]

/-- `WithBarAttributes`, private/mx/core/elements/WithBarAttributes.h 25, private/mx/core/elements/WithBarAttributes.cpp 13-91. -/
def WithBarAttributes : AttrClass where
  members := [⟨.decimal .TenthsValue, false⟩, ⟨.decimal .TenthsValue, false⟩, ⟨.decimal .TenthsValue, false⟩, ⟨.decimal .TenthsValue, false⟩,
    ⟨.commaText, false⟩, ⟨.enum .FontStyle, false⟩, ⟨.fontSize, false⟩, ⟨.enum .FontWeight, false⟩, ⟨.enum .AboveBelow, false⟩]
  hasValues := [0, 1, 2, 3, 4, 5, 6, 7, 8]
  writes := [⟨0, n_default_x, 0⟩, ⟨1, n_default_y, 1⟩, ⟨2, n_relative_x, 2⟩, ⟨3, n_relative_y, 3⟩, ⟨4, n_font_family, 4⟩, ⟨5, n_font_style, 5⟩,
    ⟨6, n_font_size, 6⟩, ⟨7, n_font_weight, 7⟩, ⟨8, n_placement, 8⟩]
  reads := [⟨n_default_x, some 0, .has 0, false⟩, ⟨n_default_y, some 1, .has 1, false⟩, ⟨n_relative_x, some 2, .has 2, false⟩,
    ⟨n_relative_y, some 3, .has 3, false⟩, ⟨n_font_family, some 4, .has 4, false⟩, ⟨n_font_style, some 5, .has 5, false⟩,
    ⟨n_font_size, some 6, .has 6, false⟩, ⟨n_font_weight, some 7, .has 7, false⟩, ⟨n_placement, some 8, .has 8, false⟩]
  checks := []

/-- `WordsAttributes`, private/mx/core/elements/WordsAttributes.h 28, private/mx/core/elements/WordsAttributes.cpp 13-143. -/
def WordsAttributes : AttrClass where
  members := [⟨.enum .LeftCenterRight, false⟩, ⟨.decimal .TenthsValue, false⟩, ⟨.decimal .TenthsValue, false⟩, ⟨.decimal .TenthsValue, false⟩,
    ⟨.decimal .TenthsValue, false⟩, ⟨.commaText, false⟩, ⟨.enum .FontStyle, false⟩, ⟨.fontSize, false⟩, ⟨.enum .FontWeight, false⟩,
    ⟨.enum .LeftCenterRight, false⟩, ⟨.int .NumberOfLines, false⟩, ⟨.int .NumberOfLines, false⟩, ⟨.int .NumberOfLines, false⟩,
    ⟨.decimal .RotationDegrees, false⟩, ⟨.numberOrNormal, false⟩, ⟨.numberOrNormal, false⟩, ⟨.string, false⟩, ⟨.enum .XmlSpace, false⟩,
    ⟨.enum .EnclosureShape, false⟩]
  hasValues := [0, 1, 2, 3, 4, 5, 6, 7, 8, 9, 10, 11, 12, 13, 14, 15, 16, 17, 18]
  writes := [⟨0, n_justify, 0⟩, ⟨1, n_default_x, 1⟩, ⟨2, n_default_y, 2⟩, ⟨3, n_relative_x, 3⟩, ⟨4, n_relative_y, 4⟩, ⟨5, n_font_family, 5⟩,
    ⟨6, n_font_style, 6⟩, ⟨7, n_font_size, 7⟩, ⟨8, n_font_weight, 8⟩, ⟨9, n_halign, 9⟩, ⟨10, n_underline, 10⟩, ⟨11, n_overline, 11⟩,
    ⟨12, n_line_through, 12⟩, ⟨13, n_rotation, 13⟩, ⟨14, n_letter_spacing, 14⟩, ⟨15, n_line_height, 15⟩, ⟨16, n_xml_lang, 16⟩,
    ⟨17, n_xml_space, 17⟩, ⟨18, n_enclosure, 18⟩]
  reads := [⟨n_justify, some 0, .has 0, false⟩, ⟨n_default_x, some 1, .has 1, false⟩, ⟨n_default_y, some 2, .has 2, false⟩,
    ⟨n_relative_x, some 3, .has 3, false⟩, ⟨n_relative_y, some 4, .has 4, false⟩, ⟨n_font_family, some 5, .has 5, false⟩,
    ⟨n_font_style, some 6, .has 6, false⟩, ⟨n_font_size, some 7, .has 7, false⟩, ⟨n_font_weight, some 8, .has 8, false⟩,
    ⟨n_halign, some 9, .has 9, false⟩, ⟨n_underline, some 10, .has 10, false⟩, ⟨n_overline, some 11, .has 11, false⟩,
    ⟨n_line_through, some 12, .has 12, false⟩, ⟨n_rotation, some 13, .has 13, false⟩, ⟨n_letter_spacing, some 14, .has 14, false⟩,
    ⟨n_line_height, some 15, .has 15, false⟩, ⟨n_lang, some 16, .has 16, false⟩, ⟨n_xml_lang, some 16, .has 16, false⟩,
    ⟨n_space, some 17, .has 17, false⟩, ⟨n_xml_space, some 17, .has 17, false⟩, ⟨n_enclosure, some 18, .has 18, false⟩]
  checks := []

end AttrTables

/-- The attribute structs. -/
inductive AttrStruct where
  | AccidentalAttributes | AccidentalMarkAttributes | AccidentalTextAttributes | AccordAttributes | AccordionRegistrationAttributes
  | ArpeggiateAttributes | ArrowAttributes | BarStyleAttributes | BarlineAttributes | BarreAttributes | BassAlterAttributes
  | BassStepAttributes | BeamAttributes | BeatRepeatAttributes | BeaterAttributes | BendAttributes | BookmarkAttributes | BracketAttributes
  | BreathMarkAttributes | CancelAttributes | ClefAttributes | CreatorAttributes | CreditAttributes | CreditImageAttributes
  | CreditWordsAttributes | DashesAttributes | DegreeAlterAttributes | DegreeAttributes | DegreeTypeAttributes | DegreeValueAttributes
  | DelayedInvertedTurnAttributes | DelayedTurnAttributes | DirectionAttributes | DirectiveAttributes | DisplayTextAttributes
  | DistanceAttributes | DynamicsAttributes | ElisionAttributes | EmptyFontAttributes | EmptyLineAttributes | EmptyPlacementAttributes
  | EmptyPrintObjectStyleAlignAttributes | EmptyTrillSoundAttributes | EncoderAttributes | EndingAttributes | ExtendAttributes
  | FeatureAttributes | FermataAttributes | FigureNumberAttributes | FiguredBassAttributes | FingeringAttributes | FirstFretAttributes
  | FootnoteAttributes | FrameAttributes | FretAttributes | FunctionAttributes | GlissandoAttributes | GraceAttributes
  | GroupAbbreviationAttributes | GroupAbbreviationDisplayAttributes | GroupBarlineAttributes | GroupNameAttributes
  | GroupNameDisplayAttributes | GroupSymbolAttributes | GroupingAttributes | HammerOnAttributes | HandbellAttributes | HarmonicAttributes
  | HarmonyAttributes | HarpPedalsAttributes | HeelAttributes | HoleAttributes | HoleClosedAttributes | ImageAttributes
  | InstrumentAttributes | InterchangeableAttributes | InversionAttributes | InvertedMordentAttributes | InvertedTurnAttributes
  | KeyAttributes | KeyOctaveAttributes | KindAttributes | LevelAttributes | LineWidthAttributes | LinkAttributes | LyricAttributes
  | LyricFontAttributes | LyricLanguageAttributes | MeasureAttributes | MeasureNumberingAttributes | MeasureRepeatAttributes
  | MeasureStyleAttributes | MetronomeAttributes | MetronomeBeamAttributes | MetronomeTupletAttributes | MidiDeviceAttributes
  | MidiInstrumentAttributes | MiscellaneousFieldAttributes | MordentAttributes | MultipleRestAttributes | NonArpeggiateAttributes
  | NotationsAttributes | NoteAttributes | NoteSizeAttributes | NoteheadAttributes | OctaveShiftAttributes | OffsetAttributes
  | OpusAttributes | OtherAppearanceAttributes | OtherArticulationAttributes | OtherDirectionAttributes | OtherNotationAttributes
  | OtherOrnamentAttributes | OtherPlayAttributes | OtherTechnicalAttributes | PageMarginsAttributes | PartAbbreviationAttributes
  | PartAbbreviationDisplayAttributes | PartAttributes | PartGroupAttributes | PartNameAttributes | PartNameDisplayAttributes
  | PartSymbolAttributes | PedalAttributes | PerMinuteAttributes | PercussionAttributes | PlayAttributes | PluckAttributes
  | PrefixAttributes | PrincipalVoiceAttributes | PrintAttributes | PullOffAttributes | RehearsalAttributes | RelationAttributes
  | RepeatAttributes | RestAttributes | RightsAttributes | RootAlterAttributes | RootStepAttributes | ScoreInstrumentAttributes
  | ScorePartAttributes | ScorePartwiseAttributes | ScoreTimewiseAttributes | SlashAttributes | SlideAttributes | SlurAttributes
  | SoundAttributes | StaffDetailsAttributes | StaffLayoutAttributes | StaffTuningAttributes | StemAttributes | StickAttributes
  | StringAttributes | StringMuteAttributes | StrongAccentAttributes | SuffixAttributes | SupportsAttributes | TapAttributes
  | TextAttributes | TieAttributes | TiedAttributes | TimeAttributes | ToeAttributes | TransposeAttributes | TremoloAttributes
  | TupletAttributes | TupletDotAttributes | TupletNumberAttributes | TupletTypeAttributes | TurnAttributes | TypeAttributes
  | WavyLineAttributes | WedgeAttributes | WithBarAttributes | WordsAttributes
deriving Repr, DecidableEq

/-- The description of each struct. -/
def AttrStruct.cls : AttrStruct → AttrClass
  | .AccidentalAttributes => AttrTables.AccidentalAttributes
  | .AccidentalMarkAttributes => AttrTables.AccidentalMarkAttributes
  | .AccidentalTextAttributes => AttrTables.AccidentalTextAttributes
  | .AccordAttributes => AttrTables.AccordAttributes
  | .AccordionRegistrationAttributes => AttrTables.AccordionRegistrationAttributes
  | .ArpeggiateAttributes => AttrTables.ArpeggiateAttributes
  | .ArrowAttributes => AttrTables.ArrowAttributes
  | .BarStyleAttributes => AttrTables.BarStyleAttributes
  | .BarlineAttributes => AttrTables.BarlineAttributes
  | .BarreAttributes => AttrTables.BarreAttributes
  | .BassAlterAttributes => AttrTables.BassAlterAttributes
  | .BassStepAttributes => AttrTables.BassStepAttributes
  | .BeamAttributes => AttrTables.BeamAttributes
  | .BeatRepeatAttributes => AttrTables.BeatRepeatAttributes
  | .BeaterAttributes => AttrTables.BeaterAttributes
  | .BendAttributes => AttrTables.BendAttributes
  | .BookmarkAttributes => AttrTables.BookmarkAttributes
  | .BracketAttributes => AttrTables.BracketAttributes
  | .BreathMarkAttributes => AttrTables.BreathMarkAttributes
  | .CancelAttributes => AttrTables.CancelAttributes
  | .ClefAttributes => AttrTables.ClefAttributes
  | .CreatorAttributes => AttrTables.CreatorAttributes
  | .CreditAttributes => AttrTables.CreditAttributes
  | .CreditImageAttributes => AttrTables.CreditImageAttributes
  | .CreditWordsAttributes => AttrTables.CreditWordsAttributes
  | .DashesAttributes => AttrTables.DashesAttributes
  | .DegreeAlterAttributes => AttrTables.DegreeAlterAttributes
  | .DegreeAttributes => AttrTables.DegreeAttributes
  | .DegreeTypeAttributes => AttrTables.DegreeTypeAttributes
  | .DegreeValueAttributes => AttrTables.DegreeValueAttributes
  | .DelayedInvertedTurnAttributes => AttrTables.DelayedInvertedTurnAttributes
  | .DelayedTurnAttributes => AttrTables.DelayedTurnAttributes
  | .DirectionAttributes => AttrTables.DirectionAttributes
  | .DirectiveAttributes => AttrTables.DirectiveAttributes
  | .DisplayTextAttributes => AttrTables.DisplayTextAttributes
  | .DistanceAttributes => AttrTables.DistanceAttributes
  | .DynamicsAttributes => AttrTables.DynamicsAttributes
  | .ElisionAttributes => AttrTables.ElisionAttributes
  | .EmptyFontAttributes => AttrTables.EmptyFontAttributes
  | .EmptyLineAttributes => AttrTables.EmptyLineAttributes
  | .EmptyPlacementAttributes => AttrTables.EmptyPlacementAttributes
  | .EmptyPrintObjectStyleAlignAttributes => AttrTables.EmptyPrintObjectStyleAlignAttributes
  | .EmptyTrillSoundAttributes => AttrTables.EmptyTrillSoundAttributes
  | .EncoderAttributes => AttrTables.EncoderAttributes
  | .EndingAttributes => AttrTables.EndingAttributes
  | .ExtendAttributes => AttrTables.ExtendAttributes
  | .FeatureAttributes => AttrTables.FeatureAttributes
  | .FermataAttributes => AttrTables.FermataAttributes
  | .FigureNumberAttributes => AttrTables.FigureNumberAttributes
  | .FiguredBassAttributes => AttrTables.FiguredBassAttributes
  | .FingeringAttributes => AttrTables.FingeringAttributes
  | .FirstFretAttributes => AttrTables.FirstFretAttributes
  | .FootnoteAttributes => AttrTables.FootnoteAttributes
  | .FrameAttributes => AttrTables.FrameAttributes
  | .FretAttributes => AttrTables.FretAttributes
  | .FunctionAttributes => AttrTables.FunctionAttributes
  | .GlissandoAttributes => AttrTables.GlissandoAttributes
  | .GraceAttributes => AttrTables.GraceAttributes
  | .GroupAbbreviationAttributes => AttrTables.GroupAbbreviationAttributes
  | .GroupAbbreviationDisplayAttributes => AttrTables.GroupAbbreviationDisplayAttributes
  | .GroupBarlineAttributes => AttrTables.GroupBarlineAttributes
  | .GroupNameAttributes => AttrTables.GroupNameAttributes
  | .GroupNameDisplayAttributes => AttrTables.GroupNameDisplayAttributes
  | .GroupSymbolAttributes => AttrTables.GroupSymbolAttributes
  | .GroupingAttributes => AttrTables.GroupingAttributes
  | .HammerOnAttributes => AttrTables.HammerOnAttributes
  | .HandbellAttributes => AttrTables.HandbellAttributes
  | .HarmonicAttributes => AttrTables.HarmonicAttributes
  | .HarmonyAttributes => AttrTables.HarmonyAttributes
  | .HarpPedalsAttributes => AttrTables.HarpPedalsAttributes
  | .HeelAttributes => AttrTables.HeelAttributes
  | .HoleAttributes => AttrTables.HoleAttributes
  | .HoleClosedAttributes => AttrTables.HoleClosedAttributes
  | .ImageAttributes => AttrTables.ImageAttributes
  | .InstrumentAttributes => AttrTables.InstrumentAttributes
  | .InterchangeableAttributes => AttrTables.InterchangeableAttributes
  | .InversionAttributes => AttrTables.InversionAttributes
  | .InvertedMordentAttributes => AttrTables.InvertedMordentAttributes
  | .InvertedTurnAttributes => AttrTables.InvertedTurnAttributes
  | .KeyAttributes => AttrTables.KeyAttributes
  | .KeyOctaveAttributes => AttrTables.KeyOctaveAttributes
  | .KindAttributes => AttrTables.KindAttributes
  | .LevelAttributes => AttrTables.LevelAttributes
  | .LineWidthAttributes => AttrTables.LineWidthAttributes
  | .LinkAttributes => AttrTables.LinkAttributes
  | .LyricAttributes => AttrTables.LyricAttributes
  | .LyricFontAttributes => AttrTables.LyricFontAttributes
  | .LyricLanguageAttributes => AttrTables.LyricLanguageAttributes
  | .MeasureAttributes => AttrTables.MeasureAttributes
  | .MeasureNumberingAttributes => AttrTables.MeasureNumberingAttributes
  | .MeasureRepeatAttributes => AttrTables.MeasureRepeatAttributes
  | .MeasureStyleAttributes => AttrTables.MeasureStyleAttributes
  | .MetronomeAttributes => AttrTables.MetronomeAttributes
  | .MetronomeBeamAttributes => AttrTables.MetronomeBeamAttributes
  | .MetronomeTupletAttributes => AttrTables.MetronomeTupletAttributes
  | .MidiDeviceAttributes => AttrTables.MidiDeviceAttributes
  | .MidiInstrumentAttributes => AttrTables.MidiInstrumentAttributes
  | .MiscellaneousFieldAttributes => AttrTables.MiscellaneousFieldAttributes
  | .MordentAttributes => AttrTables.MordentAttributes
  | .MultipleRestAttributes => AttrTables.MultipleRestAttributes
  | .NonArpeggiateAttributes => AttrTables.NonArpeggiateAttributes
  | .NotationsAttributes => AttrTables.NotationsAttributes
  | .NoteAttributes => AttrTables.NoteAttributes
  | .NoteSizeAttributes => AttrTables.NoteSizeAttributes
  | .NoteheadAttributes => AttrTables.NoteheadAttributes
  | .OctaveShiftAttributes => AttrTables.OctaveShiftAttributes
  | .OffsetAttributes => AttrTables.OffsetAttributes
  | .OpusAttributes => AttrTables.OpusAttributes
  | .OtherAppearanceAttributes => AttrTables.OtherAppearanceAttributes
  | .OtherArticulationAttributes => AttrTables.OtherArticulationAttributes
  | .OtherDirectionAttributes => AttrTables.OtherDirectionAttributes
  | .OtherNotationAttributes => AttrTables.OtherNotationAttributes
  | .OtherOrnamentAttributes => AttrTables.OtherOrnamentAttributes
  | .OtherPlayAttributes => AttrTables.OtherPlayAttributes
  | .OtherTechnicalAttributes => AttrTables.OtherTechnicalAttributes
  | .PageMarginsAttributes => AttrTables.PageMarginsAttributes
  | .PartAbbreviationAttributes => AttrTables.PartAbbreviationAttributes
  | .PartAbbreviationDisplayAttributes => AttrTables.PartAbbreviationDisplayAttributes
  | .PartAttributes => AttrTables.PartAttributes
  | .PartGroupAttributes => AttrTables.PartGroupAttributes
  | .PartNameAttributes => AttrTables.PartNameAttributes
  | .PartNameDisplayAttributes => AttrTables.PartNameDisplayAttributes
  | .PartSymbolAttributes => AttrTables.PartSymbolAttributes
  | .PedalAttributes => AttrTables.PedalAttributes
  | .PerMinuteAttributes => AttrTables.PerMinuteAttributes
  | .PercussionAttributes => AttrTables.PercussionAttributes
  | .PlayAttributes => AttrTables.PlayAttributes
  | .PluckAttributes => AttrTables.PluckAttributes
  | .PrefixAttributes => AttrTables.PrefixAttributes
  | .PrincipalVoiceAttributes => AttrTables.PrincipalVoiceAttributes
  | .PrintAttributes => AttrTables.PrintAttributes
  | .PullOffAttributes => AttrTables.PullOffAttributes
  | .RehearsalAttributes => AttrTables.RehearsalAttributes
  | .RelationAttributes => AttrTables.RelationAttributes
  | .RepeatAttributes => AttrTables.RepeatAttributes
  | .RestAttributes => AttrTables.RestAttributes
  | .RightsAttributes => AttrTables.RightsAttributes
  | .RootAlterAttributes => AttrTables.RootAlterAttributes
  | .RootStepAttributes => AttrTables.RootStepAttributes
  | .ScoreInstrumentAttributes => AttrTables.ScoreInstrumentAttributes
  | .ScorePartAttributes => AttrTables.ScorePartAttributes
  | .ScorePartwiseAttributes => AttrTables.ScorePartwiseAttributes
  | .ScoreTimewiseAttributes => AttrTables.ScoreTimewiseAttributes
  | .SlashAttributes => AttrTables.SlashAttributes
  | .SlideAttributes => AttrTables.SlideAttributes
  | .SlurAttributes => AttrTables.SlurAttributes
  | .SoundAttributes => AttrTables.SoundAttributes
  | .StaffDetailsAttributes => AttrTables.StaffDetailsAttributes
  | .StaffLayoutAttributes => AttrTables.StaffLayoutAttributes
  | .StaffTuningAttributes => AttrTables.StaffTuningAttributes
  | .StemAttributes => AttrTables.StemAttributes
  | .StickAttributes => AttrTables.StickAttributes
  | .StringAttributes => AttrTables.StringAttributes
  | .StringMuteAttributes => AttrTables.StringMuteAttributes
  | .StrongAccentAttributes => AttrTables.StrongAccentAttributes
  | .SuffixAttributes => AttrTables.SuffixAttributes
  | .SupportsAttributes => AttrTables.SupportsAttributes
  | .TapAttributes => AttrTables.TapAttributes
  | .TextAttributes => AttrTables.TextAttributes
  | .TieAttributes => AttrTables.TieAttributes
  | .TiedAttributes => AttrTables.TiedAttributes
  | .TimeAttributes => AttrTables.TimeAttributes
  | .ToeAttributes => AttrTables.ToeAttributes
  | .TransposeAttributes => AttrTables.TransposeAttributes
  | .TremoloAttributes => AttrTables.TremoloAttributes
  | .TupletAttributes => AttrTables.TupletAttributes
  | .TupletDotAttributes => AttrTables.TupletDotAttributes
  | .TupletNumberAttributes => AttrTables.TupletNumberAttributes
  | .TupletTypeAttributes => AttrTables.TupletTypeAttributes
  | .TurnAttributes => AttrTables.TurnAttributes
  | .TypeAttributes => AttrTables.TypeAttributes
  | .WavyLineAttributes => AttrTables.WavyLineAttributes
  | .WedgeAttributes => AttrTables.WedgeAttributes
  | .WithBarAttributes => AttrTables.WithBarAttributes
  | .WordsAttributes => AttrTables.WordsAttributes

/-- All structs. -/
def AttrStruct.all : List AttrStruct := [
  .AccidentalAttributes, .AccidentalMarkAttributes, .AccidentalTextAttributes, .AccordAttributes, .AccordionRegistrationAttributes,
  .ArpeggiateAttributes, .ArrowAttributes, .BarStyleAttributes, .BarlineAttributes, .BarreAttributes, .BassAlterAttributes,
  .BassStepAttributes, .BeamAttributes, .BeatRepeatAttributes, .BeaterAttributes, .BendAttributes, .BookmarkAttributes, .BracketAttributes,
  .BreathMarkAttributes, .CancelAttributes, .ClefAttributes, .CreatorAttributes, .CreditAttributes, .CreditImageAttributes,
  .CreditWordsAttributes, .DashesAttributes, .DegreeAlterAttributes, .DegreeAttributes, .DegreeTypeAttributes, .DegreeValueAttributes,
  .DelayedInvertedTurnAttributes, .DelayedTurnAttributes, .DirectionAttributes, .DirectiveAttributes, .DisplayTextAttributes,
  .DistanceAttributes, .DynamicsAttributes, .ElisionAttributes, .EmptyFontAttributes, .EmptyLineAttributes, .EmptyPlacementAttributes,
  .EmptyPrintObjectStyleAlignAttributes, .EmptyTrillSoundAttributes, .EncoderAttributes, .EndingAttributes, .ExtendAttributes,
  .FeatureAttributes, .FermataAttributes, .FigureNumberAttributes, .FiguredBassAttributes, .FingeringAttributes, .FirstFretAttributes,
  .FootnoteAttributes, .FrameAttributes, .FretAttributes, .FunctionAttributes, .GlissandoAttributes, .GraceAttributes,
  .GroupAbbreviationAttributes, .GroupAbbreviationDisplayAttributes, .GroupBarlineAttributes, .GroupNameAttributes,
  .GroupNameDisplayAttributes, .GroupSymbolAttributes, .GroupingAttributes, .HammerOnAttributes, .HandbellAttributes, .HarmonicAttributes,
  .HarmonyAttributes, .HarpPedalsAttributes, .HeelAttributes, .HoleAttributes, .HoleClosedAttributes, .ImageAttributes,
  .InstrumentAttributes, .InterchangeableAttributes, .InversionAttributes, .InvertedMordentAttributes, .InvertedTurnAttributes,
  .KeyAttributes, .KeyOctaveAttributes, .KindAttributes, .LevelAttributes, .LineWidthAttributes, .LinkAttributes, .LyricAttributes,
  .LyricFontAttributes, .LyricLanguageAttributes, .MeasureAttributes, .MeasureNumberingAttributes, .MeasureRepeatAttributes,
  .MeasureStyleAttributes, .MetronomeAttributes, .MetronomeBeamAttributes, .MetronomeTupletAttributes, .MidiDeviceAttributes,
  .MidiInstrumentAttributes, .MiscellaneousFieldAttributes, .MordentAttributes, .MultipleRestAttributes, .NonArpeggiateAttributes,
  .NotationsAttributes, .NoteAttributes, .NoteSizeAttributes, .NoteheadAttributes, .OctaveShiftAttributes, .OffsetAttributes,
  .OpusAttributes, .OtherAppearanceAttributes, .OtherArticulationAttributes, .OtherDirectionAttributes, .OtherNotationAttributes,
  .OtherOrnamentAttributes, .OtherPlayAttributes, .OtherTechnicalAttributes, .PageMarginsAttributes, .PartAbbreviationAttributes,
  .PartAbbreviationDisplayAttributes, .PartAttributes, .PartGroupAttributes, .PartNameAttributes, .PartNameDisplayAttributes,
  .PartSymbolAttributes, .PedalAttributes, .PerMinuteAttributes, .PercussionAttributes, .PlayAttributes, .PluckAttributes,
  .PrefixAttributes, .PrincipalVoiceAttributes, .PrintAttributes, .PullOffAttributes, .RehearsalAttributes, .RelationAttributes,
  .RepeatAttributes, .RestAttributes, .RightsAttributes, .RootAlterAttributes, .RootStepAttributes, .ScoreInstrumentAttributes,
  .ScorePartAttributes, .ScorePartwiseAttributes, .ScoreTimewiseAttributes, .SlashAttributes, .SlideAttributes, .SlurAttributes,
  .SoundAttributes, .StaffDetailsAttributes, .StaffLayoutAttributes, .StaffTuningAttributes, .StemAttributes, .StickAttributes,
  .StringAttributes, .StringMuteAttributes, .StrongAccentAttributes, .SuffixAttributes, .SupportsAttributes, .TapAttributes,
  .TextAttributes, .TieAttributes, .TiedAttributes, .TimeAttributes, .ToeAttributes, .TransposeAttributes, .TremoloAttributes,
  .TupletAttributes, .TupletDotAttributes, .TupletNumberAttributes, .TupletTypeAttributes, .TurnAttributes, .TypeAttributes,
  .WavyLineAttributes, .WedgeAttributes, .WithBarAttributes, .WordsAttributes]

end Mx
