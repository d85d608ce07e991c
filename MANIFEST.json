{
 "claims": [
  {
   "property": "C01",
   "status": "partial",
   "theorems": [
    "Mx.Props.C01_written_measure_places_notes_partial",
    "Mx.Props.C01_unequal_chord_misplaces_next_note",
    "Mx.Props.C01_note_beside_chord_is_misplaced",
    "Mx.Props.C01_grace_chord_swallows_chord",
    "Mx.Props.C01_zero_length_note_shifts_the_rest"
   ],
   "note": "Proved for all measures with proper chords; false for unequal chord members and for a non-chord note beside a chord (witness theorems)."
  },
  {
   "property": "C02",
   "status": "partial",
   "theorems": [
    "Mx.Props.C02_read_positions_partial",
    "Mx.Props.C02_rounding",
    "Mx.Props.C02_rounding_adds_up",
    "Mx.Props.C02_unequal_chord",
    "Mx.Props.C02_chord_same_position"
   ],
   "note": "Proved for all element sequences whose times are whole ticks and chords proper. For other times C02_rounding bounds the error by half a tick per note, backup and forward in front; that it adds up and that chords of unequal durations shift the rest are faults of the code (C02_rounding_adds_up, C02_unequal_chord)."
  },
  {
   "property": "C03",
   "status": "partial",
   "theorems": [
    "Mx.Props.C03_measure_round_trip_partial",
    "Mx.Props.C03_measure_unchanged_partial",
    "Mx.Props.C03_single_chord_note_loses_flag",
    "Mx.Props.C03_consecutive_voices_are_merged",
    "Mx.Props.C03_overlapping_notes_are_separated"
   ],
   "note": "Proved for all measures whose notes keep their times (Spec.MeasureKept: chords may be unequal and notes without length) and whose voices do not overlap internally, have no one-note chords and begin before the end of the voice before; false otherwise (three witness theorems). C90 says what happens to all other measures."
  },
  {
   "property": "C04",
   "status": "proved",
   "theorems": [
    "Mx.Props.C04_read_time_not_negative"
   ],
   "note": ""
  },
  {
   "property": "C05",
   "status": "partial",
   "theorems": [
    "Mx.Props.C05_scale_is_least_common_multiple",
    "Mx.Props.C05_rescaling_is_exact",
    "Mx.Props.C05_score_times_partial",
    "Mx.Props.C05_missing_divisions",
    "Mx.Props.C05_small_divisions_undefined",
    "Mx.Props.C05_scale_overflow"
   ],
   "note": "Proved for whole division counts and exact durations; false when the common multiple overflows, divisions are missing or below one half (witness theorems)."
  },
  {
   "property": "C06",
   "status": "proved",
   "theorems": [
    "Mx.Props.C06_gcd",
    "Mx.Props.C06_gcd_smallest",
    "Mx.Props.C06_gcd_list",
    "Mx.Props.C06_gcd_list_zeros",
    "Mx.Props.C06_gcd_list_short",
    "Mx.Props.C06_lcm",
    "Mx.Props.C06_lcm_set",
    "Mx.Props.C06_lcm_set_zero"
   ],
   "note": ""
  },
  {
   "property": "C07",
   "status": "proved",
   "theorems": [
    "Mx.Props.C07_ids_unique",
    "Mx.Props.C07_defined"
   ],
   "note": ""
  },
  {
   "property": "C08",
   "status": "proved",
   "theorems": [
    "Mx.Props.C08_linearizable",
    "Mx.Props.C08_map",
    "Mx.Props.C08_no_deadlock"
   ],
   "note": ""
  },
  {
   "property": "C09",
   "status": "proved",
   "theorems": [
    "Mx.Props.C09_timewise_contents",
    "Mx.Props.C09_round_trip",
    "Mx.Props.C09_round_trip_exact",
    "Mx.Props.C09_attributes_of_last_part",
    "Mx.Props.C09_ragged_undefined",
    "Mx.Props.C09_unlisted_part_lost"
   ],
   "note": ""
  },
  {
   "property": "C10",
   "status": "proved",
   "theorems": [
    "Mx.Props.C10_timewise_unchanged",
    "Mx.Props.C10_getData_repeatable",
    "Mx.Props.C10_rectangular_stable",
    "Mx.Props.C10_exception_leaves_partwise",
    "Mx.Props.C10_missing_part_is_added"
   ],
   "note": ""
  },
  {
   "property": "C11",
   "status": "proved",
   "theorems": [
    "Mx.Props.C11_date_always_valid",
    "Mx.Props.C11_date_overflow_only",
    "Mx.Props.C11_constructor_exact"
   ],
   "note": ""
  },
  {
   "property": "C12",
   "status": "proved",
   "theorems": [
    "Mx.Props.C12_addDays",
    "Mx.Props.C12_dayNumber_injective",
    "Mx.Props.C12_addDays_inverse",
    "Mx.Props.C12_addDays_add",
    "Mx.Props.C12_weekday",
    "Mx.Props.C12_addMonths",
    "Mx.Props.C12_addYears"
   ],
   "note": ""
  },
  {
   "property": "C13",
   "status": "proved",
   "theorems": [
    "Mx.Props.C13_parse_toString",
    "Mx.Props.C13_parse_iff",
    "Mx.Props.C13_toString_shape"
   ],
   "note": ""
  },
  {
   "property": "C14",
   "status": "proved",
   "theorems": [
    "Mx.Props.C14_comparisons",
    "Mx.Props.C14_total_order"
   ],
   "note": ""
  },
  {
   "property": "C15",
   "status": "proved",
   "theorems": [
    "Mx.Props.C15_color_channels",
    "Mx.Props.C15_color_round_trip",
    "Mx.Props.C15_color_text",
    "Mx.Props.C15_color_parse"
   ],
   "note": ""
  },
  {
   "property": "C16",
   "status": "proved",
   "theorems": [
    "Mx.Props.C16_int_range_invariant",
    "Mx.Props.C16_int_clamp_nearest",
    "Mx.Props.C16_int_construct"
   ],
   "note": ""
  },
  {
   "property": "C17",
   "status": "proved",
   "theorems": [
    "Mx.Props.C17_int_parse",
    "Mx.Props.C17_int_round_trip",
    "Mx.Props.C17_integer_round_trip"
   ],
   "note": ""
  },
  {
   "property": "C18",
   "status": "partial",
   "theorems": [
    "Mx.Props.C18_range_invariant_partial",
    "Mx.Props.C18_never_negative_partial",
    "Mx.Props.C18_kept",
    "Mx.Props.C18_outside_becomes_bound",
    "Mx.Props.C18_positive_partial",
    "Mx.Props.C18_defined",
    "Mx.Props.C18_positive_decimal_can_be_zero",
    "Mx.Props.C18_huge_number_undefined"
   ],
   "note": "Range kept by every inclusive class for all histories; the classes that exclude 0 round a tiny positive number to 0 (witness theorem) and assignment of 2^64 or more is undefined."
  },
  {
   "property": "C19",
   "status": "proved",
   "theorems": [
    "Mx.Props.C19_text_is_nearest",
    "Mx.Props.C19_parse_back",
    "Mx.Props.C19_clamped_at_the_top",
    "Mx.Props.C19_carry_exceeds_maximum",
    "Mx.Props.C19_maximum_of_negative"
   ],
   "note": "Numbers that fit the integer digits; carry above the largest expressible number and 2^64 are recorded as witnesses. long double arithmetic is modelled by exact rationals."
  },
  {
   "property": "C20",
   "status": "proved",
   "theorems": [
    "Mx.Props.C20_invariant",
    "Mx.Props.C20_set_values",
    "Mx.Props.C20_round_trip",
    "Mx.Props.C20_parse_numbers",
    "Mx.Props.C20_spaces_are_dropped"
   ],
   "note": ""
  },
  {
   "property": "C21",
   "status": "partial",
   "theorems": [
    "Mx.Props.C21_round_trip_partial",
    "Mx.Props.C21_direct_round_trip_partial",
    "Mx.Props.C21_trailing_empty_token_lost",
    "Mx.Props.C21_escapes_not_resolved"
   ],
   "note": "Proved for lists that do not end with an empty token; false otherwise (C21_trailing_empty_token_lost)."
  },
  {
   "property": "C22",
   "status": "partial",
   "theorems": [
    "Mx.Props.C22_font_size_round_trip",
    "Mx.Props.C22_font_size_rejects",
    "Mx.Props.C22_yes_no_number_round_trip",
    "Mx.Props.C22_yes_no_number_rejects",
    "Mx.Props.C22_number_or_normal_round_trip",
    "Mx.Props.C22_number_or_normal_accepts_junk",
    "Mx.Props.C22_positive_integer_or_empty_round_trip",
    "Mx.Props.C22_positive_integer_or_empty_accepts_junk"
   ],
   "note": "Round trips proved for all four types (decimals up to 10^19-1); rejection proved for FontSize and YesNoNumber and false for NumberOrNormal and PositiveIntegerOrEmpty (the *_accepts_junk theorems)."
  },
  {
   "property": "C23",
   "status": "proved",
   "theorems": [
    "Mx.Props.C23_written_text",
    "Mx.Props.C23_read_text",
    "Mx.Props.C23_round_trip",
    "Mx.Props.C23_distinct_texts",
    "Mx.Props.C23_unknown_text"
   ],
   "note": ""
  },
  {
   "property": "C24",
   "status": "partial",
   "theorems": [
    "Mx.Props.C24_api_values_partial",
    "Mx.Props.C24_core_values_partial",
    "Mx.Props.C24_fa_up_lost",
    "Mx.Props.C24_sharp_sharp_lost",
    "Mx.Props.C24_fingernails_lost",
    "Mx.Props.C24_sound_round_trip",
    "Mx.Props.C24_sound_text",
    "Mx.Props.C24_sound_never_unspecified"
   ],
   "note": "Proved for every value of every converter table and all instrument sounds except three values missing in the tables (faUp, sharpSharp, fingernails: witness theorems)."
  },
  {
   "property": "C25",
   "status": "proved",
   "theorems": [
    "Mx.Props.C25_token_is_words",
    "Mx.Props.C25_token_normalised",
    "Mx.Props.C25_normalised_kept",
    "Mx.Props.C25_idempotent",
    "Mx.Props.C25_words_preserved"
   ],
   "note": ""
  },
  {
   "property": "C26",
   "status": "proved",
   "theorems": [
    "Mx.Props.C26_no_markup",
    "Mx.Props.C26_unescape",
    "Mx.Props.C26_injective"
   ],
   "note": ""
  },
  {
   "property": "C27",
   "status": "partial",
   "theorems": [
    "Mx.Props.C27_legal_name_partial",
    "Mx.Props.C27_legal_names_kept",
    "Mx.Props.C27_illegal_name"
   ],
   "note": "Proved exactly for texts that do not start with \"-\" or \".\"; false for those (C27_illegal_name)."
  },
  {
   "property": "C28",
   "status": "partial",
   "theorems": [
    "Mx.Props.C28_transposition_partial",
    "Mx.Props.C28_usual_part",
    "Mx.Props.C28_read",
    "Mx.Props.C28_sharp_transposition_changed",
    "Mx.Props.C28_augmented_octave_changed",
    "Mx.Props.C28_smallest_int_undefined"
   ],
   "note": "Proved for every pair with a usual number of diatonic steps (C28_usual_part says which) and what is read from every transpose element; false for enharmonic choices such as C sharp instruments, and undefined for the smallest int (witness theorems)."
  },
  {
   "property": "C29",
   "status": "partial",
   "theorems": [
    "Mx.Props.C29_part_groups",
    "Mx.Props.C29_part_groups_partial",
    "Mx.Props.C29_every_group",
    "Mx.Props.C29_part_list_text",
    "Mx.Props.C29_texts_lost",
    "Mx.Props.C29_unspecified_bracket_indeterminate",
    "Mx.Props.C29_default_group_undefined",
    "Mx.Props.C29_equality_ignores_number",
    "Mx.Props.C29_same_number_swaps",
    "Mx.Props.C29_missing_part_shifts",
    "Mx.Props.C29_named_number_throws",
    "Mx.Props.C29_unstopped_group_lost",
    "Mx.Props.C29_stop_matches"
   ],
   "note": "C29_part_groups says exactly what comes back for every list of groups (distinct numbers where they overlap) and every sorting routine; first, last, number, name always come back (C29_every_group); the bracket type too unless it is \"unspecified\" (then indeterminate: witness). Texts for display are lost."
  },
  {
   "property": "C30",
   "status": "partial",
   "theorems": [
    "Mx.Props.C30_pitch_partial",
    "Mx.Props.C30_octave_limited",
    "Mx.Props.C30_opposite_cents_changed"
   ],
   "note": "Proved for octaves 0..9 and cents of the same sign below 100 with at most four decimals (the precision of the document); mixed signs change (witness theorem)."
  },
  {
   "property": "C31",
   "status": "partial",
   "theorems": [
    "Mx.Props.C31_beams_partial",
    "Mx.Props.C31_beams",
    "Mx.Props.C31_numbers",
    "Mx.Props.C31_any_order"
   ],
   "note": "C31_beams says exactly what comes back for every list; more than eight beams and unspecified beams do not come back."
  },
  {
   "property": "C32",
   "status": "partial",
   "theorems": [
    "Mx.Props.C32_read_partial",
    "Mx.Props.C32_stated",
    "Mx.Props.C32_written",
    "Mx.Props.C32_write_read",
    "Mx.Props.C32_same_list",
    "Mx.Props.C32_compound_meter_ignored",
    "Mx.Props.C32_senza_misura_ignored"
   ],
   "note": "Proved for all sequences of measures whose time elements state whole numbers; compound numerators such as 3+2 and senza misura are ignored (witness theorems)."
  },
  {
   "property": "C33",
   "status": "proved",
   "theorems": [
    "Mx.Props.C33_no_note_lost",
    "Mx.Props.C33_order_in_voice_kept",
    "Mx.Props.C33_voice_numbers_honoured",
    "Mx.Props.C33_inconsistent_numbers_are_replaced"
   ],
   "note": ""
  },
  {
   "property": "C34",
   "status": "partial",
   "theorems": [
    "Mx.Props.C34_sorted_partial",
    "Mx.Props.C34_twice_times",
    "Mx.Props.C34_twice_partial",
    "Mx.Props.C34_keys_and_barlines_unsorted",
    "Mx.Props.C34_chord_order_not_kept"
   ],
   "note": "For every result that std::sort may give: notes, directions, clefs are sorted and nothing is lost; sorting twice gives the same times. Keys and barlines are not sorted and the order of notes of a chord may change (witness theorems)."
  },
  {
   "property": "C35",
   "status": "partial",
   "theorems": [
    "Mx.Props.C35_location_partial",
    "Mx.Props.C35_throws_on_empty",
    "Mx.Props.C35_no_staves_but_valid"
   ],
   "note": "Exact for scores without empty lists; throws on an empty score, true for a staff that does not exist when a measure has no staves (witness theorems)."
  },
  {
   "property": "C36",
   "status": "partial",
   "theorems": [
    "Mx.Props.C36_canonical_partial",
    "Mx.Props.C36_defined",
    "Mx.Props.C36_overflow_undefined"
   ],
   "note": "Proved for every text on which atoi is defined; undefined behaviour for numerals outside int (C36_overflow_undefined)."
  },
  {
   "property": "C37",
   "status": "partial",
   "theorems": [
    "Mx.Props.C37_misc_data_partial",
    "Mx.Props.C37_without_commas_partial",
    "Mx.Props.C37_spaces_and_empty_strings_lost"
   ],
   "note": "Proved for normalised strings without control characters and double quotes, the last one not empty; false otherwise (C37_spaces_and_empty_strings_lost)."
  },
  {
   "property": "C38",
   "status": "proved",
   "theorems": [
    "Mx.Props.C38_at_most_one",
    "Mx.Props.C38_tremolo_is_ornament",
    "Mx.Props.C38_slashes",
    "Mx.Props.C38_slashes_unique",
    "Mx.Props.C38_complete",
    "Mx.Props.C38_others_apart"
   ],
   "note": "Complete case analysis over all mark types."
  },
  {
   "property": "C39",
   "status": "partial",
   "theorems": [
    "Mx.Props.C39_setter",
    "Mx.Props.C39_predicate",
    "Mx.Props.C39_clef_partial",
    "Mx.Props.C39_no_staff",
    "Mx.Props.C39_soprano_lines_wrong",
    "Mx.Props.C39_true_clefs",
    "Mx.Props.C39_location_lost",
    "Mx.Props.C39_line_invented"
   ],
   "note": "Setters, predicates and round trip proved for all clefs whose sign is specified and all lines; soprano and mezzo-soprano setters choose the wrong lines and the location at the start of a measure is lost (witness theorems)."
  },
  {
   "property": "C40",
   "status": "partial",
   "theorems": [
    "Mx.Props.C40_traditional_partial",
    "Mx.Props.C40_custom_partial",
    "Mx.Props.C40_dorian_unspecified",
    "Mx.Props.C40_unsupported_lost",
    "Mx.Props.C40_custom_staff_lost",
    "Mx.Props.C40_mixed_signs_changed"
   ],
   "note": "Proved for all traditional keys in major, minor or with unspecified mode and for all custom keys with cents in the direction of the alteration; false for other modes, staff and time of custom keys and mixed signs (witness theorems)."
  },
  {
   "property": "C41",
   "status": "partial",
   "theorems": [
    "Mx.Props.C41_ottava",
    "Mx.Props.C41_ottava_direction",
    "Mx.Props.C41_extension",
    "Mx.Props.C41_chord_kind",
    "Mx.Props.C41_degree_dropped",
    "Mx.Props.C41_marks",
    "Mx.Props.C41_marks_partial",
    "Mx.Props.C41_mark_partial",
    "Mx.Props.C41_fermata",
    "Mx.Props.C41_fermata_parts",
    "Mx.Props.C41_mark_order_lost",
    "Mx.Props.C41_marks_not_written",
    "Mx.Props.C41_arpeggio_not_written",
    "Mx.Props.C41_accidental_mark_not_written",
    "Mx.Props.C41_fingernails_lost",
    "Mx.Props.C41_fingernails_not_read",
    "Mx.Props.C41_fermata_position_lost",
    "Mx.Props.C41_print_data_lost",
    "Mx.Props.C41_dynamic_color_lost",
    "Mx.Props.C41_named_dynamic_changed",
    "Mx.Props.C41_custom_name_changed",
    "Mx.Props.C41_tremolo_between",
    "Mx.Props.C41_tremolo_read",
    "Mx.Props.C41_no_slashes",
    "Mx.Props.C41_many_slashes",
    "Mx.Props.C41_tuplet",
    "Mx.Props.C41_tuplet_stop",
    "Mx.Props.C41_tuplet_partial",
    "Mx.Props.C41_tuplet_defaults_changed",
    "Mx.Props.C41_tuplet_position_lost",
    "Mx.Props.C41_tuplet_dots_changed",
    "Mx.Props.C41_tuplet_guess",
    "Mx.Props.C41_tuplet_guess_notes",
    "Mx.Props.C41_tuplet_guess_type",
    "Mx.Props.C41_tuplet_guess_swapped"
   ],
   "note": "Tuplets, fermatas and all other marks of notes: exact result proved for every list of marks; unchanged under explicit conditions; every fermata keeps shape and direction. Violated by: print data, fermata positions, fingernails, pedals, arpeggios, accidental marks, order of groups, default tuplets. Ottavas and harmonies are part of C61."
  },
  {
   "property": "C42",
   "status": "partial",
   "theorems": [
    "Mx.Props.C42_print",
    "Mx.Props.C42_print_partial",
    "Mx.Props.C42_print_object_lost",
    "Mx.Props.C42_lines_limited",
    "Mx.Props.C42_family_comma_splits",
    "Mx.Props.C42_empty_family_lost",
    "Mx.Props.C42_position",
    "Mx.Props.C42_position_partial",
    "Mx.Props.C42_alignment_lost",
    "Mx.Props.C42_color",
    "Mx.Props.C42_color_kept",
    "Mx.Props.C42_curves",
    "Mx.Props.C42_curves_partial",
    "Mx.Props.C42_placement_lost",
    "Mx.Props.C42_hook_lost",
    "Mx.Props.C42_tie_handle_lost",
    "Mx.Props.C42_number_limited",
    "Mx.Props.C42_unspecified_becomes_tie_start",
    "Mx.Props.C42_offset_undefined"
   ],
   "note": "Positions and print attributes (any attribute set), colours and curves: exact result proved for all fitting values; unchanged under explicit conditions. Violated by: alignments of curves, CurveStart::placement, line hooks, second handle of tie continuations, numbers above 6, curves of unspecified type, printObject, more than three lines, font families with commas."
  },
  {
   "property": "C43",
   "status": "proved",
   "theorems": [
    "Mx.Props.C43_measure",
    "Mx.Props.C43_written"
   ],
   "note": "White space of the number text is normalised by the token type; the theorem says exactly what comes back for every text."
  },
  {
   "property": "C44",
   "status": "partial",
   "theorems": [
    "Mx.Props.C44_derived_partial",
    "Mx.Props.C44_derived_back_partial",
    "Mx.Props.C44_mixed_divisions_wrong",
    "Mx.Props.C44_names_never_derived",
    "Mx.Props.C44_tuplet_length",
    "Mx.Props.C44_tuplet_partial",
    "Mx.Props.C44_tuplet_found_partial",
    "Mx.Props.C44_tuplet_of_41",
    "Mx.Props.C44_dotted_always_wrong",
    "Mx.Props.C44_dotted_half_named_quarter"
   ],
   "note": "The derived name has exactly the duration when the divisions of the part are the ticks of the score; mixed divisions, four names and dotted tuplets are wrong (witness theorems). Undotted notes of tuplets are always found; the name found is exact for up to 39 normal notes, and wrong for 41 (witness theorem: the allowed error is too large)."
  },
  {
   "property": "C45",
   "status": "partial",
   "theorems": [
    "Mx.Props.C45_direction_moves_after_mixed_chord",
    "Mx.Props.C45_directions_keep_time_partial"
   ],
   "note": "Proved for all directions at any times in every measure whose notes keep their times (Spec.MeasureKept); false for chord notes that are followed by other notes of the same time (witness theorem). That no direction is lost or put onto another staff is proved for all measures in C71."
  },
  {
   "property": "C46",
   "status": "partial",
   "theorems": [
    "Mx.Props.C46_defaults",
    "Mx.Props.C46_page_layout_partial",
    "Mx.Props.C46_system_layout_partial",
    "Mx.Props.C46_defaults_partial",
    "Mx.Props.C46_unspecified",
    "Mx.Props.C46_layouts",
    "Mx.Props.C46_layouts_partial",
    "Mx.Props.C46_size_fabricated",
    "Mx.Props.C46_margins_fabricated",
    "Mx.Props.C46_staff_distance_lost",
    "Mx.Props.C46_measure_numbering_lost",
    "Mx.Props.C46_other_appearance_lost",
    "Mx.Props.C46_scaling_not_compared",
    "Mx.Props.C46_untyped_margins"
   ],
   "note": "C46_defaults and C46_layouts say exactly what comes back of the defaults and of the layouts of the measures. The full statement is false of the code: sizes and margins are fabricated in two cases, negative page margins become 0 and staff distances of measures are lost (witnesses); everything else comes back (C46_page_layout_partial, C46_system_layout_partial, C46_layouts_partial)."
  },
  {
   "property": "C47",
   "status": "proved",
   "theorems": [
    "Mx.Props.C47_part_head",
    "Mx.Props.C47_midi",
    "Mx.Props.C47_instrument_partial",
    "Mx.Props.C47_every_sound",
    "Mx.Props.C47_zero_becomes_one",
    "Mx.Props.C47_sound_alone_lost",
    "Mx.Props.C47_midi_name_lost",
    "Mx.Props.C47_midi_instrument_id_differs",
    "Mx.Props.C47_display_abbreviation_replaced",
    "Mx.Props.C47_sharp_text_lost",
    "Mx.Props.C47_unknown_sound_throws"
   ],
   "note": "C47_midi: channel, program, bank in the range of MusicXML (1..), volume, pan, elevation. C47_part_head says exactly what comes back of the whole head of a part; C47_instrument_partial covers more than the property asks (whole instrument) under explicit conditions. Witnesses for what is lost besides."
  },
  {
   "property": "C48",
   "status": "proved",
   "theorems": [
    "Mx.Props.C48_same_staves_in_every_measure",
    "Mx.Props.C48_notes_on_their_staff",
    "Mx.Props.C48_directions_on_their_staff",
    "Mx.Props.C48_clefs_and_keys_on_their_staff",
    "Mx.Props.C48_every_part_loads",
    "Mx.Props.C48_clef_alone_fails"
   ],
   "note": "For every part whose staff numbers are positive (as their type ensures): the count is the largest number mentioned, every measure has that many staves, notes, directions, clefs and keys are on the staff they name, and loading succeeds unless a clef names a staff nothing else mentions (witness) or divisions round to zero."
  },
  {
   "property": "C49",
   "status": "partial",
   "theorems": [
    "Mx.Props.C49_outer_barlines_unchanged",
    "Mx.Props.C49_no_barline_lost",
    "Mx.Props.C49_outer_barlines_unchanged_partial",
    "Mx.Props.C49_no_barline_lost_partial",
    "Mx.Props.C49_middle_barline_moves"
   ],
   "note": "Proved for every measure: outer barlines unchanged, no barline lost. Barlines in the middle of a measure are moved (witness theorem)."
  },
  {
   "property": "C50",
   "status": "partial",
   "theorems": [
    "Mx.Props.C50_clefs_of_each_staff_kept",
    "Mx.Props.C50_clefs_of_each_staff_kept_partial",
    "Mx.Props.C50_clef_inside_note_moves"
   ],
   "note": "Proved for every measure: the clefs of each staff come back in order. The time of a clef inside a note moves to the end of the note (witness theorem)."
  },
  {
   "property": "C51",
   "status": "proved",
   "theorems": [
    "Mx.Props.C51_parse_accepts_numerals",
    "Mx.Props.C51_unambiguous"
   ],
   "note": ""
  },
  {
   "property": "C52",
   "status": "partial",
   "theorems": [
    "Mx.Props.C52_content_partial",
    "Mx.Props.C52_attribute_partial",
    "Mx.Props.C52_reading_unique",
    "Mx.Props.C52_quote_breaks_attribute",
    "Mx.Props.C52_line_ends_change"
   ],
   "note": "Exact characterisation of the texts that survive; false for double quotes and line ends in attributes and carriage returns in content."
  },
  {
   "property": "C53",
   "status": "partial",
   "theorems": [
    "Mx.Props.C53_histories_partial",
    "Mx.Props.C53_text_kept_partial",
    "Mx.Props.C53_written_text",
    "Mx.Props.C53_other_text_lost"
   ],
   "note": "Proved for all histories without the literal texts \"other-dynamics\"/\"other\", which are lost (witness theorem)."
  },
  {
   "property": "C54",
   "status": "partial",
   "theorems": [
    "Mx.Props.C54_round_trip_partial",
    "Mx.Props.C54_elements_partial",
    "Mx.Props.C54_unknown_ignored",
    "Mx.Props.C54_required_partial",
    "Mx.Props.C54_tie_loses_second_handle",
    "Mx.Props.C54_dash_length_twice",
    "Mx.Props.C54_links_fail",
    "Mx.Props.C54_attributes_not_read",
    "Mx.Props.C54_bracket_unchecked"
   ],
   "note": "Proved for 173 of 175 attribute structures and all values that XML can carry, except dash-length of EmptyLineAttributes and three Bezier members of TiedAttributes; false for those, for links and opus, and hole-closed and play never read their attributes (witness theorems)."
  },
  {
   "property": "C55",
   "status": "partial",
   "theorems": [
    "Mx.Props.C55_written_partial",
    "Mx.Props.C55_covered_partial",
    "Mx.Props.C55_missing_real",
    "Mx.Props.C55_extra_real"
   ],
   "note": "Proved for all element classes up to the listed exceptions (print-object on 5 elements; color, valign, dir missing on 97 elements), which are shown to be real."
  },
  {
   "property": "C56",
   "status": "partial",
   "theorems": [
    "Mx.Props.C56_enum_accepted",
    "Mx.Props.C56_int_accepted_partial",
    "Mx.Props.C56_rejected_value_fails",
    "Mx.Props.C56_valid_but_rejected",
    "Mx.Props.C56_color_accepted"
   ],
   "note": "Exact acceptance proved for enumerations, integers, colours; integers and font sizes in non-canonical form are valid but rejected (witness theorem)."
  },
  {
   "property": "C57",
   "status": "proved",
   "theorems": [
    "Mx.Props.C57_measures",
    "Mx.Props.C57_find_part"
   ],
   "note": ""
  },
  {
   "property": "C58",
   "status": "partial",
   "theorems": [
    "Mx.Props.C58_note",
    "Mx.Props.C58_details_partial",
    "Mx.Props.C58_second_round",
    "Mx.Props.C58_accidental_marks_lost",
    "Mx.Props.C58_display_lost",
    "Mx.Props.C58_unspecified_name_becomes_maxima",
    "Mx.Props.C58_is_tied_lost",
    "Mx.Props.C58_normal_type_lost",
    "Mx.Props.C58_fa_up_lost",
    "Mx.Props.C58_show_accidental",
    "Mx.Props.C58_shown_accidental",
    "Mx.Props.C58_hidden_accidental"
   ],
   "note": "C58_note says exactly what comes back for every note; several details are lost (witness theorems). Second round proved to change nothing."
  },
  {
   "property": "C59",
   "status": "partial",
   "theorems": [
    "Mx.Props.C59_rounds",
    "Mx.Props.C59_stable_partial",
    "Mx.Props.C59_ties_multiply"
   ],
   "note": "Exact result of any number of rounds proved by induction. Stable for untied notes and cue notes; for all others the number of tie curves grows without bound (C59_ties_multiply)."
  },
  {
   "property": "C60",
   "status": "partial",
   "theorems": [
    "Mx.Props.C60_part_round_trip_partial",
    "Mx.Props.C60_score_round_trip_partial",
    "Mx.Props.C60_same_id_loses_part",
    "Mx.Props.C60_similar_id_loses_part",
    "Mx.Props.C60_empty_not_kept",
    "Mx.Props.C60_later_staff_lost"
   ],
   "note": "Proved for all scores whose parts have distinct XML ids, at least one measure, the same number of staves in all measures, and measures as in C03; false otherwise (witness theorems: equal ids, empty parts, later staves). C91 says what happens to all other scores. Clef times, keys and barline positions are covered by C50, C40, C49 only."
  },
  {
   "property": "C61",
   "status": "partial",
   "theorems": [
    "Mx.Props.C61_kept",
    "Mx.Props.C61_time",
    "Mx.Props.C61_direction_partial",
    "Mx.Props.C61_chord_partial",
    "Mx.Props.C61_not_written",
    "Mx.Props.C61_wedge_number_lost",
    "Mx.Props.C61_bracket_lost",
    "Mx.Props.C61_ottava_lost",
    "Mx.Props.C61_words_color_lost",
    "Mx.Props.C61_split",
    "Mx.Props.C61_harmony_staff_lost",
    "Mx.Props.C61_pedal_placement",
    "Mx.Props.C61_misc_doubles",
    "Mx.Props.C61_damp_all",
    "Mx.Props.C61_wedge_continue",
    "Mx.Props.C61_pedal_change"
   ],
   "note": "C61_kept says exactly what comes back of every direction whose numbers fit; C61_direction_partial and C61_chord_partial give the plain round trip. The full statement is false of the code (segnos, codas, rehearsal marks and bracket ends are not written; numbers of wedges and ottavas, colours and more are lost: witness theorems)."
  },
  {
   "property": "C62",
   "status": "partial",
   "theorems": [
    "Mx.Props.C62_write_partial",
    "Mx.Props.C62_read",
    "Mx.Props.C62_again_partial",
    "Mx.Props.C62_tempo",
    "Mx.Props.C62_tempo_text",
    "Mx.Props.C62_note_relation",
    "Mx.Props.C62_misc_name"
   ],
   "note": "False of the code: a metronome mark that is not a number of beats per minute (C62_tempo, witness C62_tempo_text) or of notes and relations (C62_note_relation). C62_again_partial proves it for all other directions and chord symbols. Exceptions of other parts of the writer are not covered."
  },
  {
   "property": "C63",
   "status": "partial",
   "theorems": [
    "Mx.Props.C63_children_allowed",
    "Mx.Props.C63_document_valid_partial",
    "Mx.Props.C63_careless",
    "Mx.Props.C63_time_interchangeable"
   ],
   "note": "C63_children_allowed: 133 of the 138 classes keep to the schema after every history of calls. The other five do not (C63_careless, C63_time_interchangeable: proved witnesses); C63_document_valid_partial: whole documents are valid under the condition Careful, which names what to keep away from. Attributes are C55, values C56."
  },
  {
   "property": "C64",
   "status": "partial",
   "theorems": [
    "Mx.Props.C64_everything_written_partial",
    "Mx.Props.C64_members_written_once",
    "Mx.Props.C64_sound"
   ],
   "note": "Proved for all trees but those with a sound element that has contents and no midi instrument, for which it is false of the code (C64_sound)."
  },
  {
   "property": "C65",
   "status": "proved",
   "theorems": [
    "Mx.Props.C65_limits"
   ],
   "note": ""
  },
  {
   "property": "C66",
   "status": "partial",
   "theorems": [
    "Mx.Props.C66_read_back_partial",
    "Mx.Props.C66_document_partial",
    "Mx.Props.C66_other_root",
    "Mx.Props.C66_complaints",
    "Mx.Props.C66_complaint_fatal",
    "Mx.Props.C66_losses"
   ],
   "note": "Proved for all classes and all trees under the conditions Readable and SoundCareful, which name the situations one by one; in each of them the statement is false of the code (C66_complaints: seven elements that cannot be loaded at all, C66_losses: seven that change; C64_sound). The text of attributes and values is carried as it is (C52, C54), processing instructions are not modelled."
  },
  {
   "property": "C67",
   "status": "partial",
   "theorems": [
    "Mx.Props.C67_element_partial",
    "Mx.Props.C67_partwise_partial",
    "Mx.Props.C67_timewise_partial",
    "Mx.Props.C67_supported_valid",
    "Mx.Props.C67_supported_all",
    "Mx.Props.C67_refused",
    "Mx.Props.C67_changed",
    "Mx.Props.C67_each_narrowed"
   ],
   "note": "Proved for all documents that keep to the content models of the schema, narrowed for 17 of the 390 declarations (Spec/Supported.lean). Each of the 17 is witnessed: 7 valid elements that are refused (C67_refused) and 20 that come back changed (C67_changed), so the full statement is false of the code. Attributes and values are carried as one text each (see C52, C54, C55)."
  },
  {
   "property": "C68",
   "status": "partial",
   "theorems": [
    "Mx.Props.C68_saved_partial",
    "Mx.Props.C68_element_partial",
    "Mx.Props.C68_others",
    "Mx.Props.C68_not_valid"
   ],
   "note": "Proved for every tree of elements with the content models of the schema, changed for 6 of the 390 declarations (Spec/Loaded.lean: widened). For five of the six C68_not_valid shows that they are in fact written against the schema, so the full statement is false of the code; the sixth (percussion) is never loaded (C67_refused). Names, number and order of elements only; attributes and values see C52, C54, C55."
  },
  {
   "property": "C69",
   "status": "proved",
   "theorems": [
    "Mx.Props.C69_refused",
    "Mx.Props.C69_partwise",
    "Mx.Props.C69_timewise",
    "Mx.Props.C69_ignored",
    "Mx.Props.C69_ignored_written",
    "Mx.Props.C69_misspelt",
    "Mx.Props.C69_torn"
   ],
   "note": ""
  },
  {
   "property": "C70",
   "status": "partial",
   "theorems": [
    "Mx.Props.C70_exact",
    "Mx.Props.C70_unchanged_partial",
    "Mx.Props.C70_texts",
    "Mx.Props.C70_date",
    "Mx.Props.C70_date_written",
    "Mx.Props.C70_creators",
    "Mx.Props.C70_loaded_stable",
    "Mx.Props.C70_arranger_lost",
    "Mx.Props.C70_arranger_as_lyricist",
    "Mx.Props.C70_date_changed",
    "Mx.Props.C70_date_invented"
   ],
   "note": "C70_exact says exactly what comes back, for all texts. The full statement is false of the code: arranger and publisher are lost or taken for the lyricist, and impossible dates are changed (C70_arranger_lost, C70_arranger_as_lyricist, C70_date_changed). C70_unchanged_partial: unchanged for texts without arranger and publisher in the form documents hold. The escaping of the texts in the file is C26 and C53."
  },
  {
   "property": "C71",
   "status": "partial",
   "theorems": [
    "Mx.Props.C71_notes",
    "Mx.Props.C71_directions",
    "Mx.Props.C71_clefs",
    "Mx.Props.C71_barlines",
    "Mx.Props.C71_keys_read",
    "Mx.Props.C71_keys_written_partial",
    "Mx.Props.C71_staff_keys_written",
    "Mx.Props.C71_second_key_change_lost",
    "Mx.Props.C71_key_change_for_all_staves"
   ],
   "note": "Notes, directions, clefs, barlines and keys of staves: proved without conditions. Keys of the measure: of several changes after the last note only one is written (witness theorem); proved that only then keys are missing."
  },
  {
   "property": "C72",
   "status": "partial",
   "theorems": [
    "Mx.Props.C72_load_save_partial",
    "Mx.Props.C72_nothing_lost",
    "Mx.Props.C72_saved_is_well_formed",
    "Mx.Props.C72_layout_irrelevant",
    "Mx.Props.C72_saved_again",
    "Mx.Props.C72_different_texts",
    "Mx.Props.C72_quote_not_saved",
    "Mx.Props.C72_quote_adds_attribute",
    "Mx.Props.C72_loaded_but_not_saved",
    "Mx.Props.C72_instruction_breaks_out",
    "Mx.Props.C72_control_characters"
   ],
   "note": "Proved for all documents without double quotes in attribute values and without ?> in processing instructions; for these the property is false of the code (C72_quote_not_saved, C72_quote_adds_attribute, C72_loaded_but_not_saved, C72_instruction_breaks_out). C72_load_save_partial says exactly what comes back; C72_nothing_lost when nothing changes. The tree is generic (names, attributes, texts, children, instructions); that typed elements write such trees is C26, C63-C66."
  },
  {
   "property": "C73",
   "status": "partial",
   "theorems": [
    "Mx.Props.C73_any_spelling_partial",
    "Mx.Props.C73_comment_cuts_text",
    "Mx.Props.C73_section_cuts_text",
    "Mx.Props.C73_blank_text"
   ],
   "note": "Proved for all well formed UTF-8 files whose texts are in one piece. False of the code for texts interrupted by a comment or partly in a CDATA section and for texts of white space (C73_comment_cuts_text, C73_section_cuts_text, C73_blank_text). Outside: mixed content (MusicXML has none) and internal DTD subsets."
  },
  {
   "property": "C74",
   "status": "partial",
   "theorems": [
    "Mx.Props.C74_loaded_and_saved_partial",
    "Mx.Props.C74_built_and_saved_partial"
   ],
   "note": "Joins C72, C73 with C66, C67. Proved for all files of the supported part of the schema (C67) without processing instructions and without the texts and attribute values that cannot be written (C72); attributes and values are kept as the texts they are read from (their own round trips are C13-C23, C53, C54). Outside these limits the property is false of the code (witnesses of C66, C67, C72, C73)."
  },
  {
   "property": "C75",
   "status": "partial",
   "theorems": [
    "Mx.Props.C75_equal_iff_agree_partial",
    "Mx.Props.C75_not_equal",
    "Mx.Props.C75_symmetric",
    "Mx.Props.C75_reflexive",
    "Mx.Props.C75_change_seen",
    "Mx.Props.C75_tables",
    "Mx.Props.C75_ignored",
    "Mx.Props.C75_words_ignored",
    "Mx.Props.C75_not_transitive",
    "Mx.Props.C75_nan",
    "Mx.Props.C75_empty_direction"
   ],
   "note": "C75_equal_iff_agree_partial says exactly when two values compare equal. The full statement is false of the code: eight members are never compared (C75_ignored for all their values; C75_words_ignored), tolerant comparison is not transitive and is confused by NaN (C75_not_transitive, C75_nan), and directions with only chord symbols or rehearsal marks pass for empty (C75_empty_direction). Reals are exact."
  },
  {
   "property": "C76",
   "status": "proved",
   "theorems": [
    "Mx.Props.C76_tidy",
    "Mx.Props.C76_valid",
    "Mx.Props.C76_often",
    "Mx.Props.C76_file",
    "Mx.Props.C76_not_stable"
   ],
   "note": ""
  },
  {
   "property": "C77",
   "status": "proved",
   "theorems": [
    "Mx.Props.C77_no_race",
    "Mx.Props.C77_same_object",
    "Mx.Props.C77_no_deadlock",
    "Mx.Props.C77_looks_same",
    "Mx.Props.C77_setter_race",
    "Mx.Props.C77_lock_needed"
   ],
   "note": ""
  },
  {
   "property": "C78",
   "status": "proved",
   "theorems": [
    "Mx.Props.C78_new_document",
    "Mx.Props.C78_any_document",
    "Mx.Props.C78_hidden_child",
    "Mx.Props.C78_instruction_value_lost",
    "Mx.Props.C78_value_goes_to_instruction",
    "Mx.Props.C78_remove_takes_instruction",
    "Mx.Props.C78_wrong_attribute"
   ],
   "note": ""
  },
  {
   "property": "C79",
   "status": "proved",
   "theorems": [
    "Mx.Props.C79_new",
    "Mx.Props.C79_calls",
    "Mx.Props.C79_load",
    "Mx.Props.C79_save_load",
    "Mx.Props.C79_same_document",
    "Mx.Props.C79_always_utf8",
    "Mx.Props.C79_other_version",
    "Mx.Props.C79_second_doctype"
   ],
   "note": ""
  },
  {
   "property": "C80",
   "status": "partial",
   "theorems": [
    "Mx.Props.C80_writing",
    "Mx.Props.C80_written_notes",
    "Mx.Props.C80_written_at_the_end_undefined",
    "Mx.Props.C80_two_long_staves_undefined",
    "Mx.Props.C80_negative_times_undefined",
    "Mx.Props.C80_reading_partial",
    "Mx.Props.C80_read_notes",
    "Mx.Props.C80_long_note_undefined",
    "Mx.Props.C80_two_long_notes_undefined",
    "Mx.Props.C80_scaled_note_undefined",
    "Mx.Props.C80_divisions_and_offset_undefined",
    "Mx.Props.C80_small_divisions_undefined"
   ],
   "note": "Proved for times up to half of the range of int (writing) and for measures whose durations, moves and offsets add up to at most the range of int (reading). That larger times are rejected is false of the code (witnesses C80_*_undefined)."
  },
  {
   "property": "C81",
   "status": "proved",
   "theorems": [
    "Mx.Props.C81_assign",
    "Mx.Props.C81_parse",
    "Mx.Props.C81_history",
    "Mx.Props.C81_get_set",
    "Mx.Props.C81_saved_loaded",
    "Mx.Props.C81_near",
    "Mx.Props.C81_large_numbers_change"
   ],
   "note": ""
  },
  {
   "property": "C82",
   "status": "partial",
   "theorems": [
    "Mx.Props.C82_positions",
    "Mx.Props.C82_rounding",
    "Mx.Props.C82_exact",
    "Mx.Props.C82_score",
    "Mx.Props.C82_score_times",
    "Mx.Props.C82_half_ticks_depend_on_platform"
   ],
   "note": "Proved for scores of whole durations (C82_score, C82_score_times), for measures of decimal durations without half ticks (C82_exact, C82_positions), and with an error of at most 0.50001 ticks per conversion for all measures (C82_rounding). That the same file gives the same music on every platform is false for half ticks (C82_half_ticks_depend_on_platform)."
  },
  {
   "property": "C83",
   "status": "partial",
   "theorems": [
    "Mx.Props.C83_pitch_text",
    "Mx.Props.C83_key_text",
    "Mx.Props.C83_pitch",
    "Mx.Props.C83_key",
    "Mx.Props.C83_whole_cents",
    "Mx.Props.C83_cents_depend_on_platform"
   ],
   "note": "Proved: text, semitones, cents within the tolerance of the comparison of notes, and that writing again gives the same text (C83_pitch, C83_key), for every precision; that whole cents come back exactly is proved for at least 64 binary digits and up to ten semitones (C83_whole_cents) and false for 53 digits (C83_cents_depend_on_platform)."
  },
  {
   "property": "C84",
   "status": "partial",
   "theorems": [
    "Mx.Props.C84_near",
    "Mx.Props.C84_stable",
    "Mx.Props.C84_exact",
    "Mx.Props.C84_tolerance",
    "Mx.Props.C84_exact_comparison_fails",
    "Mx.Props.C84_tiny_positive"
   ],
   "note": "Proved for all numbers that the class can hold (Holds). The last sentence is false: members that are compared exactly are not equal if the number was given as a double (C84_exact_comparison_fails); from the second round on C84_stable gives it. False also for tiny positive numbers where 0 is excluded (C84_tiny_positive)."
  },
  {
   "property": "C85",
   "status": "partial",
   "theorems": [
    "Mx.Props.C85_staves",
    "Mx.Props.C85_voices",
    "Mx.Props.C85_alter_value",
    "Mx.Props.C85_alter_same",
    "Mx.Props.C85_alter_document",
    "Mx.Props.C85_used",
    "Mx.Props.C85_print_written",
    "Mx.Props.C85_breaks",
    "Mx.Props.C85_time_equal",
    "Mx.Props.C85_bool",
    "Mx.Props.C85_tenths_per_inch",
    "Mx.Props.C85_no_scaling",
    "Mx.Props.C85_black_is_white",
    "Mx.Props.C85_black",
    "Mx.Props.C85_curve_points_partial",
    "Mx.Props.C85_curve_points",
    "Mx.Props.C85_line_partial",
    "Mx.Props.C85_line"
   ],
   "note": "The last two sentences are false of the code: isBlack is true exactly of white (C85_black_is_white, C85_black), isSpecified misses members (C85_curve_points, C85_line; the other direction is proved in C85_curve_points_partial, C85_line_partial). Everything else is proved for all inputs."
  },
  {
   "property": "C86",
   "status": "proved",
   "theorems": [
    "Mx.Props.C86_cut_file",
    "Mx.Props.C86_cut_in_root",
    "Mx.Props.C86_cut_saved",
    "Mx.Props.C86_cut_saved_refused",
    "Mx.Props.C86_appended",
    "Mx.Props.C86_text_behind",
    "Mx.Props.C86_second_root_ignored"
   ],
   "note": ""
  },
  {
   "property": "C87",
   "status": "partial",
   "theorems": [
    "Mx.Props.C87_refused_partial",
    "Mx.Props.C87_end_tag",
    "Mx.Props.C87_not_ended",
    "Mx.Props.C87_attribute_twice",
    "Mx.Props.C87_raw_characters",
    "Mx.Props.C87_unknown_reference",
    "Mx.Props.C87_misplaced",
    "Mx.Props.C87_behind_nul"
   ],
   "note": "All errors of nesting and of the spelling of tags listed in Spec/XmlBroken.lean are refused, behind any well formed beginning and in front of any text. Rules of XML that the parser does not check (attributes given twice, raw < and & in values, unknown references, misplaced text and declarations, NUL) are shown by witnesses to be accepted."
  },
  {
   "property": "C88",
   "status": "proved",
   "theorems": [
    "Mx.Props.C88_exactly",
    "Mx.Props.C88_any_time",
    "Mx.Props.C88_group_number",
    "Mx.Props.C88_clef_alone",
    "Mx.Props.C88_note_relation"
   ],
   "note": ""
  },
  {
   "property": "C89",
   "status": "proved",
   "theorems": [
    "Mx.Props.C89_throws",
    "Mx.Props.C89_written",
    "Mx.Props.C89_loaded",
    "Mx.Props.C89_text_tempo",
    "Mx.Props.C89_default_tempo"
   ],
   "note": ""
  },
  {
   "property": "C90",
   "status": "proved",
   "theorems": [
    "Mx.Props.C90_once",
    "Mx.Props.C90_numbers_once",
    "Mx.Props.C90_loaded",
    "Mx.Props.C90_any",
    "Mx.Props.C90_numbers",
    "Mx.Props.C90_twice_needed"
   ],
   "note": ""
  },
  {
   "property": "C91",
   "status": "proved",
   "theorems": [
    "Mx.Props.C91_first_load",
    "Mx.Props.C91_loads_ever_after",
    "Mx.Props.C91_settles",
    "Mx.Props.C91_settles_numbers",
    "Mx.Props.C91_any_file",
    "Mx.Props.C91_late_clef_fails"
   ],
   "note": ""
  },
  {
   "property": "C92",
   "status": "partial",
   "theorems": [
    "Mx.Props.C92_same_music_partial",
    "Mx.Props.C92_for_ever_partial",
    "Mx.Props.C92_grace_chord",
    "Mx.Props.C92_second_time"
   ],
   "note": "Proved for files with whole durations, plain chords and no chord right after a chord of grace notes (once) or no chords of grace notes (any number of times). For chords after chords of grace notes the claim is false (C92_grace_chord, C92_second_time)."
  },
  {
   "property": "C93",
   "status": "partial",
   "theorems": [
    "Mx.Props.C93_saved_partial",
    "Mx.Props.C93_loaded_partial",
    "Mx.Props.C93_through_partial",
    "Mx.Props.C93_in_first_chord",
    "Mx.Props.C93_chord_after_grace_note",
    "Mx.Props.C93_offset",
    "Mx.Props.C93_between_notes_of_chord",
    "Mx.Props.C93_moved_by_saving"
   ],
   "note": "Proved for all measures and files under the stated conditions. False of the code for directions in a chord that begins its voice or follows a grace note, for offsets when divisions are not the ticks of the score, and between the notes of a chord (witnesses proved)."
  },
  {
   "property": "C94",
   "status": "partial",
   "theorems": [
    "Mx.Props.C94_saved_partial",
    "Mx.Props.C94_loaded_partial",
    "Mx.Props.C94_through_partial",
    "Mx.Props.C94_between_notes",
    "Mx.Props.C94_second_voice",
    "Mx.Props.C94_short_last_voice",
    "Mx.Props.C94_between_notes_of_chord",
    "Mx.Props.C94_moved_by_saving"
   ],
   "note": "Proved for all measures and files under the stated conditions (ClefsMet when saving, ClefsTimed when loading). False of the code for clefs at times at which no note of the first voice starts, at the end of a measure with a shorter last voice, and between the notes of a chord (witnesses proved)."
  },
  {
   "property": "C95",
   "status": "partial",
   "theorems": [
    "Mx.Props.C95_saved_partial",
    "Mx.Props.C95_loaded_partial",
    "Mx.Props.C95_through_partial",
    "Mx.Props.C95_between_notes",
    "Mx.Props.C95_two_keys",
    "Mx.Props.C95_lost_key",
    "Mx.Props.C95_loses_staff",
    "Mx.Props.C95_short_last_voice",
    "Mx.Props.C95_between_notes_of_chord",
    "Mx.Props.C95_non_traditional",
    "Mx.Props.C95_moved_by_saving"
   ],
   "note": "Proved for all measures and files under the stated conditions (KeysMet when saving, KeysTimed when loading). False of the code for keys at times at which no note of the first voice starts, for two keys at one time, for keys of one staff inside a measure, for keys between the notes of a chord, and for non-traditional keys inside a measure (witnesses proved)."
  },
  {
   "property": "C96",
   "status": "partial",
   "theorems": [
    "Mx.Props.C96_round_trip",
    "Mx.Props.C96_saved_partial",
    "Mx.Props.C96_loaded_partial",
    "Mx.Props.C96_through_partial",
    "Mx.Props.C96_middle_moves",
    "Mx.Props.C96_middle_repeat",
    "Mx.Props.C96_endings_lost",
    "Mx.Props.C96_blank_ending",
    "Mx.Props.C96_short_barline",
    "Mx.Props.C96_no_location",
    "Mx.Props.C96_right_repeat"
   ],
   "note": "The round trip of one barline is proved in full for the barlines MusicXML can express; places and whole files are proved under the stated conditions (BarlinesMet when saving, BarlinesTimed and BarKept when loading). False of the code for middle barlines inside a measure, endings with several or no numbers, the styles tick and short, and barlines without location at position 0 (witnesses proved)."
  },
  {
   "property": "C97",
   "status": "partial",
   "theorems": [
    "Mx.Props.C97_note_partial",
    "Mx.Props.C97_type_invented",
    "Mx.Props.C97_measure_rest_type",
    "Mx.Props.C97_display_lost",
    "Mx.Props.C97_accidental_marks",
    "Mx.Props.C97_sharp_sharp",
    "Mx.Props.C97_normal_type",
    "Mx.Props.C97_beam_gap",
    "Mx.Props.C97_beam_lost"
   ],
   "note": "Proved for all notes that meet FileNoteKept, in every spelling. False of the code for notes without type, displayed rests and unpitched notes, marks of accidentals, sharp-sharp, fa up, normal types and beams with gaps in their numbers (witnesses proved)."
  },
  {
   "property": "C98",
   "status": "partial",
   "theorems": [
    "Mx.Props.C98_same_notes_partial",
    "Mx.Props.C98_for_ever_partial"
   ],
   "note": "Joins C92 and C97, with the conditions of both. Outside of them the property is false of the code (witnesses of C92 and C97)."
  },
  {
   "property": "C99",
   "status": "partial",
   "theorems": [
    "Mx.Props.C99_direction_partial",
    "Mx.Props.C99_for_ever_partial",
    "Mx.Props.C99_wedge_numbers",
    "Mx.Props.C99_wedge_continue",
    "Mx.Props.C99_three_octaves",
    "Mx.Props.C99_gone",
    "Mx.Props.C99_called_p"
   ],
   "note": "For directions made of the kept sayings (SayingKept, numbers of wedges and octave shifts 1 or absent), layout left out; false in general (five witnesses)."
  },
  {
   "property": "C100",
   "status": "partial",
   "theorems": [
    "Mx.Props.C100_chords_partial",
    "Mx.Props.C100_for_ever_partial",
    "Mx.Props.C100_functions",
    "Mx.Props.C100_degrees",
    "Mx.Props.C100_quarter_tones"
   ],
   "note": "For chords with a root, alterations in whole semitones within int, normalised text and the degrees of the API (ChordKept); false in general (three witnesses)."
  },
  {
   "property": "C101",
   "status": "partial",
   "theorems": [
    "Mx.Props.C101_times_partial",
    "Mx.Props.C101_for_ever_partial",
    "Mx.Props.C101_sum_of_meters",
    "Mx.Props.C101_gone",
    "Mx.Props.C101_two_staves",
    "Mx.Props.C101_second_change",
    "Mx.Props.C101_symbol"
   ],
   "note": "For measures with at most one time signature, of one pair of canonical numbers within int, symbol common, cut or none, for all staves; false in general (five witnesses)."
  },
  {
   "property": "C102",
   "status": "partial",
   "theorems": [
    "Mx.Props.C102_clef_partial",
    "Mx.Props.C102_clef_written",
    "Mx.Props.C102_key_partial",
    "Mx.Props.C102_key_staff_partial",
    "Mx.Props.C102_key_no_staff",
    "Mx.Props.C102_line_invented",
    "Mx.Props.C102_line_below",
    "Mx.Props.C102_dorian",
    "Mx.Props.C102_custom",
    "Mx.Props.C102_sharp_sharp"
   ],
   "note": "For clefs with a known line that is not below the staff, keys with mode major, minor or none, and non-empty lists of accidentals with at most six decimals; false in general (five witnesses)."
  },
  {
   "property": "C103",
   "status": "partial",
   "theorems": [
    "Mx.Props.C103_measures_partial",
    "Mx.Props.C103_gone",
    "Mx.Props.C103_rests"
   ],
   "note": "For measures with a number and a width that is none or not negative with at most six decimals, without non-controlling and multi-measure rests; false in general (two witnesses)."
  },
  {
   "property": "C104",
   "status": "partial",
   "theorems": [
    "Mx.Props.C104_transposition_partial",
    "Mx.Props.C104_sharp",
    "Mx.Props.C104_quarter_tone",
    "Mx.Props.C104_changes",
    "Mx.Props.C104_nothing"
   ],
   "note": "For whole semitones, totals up to a million, at most one transposition, at the beginning, whose steps are the usual ones or neither zero nor those of the whole octaves; false in general (four witnesses)."
  },
  {
   "property": "C105",
   "status": "partial",
   "theorems": [
    "Mx.Props.C105_header_partial",
    "Mx.Props.C105_creators",
    "Mx.Props.C105_no_type",
    "Mx.Props.C105_encoders",
    "Mx.Props.C105_credits"
   ],
   "note": "For files with at most one composer, lyricist (in this order), copyright, encoder, description and real date, and credits that are words of at most one type on canonical page numbers; everything else without condition; false in general (four witnesses)."
  },
  {
   "property": "C106",
   "status": "partial",
   "theorems": [
    "Mx.Props.C106_groups_partial",
    "Mx.Props.C106_for_ever_partial",
    "Mx.Props.C106_no_symbol",
    "Mx.Props.C106_abbreviation"
   ],
   "note": "For part lists in which groups have symbols, open groups have different numbers, stops have the number of an open group with a part in it, and there is a part for every score-part; false in general (two witnesses, and those of C29)."
  },
  {
   "property": "C107",
   "status": "partial",
   "theorems": [
    "Mx.Props.C107_score_part_partial",
    "Mx.Props.C107_for_ever_partial",
    "Mx.Props.C107_one_instrument",
    "Mx.Props.C107_midi_name_and_unpitched",
    "Mx.Props.C107_no_accidentals",
    "Mx.Props.C107_abbreviation_shown",
    "Mx.Props.C107_other_sound",
    "Mx.Props.C107_sound_alone"
   ],
   "note": "For score-parts with at most one instrument, a sound of the list, MIDI data for that instrument within the limits of MusicXML (no MIDI name, no unpitched note) and names without accidentals; false in general (six witnesses)."
  },
  {
   "property": "C108",
   "status": "partial",
   "theorems": [
    "Mx.Props.C108_layout_partial",
    "Mx.Props.C108_staves",
    "Mx.Props.C108_margins_invented",
    "Mx.Props.C108_negative_margins",
    "Mx.Props.C108_other_appearance",
    "Mx.Props.C108_two_prints"
   ],
   "note": "For lengths with at most six decimals, non-negative page margins, one staff distance, a top system distance with margins, no other appearances and at most one print element per measure; false in general (five witnesses)."
  },
  {
   "property": "C109",
   "status": "partial",
   "theorems": [
    "Mx.Props.C109_curves_partial",
    "Mx.Props.C109_for_ever_partial",
    "Mx.Props.C109_slurs_partial",
    "Mx.Props.C109_ties_grow",
    "Mx.Props.C109_line_of_a_stop",
    "Mx.Props.C109_second_point",
    "Mx.Props.C109_offset_rounded",
    "Mx.Props.C109_lower_case_color",
    "Mx.Props.C109_number_seven"
   ],
   "note": "For notes without tie flags (the slurs of all notes), numbers 1 to 6, lengths with at most six decimals, whole B\u00e9zier offsets, lines, colours and orientations where a curve starts only, second B\u00e9zier points of slurs only; false in general (six witnesses)."
  },
  {
   "property": "C110",
   "status": "partial",
   "theorems": [
    "Mx.Props.C110_tuplets_partial",
    "Mx.Props.C110_for_ever_partial",
    "Mx.Props.C110_position_lost",
    "Mx.Props.C110_no_position",
    "Mx.Props.C110_bracket_of_a_stop",
    "Mx.Props.C110_only_actual",
    "Mx.Props.C110_only_normal",
    "Mx.Props.C110_no_time_modification",
    "Mx.Props.C110_no_type"
   ],
   "note": "For tuplet numbers 1 to 6, no positions, no brackets where a tuplet ends, and both parts with number and type or neither on a note with a time modification and a type; show-type and line-shape are left out; false in general (six witnesses)."
  },
  {
   "property": "C111",
   "status": "partial",
   "theorems": [
    "Mx.Props.C111_marks_partial",
    "Mx.Props.C111_for_ever_partial",
    "Mx.Props.C111_fermata_place_lost",
    "Mx.Props.C111_bare",
    "Mx.Props.C111_technical_lost",
    "Mx.Props.C111_arpeggio_lost",
    "Mx.Props.C111_accidental_mark_lost",
    "Mx.Props.C111_double_tremolo_lost",
    "Mx.Props.C111_eight_slashes",
    "Mx.Props.C111_empty_ornament",
    "Mx.Props.C111_named_dynamic"
   ],
   "note": "For articulations, ornaments, tremolos of 1 to 5 slashes, twelve technical marks, dynamics and fermatas without a place; without colours and fonts; texts only of other marks; alignments only of dynamics; false in general (nine theorems; arpeggios, accidental marks, other technical marks, colours, fonts and places of fermatas are lost for all inputs)."
  },
  {
   "property": "C112",
   "status": "partial",
   "theorems": [
    "Mx.Props.C112_notations_partial",
    "Mx.Props.C112_for_ever_partial",
    "Mx.Props.C112_with_ties_partial",
    "Mx.Props.C112_others_lost"
   ],
   "note": "For what C109, C110 and C111 keep; ties only on notes without tie flags (with them slurs, tuplets and marks stay); slides, glissandos and other notations are lost (proved)."
  },
  {
   "property": "C113",
   "status": "partial",
   "theorems": [
    "Mx.Props.C113_whole_note_partial",
    "Mx.Props.C113_untied_partial",
    "Mx.Props.C113_curves_counted",
    "Mx.Props.C113_ties_grow"
   ],
   "note": "For what C97 and C112 keep; for tied notes the theorem says exactly which ties are added each time, and the property is false (witness)."
  },
  {
   "property": "C114",
   "status": "partial",
   "theorems": [
    "Mx.Props.C114_whole_notes_partial",
    "Mx.Props.C114_for_ever_partial",
    "Mx.Props.C114_untied_partial"
   ],
   "note": "For the files of C92 and the notes of C113; the ties that are added each time are stated exactly (C113_ties_grow is the witness that the full property is false)."
  }
 ]
}