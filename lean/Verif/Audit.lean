import Verif.Props.ApiDataProps
import Verif.Props.ApiEqualityProps
import Verif.Props.ApiQueryProps
import Verif.Props.AttributeProps
import Verif.Props.BarlineProps
import Verif.Props.ChordFileProps
import Verif.Props.ClefTimeProps
import Verif.Props.ColorProps
import Verif.Props.ContentProps
import Verif.Props.CurveFileProps
import Verif.Props.DateProps
import Verif.Props.DecimalProps
import Verif.Props.DirectionFileProps
import Verif.Props.DirectionProps
import Verif.Props.DirectionTimeProps
import Verif.Props.DocumentDataProps
import Verif.Props.DocumentProps
import Verif.Props.EnumProps
import Verif.Props.EzxmlProps
import Verif.Props.FloatPitchProps
import Verif.Props.FloatProps
import Verif.Props.FloatRealsProps
import Verif.Props.FloatTimesProps
import Verif.Props.HeaderFileProps
import Verif.Props.HeaderTextFileProps
import Verif.Props.InstrumentProps
import Verif.Props.IntegerProps
import Verif.Props.KeyTimeProps
import Verif.Props.LayoutFileProps
import Verif.Props.LayoutProps
import Verif.Props.LazyProps
import Verif.Props.LoadedProps
import Verif.Props.MarkFileProps
import Verif.Props.MarkProps
import Verif.Props.MeasureCompleteProps
import Verif.Props.MeasureProps
import Verif.Props.NotationFileProps
import Verif.Props.NotationProps
import Verif.Props.NoteFileProps
import Verif.Props.NoteProps
import Verif.Props.NotesThroughProps
import Verif.Props.OverflowProps
import Verif.Props.PartListFileProps
import Verif.Props.PartProps
import Verif.Props.PassThroughProps
import Verif.Props.ReaderProps
import Verif.Props.RoundTripProps
import Verif.Props.ScoreHeaderProps
import Verif.Props.ScorePartFileProps
import Verif.Props.ScoreSettlesProps
import Verif.Props.ScoreTimeProps
import Verif.Props.ScoreWritingProps
import Verif.Props.SettlesProps
import Verif.Props.SignatureFileProps
import Verif.Props.SignatureProps
import Verif.Props.StableProps
import Verif.Props.StaffProps
import Verif.Props.StringProps
import Verif.Props.SupportedProps
import Verif.Props.TimesFileProps
import Verif.Props.TupletFileProps
import Verif.Props.UnknownProps
import Verif.Props.WholeFileProps
import Verif.Props.WholeNoteProps
import Verif.Props.WholeNotesThroughProps
import Verif.Props.XmlBrokenProps
import Verif.Props.XmlCutProps
import Verif.Props.XmlFileProps
import Verif.Props.XmlSettingsProps

/-! The axioms every property theorem depends on (printed during the build). -/

#print axioms Mx.Props.C35_location_partial
#print axioms Mx.Props.C35_throws_on_empty
#print axioms Mx.Props.C35_no_staves_but_valid
#print axioms Mx.Props.C34_sorted_partial
#print axioms Mx.Props.C34_twice_times
#print axioms Mx.Props.C34_twice_partial
#print axioms Mx.Props.C34_keys_and_barlines_unsorted
#print axioms Mx.Props.C34_chord_order_not_kept
#print axioms Mx.Props.C57_measures
#print axioms Mx.Props.C57_find_part
#print axioms Mx.Props.C44_derived_partial
#print axioms Mx.Props.C44_derived_back_partial
#print axioms Mx.Props.C44_mixed_divisions_wrong
#print axioms Mx.Props.C44_names_never_derived
#print axioms Mx.Props.C44_tuplet_length
#print axioms Mx.Props.C44_tuplet_partial
#print axioms Mx.Props.C44_tuplet_found_partial
#print axioms Mx.Props.C44_tuplet_of_41
#print axioms Mx.Props.C44_dotted_always_wrong
#print axioms Mx.Props.C44_dotted_half_named_quarter
#print axioms Mx.Props.C75_equal_iff_agree_partial
#print axioms Mx.Props.C75_not_equal
#print axioms Mx.Props.C75_symmetric
#print axioms Mx.Props.C75_reflexive
#print axioms Mx.Props.C75_change_seen
#print axioms Mx.Props.C75_tables
#print axioms Mx.Props.C75_ignored
#print axioms Mx.Props.C75_words_ignored
#print axioms Mx.Props.C75_not_transitive
#print axioms Mx.Props.C75_nan
#print axioms Mx.Props.C75_empty_direction
#print axioms Mx.Props.C85_staves
#print axioms Mx.Props.C85_voices
#print axioms Mx.Props.C85_alter_value
#print axioms Mx.Props.C85_alter_same
#print axioms Mx.Props.C85_alter_document
#print axioms Mx.Props.C85_used
#print axioms Mx.Props.C85_print_written
#print axioms Mx.Props.C85_breaks
#print axioms Mx.Props.C85_time_equal
#print axioms Mx.Props.C85_bool
#print axioms Mx.Props.C85_tenths_per_inch
#print axioms Mx.Props.C85_no_scaling
#print axioms Mx.Props.C85_black_is_white
#print axioms Mx.Props.C85_black
#print axioms Mx.Props.C85_curve_points_partial
#print axioms Mx.Props.C85_curve_points
#print axioms Mx.Props.C85_line_partial
#print axioms Mx.Props.C85_line
#print axioms Mx.Props.C54_round_trip_partial
#print axioms Mx.Props.C54_elements_partial
#print axioms Mx.Props.C54_unknown_ignored
#print axioms Mx.Props.C54_required_partial
#print axioms Mx.Props.C54_tie_loses_second_handle
#print axioms Mx.Props.C54_dash_length_twice
#print axioms Mx.Props.C54_links_fail
#print axioms Mx.Props.C54_attributes_not_read
#print axioms Mx.Props.C54_bracket_unchecked
#print axioms Mx.Props.C55_written_partial
#print axioms Mx.Props.C55_covered_partial
#print axioms Mx.Props.C55_missing_real
#print axioms Mx.Props.C55_extra_real
#print axioms Mx.Props.C56_enum_accepted
#print axioms Mx.Props.C56_int_accepted_partial
#print axioms Mx.Props.C56_rejected_value_fails
#print axioms Mx.Props.C56_valid_but_rejected
#print axioms Mx.Props.C56_color_accepted
#print axioms Mx.Props.C96_round_trip
#print axioms Mx.Props.C96_saved_partial
#print axioms Mx.Props.C96_loaded_partial
#print axioms Mx.Props.C96_through_partial
#print axioms Mx.Props.C96_middle_moves
#print axioms Mx.Props.C96_middle_repeat
#print axioms Mx.Props.C96_endings_lost
#print axioms Mx.Props.C96_blank_ending
#print axioms Mx.Props.C96_short_barline
#print axioms Mx.Props.C96_no_location
#print axioms Mx.Props.C96_right_repeat
#print axioms Mx.Props.C100_chords_partial
#print axioms Mx.Props.C100_for_ever_partial
#print axioms Mx.Props.C100_functions
#print axioms Mx.Props.C100_degrees
#print axioms Mx.Props.C100_quarter_tones
#print axioms Mx.Props.C94_saved_partial
#print axioms Mx.Props.C94_loaded_partial
#print axioms Mx.Props.C94_through_partial
#print axioms Mx.Props.C94_between_notes
#print axioms Mx.Props.C94_second_voice
#print axioms Mx.Props.C94_short_last_voice
#print axioms Mx.Props.C94_between_notes_of_chord
#print axioms Mx.Props.C94_moved_by_saving
#print axioms Mx.Props.C15_color_channels
#print axioms Mx.Props.C15_color_round_trip
#print axioms Mx.Props.C15_color_text
#print axioms Mx.Props.C15_color_parse
#print axioms Mx.Props.C63_children_allowed
#print axioms Mx.Props.C63_document_valid_partial
#print axioms Mx.Props.C63_careless
#print axioms Mx.Props.C63_time_interchangeable
#print axioms Mx.Props.C64_everything_written_partial
#print axioms Mx.Props.C64_members_written_once
#print axioms Mx.Props.C64_sound
#print axioms Mx.Props.C65_limits
#print axioms Mx.Props.C109_curves_partial
#print axioms Mx.Props.C109_for_ever_partial
#print axioms Mx.Props.C109_slurs_partial
#print axioms Mx.Props.C109_ties_grow
#print axioms Mx.Props.C109_line_of_a_stop
#print axioms Mx.Props.C109_second_point
#print axioms Mx.Props.C109_offset_rounded
#print axioms Mx.Props.C109_lower_case_color
#print axioms Mx.Props.C109_number_seven
#print axioms Mx.Props.C11_date_always_valid
#print axioms Mx.Props.C11_date_overflow_only
#print axioms Mx.Props.C11_constructor_exact
#print axioms Mx.Props.C12_addDays
#print axioms Mx.Props.C12_dayNumber_injective
#print axioms Mx.Props.C12_addDays_inverse
#print axioms Mx.Props.C12_addDays_add
#print axioms Mx.Props.C12_weekday
#print axioms Mx.Props.C12_addMonths
#print axioms Mx.Props.C12_addYears
#print axioms Mx.Props.C13_parse_toString
#print axioms Mx.Props.C13_parse_iff
#print axioms Mx.Props.C13_toString_shape
#print axioms Mx.Props.C14_comparisons
#print axioms Mx.Props.C14_total_order
#print axioms Mx.Props.C18_range_invariant_partial
#print axioms Mx.Props.C18_never_negative_partial
#print axioms Mx.Props.C18_kept
#print axioms Mx.Props.C18_outside_becomes_bound
#print axioms Mx.Props.C18_positive_partial
#print axioms Mx.Props.C18_defined
#print axioms Mx.Props.C18_positive_decimal_can_be_zero
#print axioms Mx.Props.C18_huge_number_undefined
#print axioms Mx.Props.C19_text_is_nearest
#print axioms Mx.Props.C19_parse_back
#print axioms Mx.Props.C19_clamped_at_the_top
#print axioms Mx.Props.C19_carry_exceeds_maximum
#print axioms Mx.Props.C19_maximum_of_negative
#print axioms Mx.Props.C51_parse_accepts_numerals
#print axioms Mx.Props.C51_unambiguous
#print axioms Mx.Props.C99_direction_partial
#print axioms Mx.Props.C99_for_ever_partial
#print axioms Mx.Props.C99_wedge_numbers
#print axioms Mx.Props.C99_wedge_continue
#print axioms Mx.Props.C99_three_octaves
#print axioms Mx.Props.C99_gone
#print axioms Mx.Props.C99_called_p
#print axioms Mx.Props.C61_kept
#print axioms Mx.Props.C61_time
#print axioms Mx.Props.C61_direction_partial
#print axioms Mx.Props.C61_chord_partial
#print axioms Mx.Props.C61_not_written
#print axioms Mx.Props.C61_wedge_number_lost
#print axioms Mx.Props.C61_bracket_lost
#print axioms Mx.Props.C61_ottava_lost
#print axioms Mx.Props.C61_words_color_lost
#print axioms Mx.Props.C61_split
#print axioms Mx.Props.C61_harmony_staff_lost
#print axioms Mx.Props.C61_pedal_placement
#print axioms Mx.Props.C61_misc_doubles
#print axioms Mx.Props.C61_damp_all
#print axioms Mx.Props.C61_wedge_continue
#print axioms Mx.Props.C61_pedal_change
#print axioms Mx.Props.C41_ottava
#print axioms Mx.Props.C41_ottava_direction
#print axioms Mx.Props.C41_extension
#print axioms Mx.Props.C41_chord_kind
#print axioms Mx.Props.C41_degree_dropped
#print axioms Mx.Props.C62_write_partial
#print axioms Mx.Props.C62_read
#print axioms Mx.Props.C62_again_partial
#print axioms Mx.Props.C62_tempo
#print axioms Mx.Props.C62_tempo_text
#print axioms Mx.Props.C62_note_relation
#print axioms Mx.Props.C62_misc_name
#print axioms Mx.Props.C93_saved_partial
#print axioms Mx.Props.C93_loaded_partial
#print axioms Mx.Props.C93_through_partial
#print axioms Mx.Props.C93_in_first_chord
#print axioms Mx.Props.C93_chord_after_grace_note
#print axioms Mx.Props.C93_offset
#print axioms Mx.Props.C93_between_notes_of_chord
#print axioms Mx.Props.C93_moved_by_saving
#print axioms Mx.Props.C88_exactly
#print axioms Mx.Props.C88_any_time
#print axioms Mx.Props.C88_group_number
#print axioms Mx.Props.C88_clef_alone
#print axioms Mx.Props.C88_note_relation
#print axioms Mx.Props.C09_timewise_contents
#print axioms Mx.Props.C09_round_trip
#print axioms Mx.Props.C09_round_trip_exact
#print axioms Mx.Props.C09_attributes_of_last_part
#print axioms Mx.Props.C09_ragged_undefined
#print axioms Mx.Props.C09_unlisted_part_lost
#print axioms Mx.Props.C10_timewise_unchanged
#print axioms Mx.Props.C10_getData_repeatable
#print axioms Mx.Props.C10_rectangular_stable
#print axioms Mx.Props.C10_exception_leaves_partwise
#print axioms Mx.Props.C10_missing_part_is_added
#print axioms Mx.Props.C08_linearizable
#print axioms Mx.Props.C08_map
#print axioms Mx.Props.C08_no_deadlock
#print axioms Mx.Props.C07_ids_unique
#print axioms Mx.Props.C07_defined
#print axioms Mx.Props.C23_written_text
#print axioms Mx.Props.C23_read_text
#print axioms Mx.Props.C23_round_trip
#print axioms Mx.Props.C23_distinct_texts
#print axioms Mx.Props.C23_unknown_text
#print axioms Mx.Props.C24_api_values_partial
#print axioms Mx.Props.C24_core_values_partial
#print axioms Mx.Props.C24_fa_up_lost
#print axioms Mx.Props.C24_sharp_sharp_lost
#print axioms Mx.Props.C24_fingernails_lost
#print axioms Mx.Props.C24_sound_round_trip
#print axioms Mx.Props.C24_sound_text
#print axioms Mx.Props.C24_sound_never_unspecified
#print axioms Mx.Props.C53_histories_partial
#print axioms Mx.Props.C53_text_kept_partial
#print axioms Mx.Props.C53_written_text
#print axioms Mx.Props.C53_other_text_lost
#print axioms Mx.Props.C78_new_document
#print axioms Mx.Props.C78_any_document
#print axioms Mx.Props.C78_hidden_child
#print axioms Mx.Props.C78_instruction_value_lost
#print axioms Mx.Props.C78_value_goes_to_instruction
#print axioms Mx.Props.C78_remove_takes_instruction
#print axioms Mx.Props.C78_wrong_attribute
#print axioms Mx.Props.C83_pitch_text
#print axioms Mx.Props.C83_key_text
#print axioms Mx.Props.C83_pitch
#print axioms Mx.Props.C83_key
#print axioms Mx.Props.C83_whole_cents
#print axioms Mx.Props.C83_cents_depend_on_platform
#print axioms Mx.Props.C81_assign
#print axioms Mx.Props.C81_parse
#print axioms Mx.Props.C81_history
#print axioms Mx.Props.C81_get_set
#print axioms Mx.Props.C81_saved_loaded
#print axioms Mx.Props.C81_near
#print axioms Mx.Props.C81_large_numbers_change
#print axioms Mx.Props.C84_near
#print axioms Mx.Props.C84_stable
#print axioms Mx.Props.C84_exact
#print axioms Mx.Props.C84_tolerance
#print axioms Mx.Props.C84_exact_comparison_fails
#print axioms Mx.Props.C84_tiny_positive
#print axioms Mx.Props.C82_positions
#print axioms Mx.Props.C82_rounding
#print axioms Mx.Props.C82_exact
#print axioms Mx.Props.C82_score
#print axioms Mx.Props.C82_score_times
#print axioms Mx.Props.C82_half_ticks_depend_on_platform
#print axioms Mx.Props.C103_measures_partial
#print axioms Mx.Props.C103_gone
#print axioms Mx.Props.C103_rests
#print axioms Mx.Props.C104_transposition_partial
#print axioms Mx.Props.C104_sharp
#print axioms Mx.Props.C104_quarter_tone
#print axioms Mx.Props.C104_changes
#print axioms Mx.Props.C104_nothing
#print axioms Mx.Props.C105_header_partial
#print axioms Mx.Props.C105_creators
#print axioms Mx.Props.C105_no_type
#print axioms Mx.Props.C105_encoders
#print axioms Mx.Props.C105_credits
#print axioms Mx.Props.C47_part_head
#print axioms Mx.Props.C47_midi
#print axioms Mx.Props.C47_instrument_partial
#print axioms Mx.Props.C47_every_sound
#print axioms Mx.Props.C47_zero_becomes_one
#print axioms Mx.Props.C47_sound_alone_lost
#print axioms Mx.Props.C47_midi_name_lost
#print axioms Mx.Props.C47_midi_instrument_id_differs
#print axioms Mx.Props.C47_display_abbreviation_replaced
#print axioms Mx.Props.C47_sharp_text_lost
#print axioms Mx.Props.C47_unknown_sound_throws
#print axioms Mx.Props.C16_int_range_invariant
#print axioms Mx.Props.C16_int_clamp_nearest
#print axioms Mx.Props.C16_int_construct
#print axioms Mx.Props.C17_int_parse
#print axioms Mx.Props.C17_int_round_trip
#print axioms Mx.Props.C17_integer_round_trip
#print axioms Mx.Props.C95_saved_partial
#print axioms Mx.Props.C95_loaded_partial
#print axioms Mx.Props.C95_through_partial
#print axioms Mx.Props.C95_between_notes
#print axioms Mx.Props.C95_two_keys
#print axioms Mx.Props.C95_lost_key
#print axioms Mx.Props.C95_loses_staff
#print axioms Mx.Props.C95_short_last_voice
#print axioms Mx.Props.C95_between_notes_of_chord
#print axioms Mx.Props.C95_non_traditional
#print axioms Mx.Props.C95_moved_by_saving
#print axioms Mx.Props.C108_layout_partial
#print axioms Mx.Props.C108_staves
#print axioms Mx.Props.C108_margins_invented
#print axioms Mx.Props.C108_negative_margins
#print axioms Mx.Props.C108_other_appearance
#print axioms Mx.Props.C108_two_prints
#print axioms Mx.Props.C46_defaults
#print axioms Mx.Props.C46_page_layout_partial
#print axioms Mx.Props.C46_system_layout_partial
#print axioms Mx.Props.C46_defaults_partial
#print axioms Mx.Props.C46_unspecified
#print axioms Mx.Props.C46_layouts
#print axioms Mx.Props.C46_layouts_partial
#print axioms Mx.Props.C46_size_fabricated
#print axioms Mx.Props.C46_margins_fabricated
#print axioms Mx.Props.C46_staff_distance_lost
#print axioms Mx.Props.C46_measure_numbering_lost
#print axioms Mx.Props.C46_other_appearance_lost
#print axioms Mx.Props.C46_scaling_not_compared
#print axioms Mx.Props.C46_untyped_margins
#print axioms Mx.Props.C77_no_race
#print axioms Mx.Props.C77_same_object
#print axioms Mx.Props.C77_no_deadlock
#print axioms Mx.Props.C77_looks_same
#print axioms Mx.Props.C77_setter_race
#print axioms Mx.Props.C77_lock_needed
#print axioms Mx.Props.C68_saved_partial
#print axioms Mx.Props.C68_element_partial
#print axioms Mx.Props.C68_others
#print axioms Mx.Props.C68_not_valid
#print axioms Mx.Props.C111_marks_partial
#print axioms Mx.Props.C111_for_ever_partial
#print axioms Mx.Props.C111_fermata_place_lost
#print axioms Mx.Props.C111_bare
#print axioms Mx.Props.C111_technical_lost
#print axioms Mx.Props.C111_arpeggio_lost
#print axioms Mx.Props.C111_accidental_mark_lost
#print axioms Mx.Props.C111_double_tremolo_lost
#print axioms Mx.Props.C111_eight_slashes
#print axioms Mx.Props.C111_empty_ornament
#print axioms Mx.Props.C111_named_dynamic
#print axioms Mx.Props.C38_at_most_one
#print axioms Mx.Props.C38_tremolo_is_ornament
#print axioms Mx.Props.C38_slashes
#print axioms Mx.Props.C38_slashes_unique
#print axioms Mx.Props.C38_complete
#print axioms Mx.Props.C38_others_apart
#print axioms Mx.Props.C41_marks
#print axioms Mx.Props.C41_marks_partial
#print axioms Mx.Props.C41_mark_partial
#print axioms Mx.Props.C41_fermata
#print axioms Mx.Props.C41_fermata_parts
#print axioms Mx.Props.C41_mark_order_lost
#print axioms Mx.Props.C41_marks_not_written
#print axioms Mx.Props.C41_arpeggio_not_written
#print axioms Mx.Props.C41_accidental_mark_not_written
#print axioms Mx.Props.C41_fingernails_lost
#print axioms Mx.Props.C41_fingernails_not_read
#print axioms Mx.Props.C41_fermata_position_lost
#print axioms Mx.Props.C41_print_data_lost
#print axioms Mx.Props.C41_dynamic_color_lost
#print axioms Mx.Props.C41_named_dynamic_changed
#print axioms Mx.Props.C41_custom_name_changed
#print axioms Mx.Props.C41_tremolo_between
#print axioms Mx.Props.C41_tremolo_read
#print axioms Mx.Props.C41_no_slashes
#print axioms Mx.Props.C41_many_slashes
#print axioms Mx.Props.C42_print
#print axioms Mx.Props.C42_print_partial
#print axioms Mx.Props.C42_print_object_lost
#print axioms Mx.Props.C42_lines_limited
#print axioms Mx.Props.C42_family_comma_splits
#print axioms Mx.Props.C42_empty_family_lost
#print axioms Mx.Props.C71_notes
#print axioms Mx.Props.C71_directions
#print axioms Mx.Props.C71_clefs
#print axioms Mx.Props.C71_barlines
#print axioms Mx.Props.C71_keys_read
#print axioms Mx.Props.C71_keys_written_partial
#print axioms Mx.Props.C71_staff_keys_written
#print axioms Mx.Props.C49_outer_barlines_unchanged
#print axioms Mx.Props.C49_no_barline_lost
#print axioms Mx.Props.C50_clefs_of_each_staff_kept
#print axioms Mx.Props.C45_direction_moves_after_mixed_chord
#print axioms Mx.Props.C71_second_key_change_lost
#print axioms Mx.Props.C71_key_change_for_all_staves
#print axioms Mx.Props.C01_written_measure_places_notes_partial
#print axioms Mx.Props.C01_unequal_chord_misplaces_next_note
#print axioms Mx.Props.C01_note_beside_chord_is_misplaced
#print axioms Mx.Props.C01_grace_chord_swallows_chord
#print axioms Mx.Props.C01_zero_length_note_shifts_the_rest
#print axioms Mx.Props.C02_read_positions_partial
#print axioms Mx.Props.C02_rounding
#print axioms Mx.Props.C02_rounding_adds_up
#print axioms Mx.Props.C02_unequal_chord
#print axioms Mx.Props.C02_chord_same_position
#print axioms Mx.Props.C04_read_time_not_negative
#print axioms Mx.Props.C33_no_note_lost
#print axioms Mx.Props.C33_order_in_voice_kept
#print axioms Mx.Props.C33_voice_numbers_honoured
#print axioms Mx.Props.C33_inconsistent_numbers_are_replaced
#print axioms Mx.Props.C112_notations_partial
#print axioms Mx.Props.C112_for_ever_partial
#print axioms Mx.Props.C112_with_ties_partial
#print axioms Mx.Props.C112_others_lost
#print axioms Mx.Props.C42_position
#print axioms Mx.Props.C42_position_partial
#print axioms Mx.Props.C42_alignment_lost
#print axioms Mx.Props.C42_color
#print axioms Mx.Props.C42_color_kept
#print axioms Mx.Props.C42_curves
#print axioms Mx.Props.C42_curves_partial
#print axioms Mx.Props.C42_placement_lost
#print axioms Mx.Props.C42_hook_lost
#print axioms Mx.Props.C42_tie_handle_lost
#print axioms Mx.Props.C42_number_limited
#print axioms Mx.Props.C42_unspecified_becomes_tie_start
#print axioms Mx.Props.C42_offset_undefined
#print axioms Mx.Props.C59_rounds
#print axioms Mx.Props.C59_stable_partial
#print axioms Mx.Props.C59_ties_multiply
#print axioms Mx.Props.C41_tuplet
#print axioms Mx.Props.C41_tuplet_stop
#print axioms Mx.Props.C41_tuplet_partial
#print axioms Mx.Props.C41_tuplet_defaults_changed
#print axioms Mx.Props.C41_tuplet_position_lost
#print axioms Mx.Props.C41_tuplet_dots_changed
#print axioms Mx.Props.C41_tuplet_guess
#print axioms Mx.Props.C41_tuplet_guess_notes
#print axioms Mx.Props.C41_tuplet_guess_type
#print axioms Mx.Props.C41_tuplet_guess_swapped
#print axioms Mx.Props.C97_note_partial
#print axioms Mx.Props.C97_type_invented
#print axioms Mx.Props.C97_measure_rest_type
#print axioms Mx.Props.C97_display_lost
#print axioms Mx.Props.C97_accidental_marks
#print axioms Mx.Props.C97_sharp_sharp
#print axioms Mx.Props.C97_normal_type
#print axioms Mx.Props.C97_beam_gap
#print axioms Mx.Props.C97_beam_lost
#print axioms Mx.Props.C58_note
#print axioms Mx.Props.C58_details_partial
#print axioms Mx.Props.C58_second_round
#print axioms Mx.Props.C58_accidental_marks_lost
#print axioms Mx.Props.C58_display_lost
#print axioms Mx.Props.C58_unspecified_name_becomes_maxima
#print axioms Mx.Props.C58_is_tied_lost
#print axioms Mx.Props.C58_normal_type_lost
#print axioms Mx.Props.C58_fa_up_lost
#print axioms Mx.Props.C58_show_accidental
#print axioms Mx.Props.C58_shown_accidental
#print axioms Mx.Props.C58_hidden_accidental
#print axioms Mx.Props.C30_pitch_partial
#print axioms Mx.Props.C30_octave_limited
#print axioms Mx.Props.C30_opposite_cents_changed
#print axioms Mx.Props.C31_beams_partial
#print axioms Mx.Props.C31_beams
#print axioms Mx.Props.C31_numbers
#print axioms Mx.Props.C31_any_order
#print axioms Mx.Props.C98_same_notes_partial
#print axioms Mx.Props.C98_for_ever_partial
#print axioms Mx.Props.C80_writing
#print axioms Mx.Props.C80_written_notes
#print axioms Mx.Props.C80_written_at_the_end_undefined
#print axioms Mx.Props.C80_two_long_staves_undefined
#print axioms Mx.Props.C80_negative_times_undefined
#print axioms Mx.Props.C80_reading_partial
#print axioms Mx.Props.C80_read_notes
#print axioms Mx.Props.C80_long_note_undefined
#print axioms Mx.Props.C80_two_long_notes_undefined
#print axioms Mx.Props.C80_scaled_note_undefined
#print axioms Mx.Props.C80_divisions_and_offset_undefined
#print axioms Mx.Props.C80_small_divisions_undefined
#print axioms Mx.Props.C106_groups_partial
#print axioms Mx.Props.C106_for_ever_partial
#print axioms Mx.Props.C106_no_symbol
#print axioms Mx.Props.C106_abbreviation
#print axioms Mx.Props.C29_part_groups
#print axioms Mx.Props.C29_part_groups_partial
#print axioms Mx.Props.C29_every_group
#print axioms Mx.Props.C29_part_list_text
#print axioms Mx.Props.C29_texts_lost
#print axioms Mx.Props.C29_unspecified_bracket_indeterminate
#print axioms Mx.Props.C29_default_group_undefined
#print axioms Mx.Props.C29_equality_ignores_number
#print axioms Mx.Props.C29_same_number_swaps
#print axioms Mx.Props.C29_missing_part_shifts
#print axioms Mx.Props.C29_named_number_throws
#print axioms Mx.Props.C29_unstopped_group_lost
#print axioms Mx.Props.C29_stop_matches
#print axioms Mx.Props.C92_same_music_partial
#print axioms Mx.Props.C92_for_ever_partial
#print axioms Mx.Props.C92_grace_chord
#print axioms Mx.Props.C92_second_time
#print axioms Mx.Props.C66_read_back_partial
#print axioms Mx.Props.C66_document_partial
#print axioms Mx.Props.C66_other_root
#print axioms Mx.Props.C66_complaints
#print axioms Mx.Props.C66_complaint_fatal
#print axioms Mx.Props.C66_losses
#print axioms Mx.Props.C03_measure_round_trip_partial
#print axioms Mx.Props.C03_measure_unchanged_partial
#print axioms Mx.Props.C03_single_chord_note_loses_flag
#print axioms Mx.Props.C03_consecutive_voices_are_merged
#print axioms Mx.Props.C03_overlapping_notes_are_separated
#print axioms Mx.Props.C45_directions_keep_time_partial
#print axioms Mx.Props.C49_outer_barlines_unchanged_partial
#print axioms Mx.Props.C49_no_barline_lost_partial
#print axioms Mx.Props.C49_middle_barline_moves
#print axioms Mx.Props.C50_clefs_of_each_staff_kept_partial
#print axioms Mx.Props.C50_clef_inside_note_moves
#print axioms Mx.Props.C70_exact
#print axioms Mx.Props.C70_unchanged_partial
#print axioms Mx.Props.C70_texts
#print axioms Mx.Props.C70_date
#print axioms Mx.Props.C70_date_written
#print axioms Mx.Props.C70_creators
#print axioms Mx.Props.C70_loaded_stable
#print axioms Mx.Props.C70_arranger_lost
#print axioms Mx.Props.C70_arranger_as_lyricist
#print axioms Mx.Props.C70_date_changed
#print axioms Mx.Props.C70_date_invented
#print axioms Mx.Props.C107_score_part_partial
#print axioms Mx.Props.C107_for_ever_partial
#print axioms Mx.Props.C107_one_instrument
#print axioms Mx.Props.C107_midi_name_and_unpitched
#print axioms Mx.Props.C107_no_accidentals
#print axioms Mx.Props.C107_abbreviation_shown
#print axioms Mx.Props.C107_other_sound
#print axioms Mx.Props.C107_sound_alone
#print axioms Mx.Props.C91_first_load
#print axioms Mx.Props.C91_loads_ever_after
#print axioms Mx.Props.C91_settles
#print axioms Mx.Props.C91_settles_numbers
#print axioms Mx.Props.C91_any_file
#print axioms Mx.Props.C91_late_clef_fails
#print axioms Mx.Props.C06_gcd
#print axioms Mx.Props.C06_gcd_smallest
#print axioms Mx.Props.C06_gcd_list
#print axioms Mx.Props.C06_gcd_list_zeros
#print axioms Mx.Props.C06_gcd_list_short
#print axioms Mx.Props.C06_lcm
#print axioms Mx.Props.C06_lcm_set
#print axioms Mx.Props.C06_lcm_set_zero
#print axioms Mx.Props.C05_scale_is_least_common_multiple
#print axioms Mx.Props.C05_rescaling_is_exact
#print axioms Mx.Props.C05_score_times_partial
#print axioms Mx.Props.C05_missing_divisions
#print axioms Mx.Props.C05_small_divisions_undefined
#print axioms Mx.Props.C05_scale_overflow
#print axioms Mx.Props.C89_throws
#print axioms Mx.Props.C89_written
#print axioms Mx.Props.C89_loaded
#print axioms Mx.Props.C89_text_tempo
#print axioms Mx.Props.C89_default_tempo
#print axioms Mx.Props.C90_once
#print axioms Mx.Props.C90_numbers_once
#print axioms Mx.Props.C90_loaded
#print axioms Mx.Props.C90_any
#print axioms Mx.Props.C90_numbers
#print axioms Mx.Props.C90_twice_needed
#print axioms Mx.Props.C102_clef_partial
#print axioms Mx.Props.C102_clef_written
#print axioms Mx.Props.C102_key_partial
#print axioms Mx.Props.C102_key_staff_partial
#print axioms Mx.Props.C102_key_no_staff
#print axioms Mx.Props.C102_line_invented
#print axioms Mx.Props.C102_line_below
#print axioms Mx.Props.C102_dorian
#print axioms Mx.Props.C102_custom
#print axioms Mx.Props.C102_sharp_sharp
#print axioms Mx.Props.C28_transposition_partial
#print axioms Mx.Props.C28_usual_part
#print axioms Mx.Props.C28_read
#print axioms Mx.Props.C28_sharp_transposition_changed
#print axioms Mx.Props.C28_augmented_octave_changed
#print axioms Mx.Props.C28_smallest_int_undefined
#print axioms Mx.Props.C39_setter
#print axioms Mx.Props.C39_predicate
#print axioms Mx.Props.C39_clef_partial
#print axioms Mx.Props.C39_no_staff
#print axioms Mx.Props.C39_soprano_lines_wrong
#print axioms Mx.Props.C39_true_clefs
#print axioms Mx.Props.C39_location_lost
#print axioms Mx.Props.C39_line_invented
#print axioms Mx.Props.C40_traditional_partial
#print axioms Mx.Props.C40_custom_partial
#print axioms Mx.Props.C40_dorian_unspecified
#print axioms Mx.Props.C40_unsupported_lost
#print axioms Mx.Props.C40_custom_staff_lost
#print axioms Mx.Props.C40_mixed_signs_changed
#print axioms Mx.Props.C32_read_partial
#print axioms Mx.Props.C32_stated
#print axioms Mx.Props.C32_written
#print axioms Mx.Props.C32_write_read
#print axioms Mx.Props.C32_same_list
#print axioms Mx.Props.C32_compound_meter_ignored
#print axioms Mx.Props.C32_senza_misura_ignored
#print axioms Mx.Props.C43_measure
#print axioms Mx.Props.C43_written
#print axioms Mx.Props.C76_tidy
#print axioms Mx.Props.C76_valid
#print axioms Mx.Props.C76_often
#print axioms Mx.Props.C76_file
#print axioms Mx.Props.C76_not_stable
#print axioms Mx.Props.C48_same_staves_in_every_measure
#print axioms Mx.Props.C48_notes_on_their_staff
#print axioms Mx.Props.C48_directions_on_their_staff
#print axioms Mx.Props.C48_clefs_and_keys_on_their_staff
#print axioms Mx.Props.C48_every_part_loads
#print axioms Mx.Props.C48_clef_alone_fails
#print axioms Mx.Props.C60_part_round_trip_partial
#print axioms Mx.Props.C60_score_round_trip_partial
#print axioms Mx.Props.C60_same_id_loses_part
#print axioms Mx.Props.C60_similar_id_loses_part
#print axioms Mx.Props.C60_empty_not_kept
#print axioms Mx.Props.C60_later_staff_lost
#print axioms Mx.Props.C25_token_is_words
#print axioms Mx.Props.C25_token_normalised
#print axioms Mx.Props.C25_normalised_kept
#print axioms Mx.Props.C25_idempotent
#print axioms Mx.Props.C25_words_preserved
#print axioms Mx.Props.C26_no_markup
#print axioms Mx.Props.C26_unescape
#print axioms Mx.Props.C26_injective
#print axioms Mx.Props.C52_content_partial
#print axioms Mx.Props.C52_attribute_partial
#print axioms Mx.Props.C52_reading_unique
#print axioms Mx.Props.C52_quote_breaks_attribute
#print axioms Mx.Props.C52_line_ends_change
#print axioms Mx.Props.C27_legal_name_partial
#print axioms Mx.Props.C27_legal_names_kept
#print axioms Mx.Props.C27_illegal_name
#print axioms Mx.Props.C20_invariant
#print axioms Mx.Props.C20_set_values
#print axioms Mx.Props.C20_round_trip
#print axioms Mx.Props.C20_parse_numbers
#print axioms Mx.Props.C20_spaces_are_dropped
#print axioms Mx.Props.C21_round_trip_partial
#print axioms Mx.Props.C21_direct_round_trip_partial
#print axioms Mx.Props.C21_trailing_empty_token_lost
#print axioms Mx.Props.C21_escapes_not_resolved
#print axioms Mx.Props.C36_canonical_partial
#print axioms Mx.Props.C36_defined
#print axioms Mx.Props.C36_overflow_undefined
#print axioms Mx.Props.C37_misc_data_partial
#print axioms Mx.Props.C37_without_commas_partial
#print axioms Mx.Props.C37_spaces_and_empty_strings_lost
#print axioms Mx.Props.C22_font_size_round_trip
#print axioms Mx.Props.C22_font_size_rejects
#print axioms Mx.Props.C22_yes_no_number_round_trip
#print axioms Mx.Props.C22_yes_no_number_rejects
#print axioms Mx.Props.C22_number_or_normal_round_trip
#print axioms Mx.Props.C22_number_or_normal_accepts_junk
#print axioms Mx.Props.C22_positive_integer_or_empty_round_trip
#print axioms Mx.Props.C22_positive_integer_or_empty_accepts_junk
#print axioms Mx.Props.C67_element_partial
#print axioms Mx.Props.C67_partwise_partial
#print axioms Mx.Props.C67_timewise_partial
#print axioms Mx.Props.C67_supported_valid
#print axioms Mx.Props.C67_supported_all
#print axioms Mx.Props.C67_refused
#print axioms Mx.Props.C67_changed
#print axioms Mx.Props.C67_each_narrowed
#print axioms Mx.Props.C101_times_partial
#print axioms Mx.Props.C101_for_ever_partial
#print axioms Mx.Props.C101_sum_of_meters
#print axioms Mx.Props.C101_gone
#print axioms Mx.Props.C101_two_staves
#print axioms Mx.Props.C101_second_change
#print axioms Mx.Props.C101_symbol
#print axioms Mx.Props.C110_tuplets_partial
#print axioms Mx.Props.C110_for_ever_partial
#print axioms Mx.Props.C110_position_lost
#print axioms Mx.Props.C110_no_position
#print axioms Mx.Props.C110_bracket_of_a_stop
#print axioms Mx.Props.C110_only_actual
#print axioms Mx.Props.C110_only_normal
#print axioms Mx.Props.C110_no_time_modification
#print axioms Mx.Props.C110_no_type
#print axioms Mx.Props.C69_refused
#print axioms Mx.Props.C69_partwise
#print axioms Mx.Props.C69_timewise
#print axioms Mx.Props.C69_ignored
#print axioms Mx.Props.C69_ignored_written
#print axioms Mx.Props.C69_misspelt
#print axioms Mx.Props.C69_torn
#print axioms Mx.Props.C74_loaded_and_saved_partial
#print axioms Mx.Props.C74_built_and_saved_partial
#print axioms Mx.Props.C113_whole_note_partial
#print axioms Mx.Props.C113_untied_partial
#print axioms Mx.Props.C113_curves_counted
#print axioms Mx.Props.C113_ties_grow
#print axioms Mx.Props.C114_whole_notes_partial
#print axioms Mx.Props.C114_for_ever_partial
#print axioms Mx.Props.C114_untied_partial
#print axioms Mx.Props.C87_refused_partial
#print axioms Mx.Props.C87_end_tag
#print axioms Mx.Props.C87_not_ended
#print axioms Mx.Props.C87_attribute_twice
#print axioms Mx.Props.C87_raw_characters
#print axioms Mx.Props.C87_unknown_reference
#print axioms Mx.Props.C87_misplaced
#print axioms Mx.Props.C87_behind_nul
#print axioms Mx.Props.C86_cut_file
#print axioms Mx.Props.C86_cut_in_root
#print axioms Mx.Props.C86_cut_saved
#print axioms Mx.Props.C86_cut_saved_refused
#print axioms Mx.Props.C86_appended
#print axioms Mx.Props.C86_text_behind
#print axioms Mx.Props.C86_second_root_ignored
#print axioms Mx.Props.C72_load_save_partial
#print axioms Mx.Props.C72_nothing_lost
#print axioms Mx.Props.C72_saved_is_well_formed
#print axioms Mx.Props.C72_layout_irrelevant
#print axioms Mx.Props.C72_saved_again
#print axioms Mx.Props.C72_different_texts
#print axioms Mx.Props.C73_any_spelling_partial
#print axioms Mx.Props.C72_quote_not_saved
#print axioms Mx.Props.C72_quote_adds_attribute
#print axioms Mx.Props.C72_loaded_but_not_saved
#print axioms Mx.Props.C72_instruction_breaks_out
#print axioms Mx.Props.C72_control_characters
#print axioms Mx.Props.C73_comment_cuts_text
#print axioms Mx.Props.C73_section_cuts_text
#print axioms Mx.Props.C73_blank_text
#print axioms Mx.Props.C79_new
#print axioms Mx.Props.C79_calls
#print axioms Mx.Props.C79_load
#print axioms Mx.Props.C79_save_load
#print axioms Mx.Props.C79_same_document
#print axioms Mx.Props.C79_always_utf8
#print axioms Mx.Props.C79_other_version
#print axioms Mx.Props.C79_second_doctype
