{
 "claims": [
  {
   "property": "C01",
   "status": "proved",
   "theorems": [
    "Verif.Props.C01_strict_accepts_iff_grammar",
    "Verif.Props.C01_decomposition_unique"
   ],
   "note": ""
  },
  {
   "property": "C02",
   "status": "proved",
   "theorems": [
    "Verif.Props.C02_exactly_one",
    "Verif.Props.C02_exactly_one_any_state",
    "Verif.Props.C02_parser_same_as_machine"
   ],
   "note": "history independence is C06"
  },
  {
   "property": "C03",
   "status": "proved",
   "theorems": [
    "Verif.Props.C03_partial_message_iff"
   ],
   "note": ""
  },
  {
   "property": "C04",
   "status": "proved",
   "theorems": [
    "Verif.Props.C04_success_same",
    "Verif.Props.C04_error_same"
   ],
   "note": ""
  },
  {
   "property": "C05",
   "status": "proved",
   "theorems": [
    "Verif.Props.C05_returned_valid"
   ],
   "note": ""
  },
  {
   "property": "C06",
   "status": "proved",
   "theorems": [
    "Verif.Props.C06_history_independent",
    "Verif.Props.C06_state_independent"
   ],
   "note": ""
  },
  {
   "property": "C07",
   "status": "proved",
   "theorems": [
    "Verif.Props.C07_field_bounds"
   ],
   "note": ""
  },
  {
   "property": "C08",
   "status": "proved",
   "theorems": [
    "Verif.Props.C08_timestamp_is_written_and_real",
    "Verif.Props.C08_impossible_date_refused"
   ],
   "note": ""
  },
  {
   "property": "C09",
   "status": "proved",
   "theorems": [
    "Verif.Props.C09_duplicate_id_refused",
    "Verif.Props.C09_one_entry_per_element"
   ],
   "note": ""
  },
  {
   "property": "C10",
   "status": "proved",
   "theorems": [
    "Verif.Props.C10_values_unescaped"
   ],
   "note": ""
  },
  {
   "property": "C100",
   "status": "proved",
   "theorems": [
    "Verif.Props.C100_rfc5424",
    "Verif.Props.C100_rfc3164",
    "Verif.Props.C100_rfc5424_history",
    "Verif.Props.C100_rfc3164_history",
    "Verif.Props.C100_rfc5424_accepts_iff",
    "Verif.Props.C100_rfc3164_accepts_iff"
   ],
   "note": ""
  },
  {
   "property": "C101",
   "status": "proved",
   "theorems": [
    "Verif.Props.C101_set",
    "Verif.Props.C101_setters",
    "Verif.Props.C101_setters_return",
    "Verif.Props.C101_exec",
    "Verif.Props.C101_lines"
   ],
   "note": ""
  },
  {
   "property": "C102",
   "status": "proved",
   "theorems": [
    "Verif.Props.C102_ranges",
    "Verif.Props.C102_decimal",
    "Verif.Props.C102_escape",
    "Verif.Props.C102_remove_any",
    "Verif.Props.C102_remove",
    "Verif.Props.C102_base_valid",
    "Verif.Props.C102_valid5",
    "Verif.Props.C102_compute",
    "Verif.Props.C102_texts",
    "Verif.Props.C102_export5",
    "Verif.Props.C102_export3"
   ],
   "note": ""
  },
  {
   "property": "C103",
   "status": "proved",
   "theorems": [
    "Verif.Props.C103_options",
    "Verif.Props.C103_parse",
    "Verif.Props.C103_hasBestEffort",
    "Verif.Props.C103_texts"
   ],
   "note": ""
  },
  {
   "property": "C104",
   "status": "proved",
   "theorems": [
    "Verif.Props.C104_entry",
    "Verif.Props.C104_string",
    "Verif.Props.C104_setter",
    "Verif.Props.C104_chain"
   ],
   "note": ""
  },
  {
   "property": "C105",
   "status": "proved",
   "theorems": [
    "Verif.Props.C105_options",
    "Verif.Props.C105_rfc5424",
    "Verif.Props.C105_rfc3164",
    "Verif.Props.C105_lock",
    "Verif.Props.C105_machine"
   ],
   "note": ""
  },
  {
   "property": "C106",
   "status": "proved",
   "theorems": [
    "Verif.Props.C106_parser",
    "Verif.Props.C106_history",
    "Verif.Props.C106_trailers",
    "Verif.Props.C106_trailer_names"
   ],
   "note": ""
  },
  {
   "property": "C107",
   "status": "proved",
   "theorems": [
    "Verif.Props.C107_chain",
    "Verif.Props.C107_built",
    "Verif.Props.C107_independent",
    "Verif.Props.C107_new_is_independent",
    "Verif.Props.C107_copy",
    "Verif.Props.C107_copy_back",
    "Verif.Props.C107_copy_nil"
   ],
   "note": ""
  },
  {
   "property": "C108",
   "status": "proved",
   "theorems": [
    "Verif.Props.C108_rfc5424",
    "Verif.Props.C108_rfc3164",
    "Verif.Props.C108_octet",
    "Verif.Props.C108_octet_messages",
    "Verif.Props.C108_lines"
   ],
   "note": ""
  },
  {
   "property": "C109",
   "status": "proved",
   "theorems": [
    "Verif.Props.C109_values",
    "Verif.Props.C109_program",
    "Verif.Props.C109_parse",
    "Verif.Props.C109_kept"
   ],
   "note": ""
  },
  {
   "property": "C11",
   "status": "proved",
   "theorems": [
    "Verif.Props.C11_msg_verbatim",
    "Verif.Props.C11_no_msg",
    "Verif.Props.C11_every"
   ],
   "note": ""
  },
  {
   "property": "C110",
   "status": "proved",
   "theorems": [
    "Verif.Props.C110_values",
    "Verif.Props.C110_program",
    "Verif.Props.C110_parse3",
    "Verif.Props.C110_kept"
   ],
   "note": ""
  },
  {
   "property": "C111",
   "status": "proved",
   "theorems": [
    "Verif.Props.C111_values",
    "Verif.Props.C111_program",
    "Verif.Props.C111_results",
    "Verif.Props.C111_kept"
   ],
   "note": ""
  },
  {
   "property": "C112",
   "status": "proved",
   "theorems": [
    "Verif.Props.C112_values",
    "Verif.Props.C112_program",
    "Verif.Props.C112_own",
    "Verif.Props.C112_kept"
   ],
   "note": ""
  },
  {
   "property": "C113",
   "status": "proved",
   "theorems": [
    "Verif.Props.C113_every_history",
    "Verif.Props.C113_without_panic",
    "Verif.Props.C113_prefix",
    "Verif.Props.C113_next_call"
   ],
   "note": ""
  },
  {
   "property": "C114",
   "status": "proved",
   "theorems": [
    "Verif.Props.C114_every_history"
   ],
   "note": ""
  },
  {
   "property": "C115",
   "status": "proved",
   "theorems": [
    "Verif.Props.C115_every_stream",
    "Verif.Props.C115_one_outcome",
    "Verif.Props.C115_consumed",
    "Verif.Props.C115_stuck",
    "Verif.Props.C115_frames",
    "Verif.Props.C115_other_between"
   ],
   "note": ""
  },
  {
   "property": "C116",
   "status": "proved",
   "theorems": [
    "Verif.Props.C116_every_stream",
    "Verif.Props.C116_one_list"
   ],
   "note": ""
  },
  {
   "property": "C117",
   "status": "proved",
   "theorems": [
    "Verif.Props.C117_octet_every_history",
    "Verif.Props.C117_octet_results",
    "Verif.Props.C117_lines_every_history",
    "Verif.Props.C117_everything_once",
    "Verif.Props.C117_reported",
    "Verif.Props.C117_last_one_set",
    "Verif.Props.C117_from_inside"
   ],
   "note": ""
  },
  {
   "property": "C118",
   "status": "proved",
   "theorems": [
    "Verif.Props.C118_panicking_listener"
   ],
   "note": "That a caller goes on with the same *bufio.Reader after the panic is on the model only (C91)."
  },
  {
   "property": "C119",
   "status": "proved",
   "theorems": [
    "Verif.Props.C119_panicking_reader",
    "Verif.Props.C119_not_swallowed"
   ],
   "note": "The state of the parser after the panic is not part of this."
  },
  {
   "property": "C12",
   "status": "proved",
   "theorems": [
    "Verif.Props.C12_compliant_accepts_iff",
    "Verif.Props.C12_refused"
   ],
   "note": ""
  },
  {
   "property": "C13",
   "status": "proved",
   "theorems": [
    "Verif.Props.C13_column_in_range"
   ],
   "note": ""
  },
  {
   "property": "C14",
   "status": "proved",
   "theorems": [
    "Verif.Props.C14_error_decided_by_prefix"
   ],
   "note": ""
  },
  {
   "property": "C15",
   "status": "proved",
   "theorems": [
    "Verif.Props.C15_no_panic"
   ],
   "note": ""
  },
  {
   "property": "C16",
   "status": "proved",
   "theorems": [
    "Verif.Props.C16_concurrent_parse",
    "Verif.Props.C16_no_deadlock",
    "Verif.Props.C16_rfc3164_concurrent_parse",
    "Verif.Props.C16_rfc3164_no_deadlock"
   ],
   "note": "Interleaving model, any number of goroutines and calls; mutual exclusion is part of the theorem."
  },
  {
   "property": "C17",
   "status": "proved",
   "theorems": [
    "Verif.Props.C17_decomposition",
    "Verif.Props.C17_valid_iff",
    "Verif.Props.C17_lookups",
    "Verif.Props.C17_names",
    "Verif.Props.C17_names_identify"
   ],
   "note": ""
  },
  {
   "property": "C18",
   "status": "proved",
   "theorems": [
    "Verif.Props.C18_decimal_value",
    "Verif.Props.C18_inverse_of_printing"
   ],
   "note": ""
  },
  {
   "property": "C19",
   "status": "proved",
   "theorems": [
    "Verif.Props.C19_remove_exactly"
   ],
   "note": ""
  },
  {
   "property": "C20",
   "status": "proved",
   "theorems": [
    "Verif.Props.C20_escape_safe_and_reversible",
    "Verif.Props.C20_unescaping_is_a_function"
   ],
   "note": ""
  },
  {
   "property": "C21",
   "status": "proved",
   "theorems": [
    "Verif.Props.C21_priority",
    "Verif.Props.C21_version",
    "Verif.Props.C21_timestamp",
    "Verif.Props.C21_hostname",
    "Verif.Props.C21_appname",
    "Verif.Props.C21_procID",
    "Verif.Props.C21_msgID",
    "Verif.Props.C21_message",
    "Verif.Props.C21_elementID"
   ],
   "note": ""
  },
  {
   "property": "C22",
   "status": "proved",
   "theorems": [
    "Verif.Props.C22_only_own_field"
   ],
   "note": ""
  },
  {
   "property": "C23",
   "status": "proved",
   "theorems": [
    "Verif.Props.C23_well_formed",
    "Verif.Props.C23_bad_id",
    "Verif.Props.C23_bad_name"
   ],
   "note": ""
  },
  {
   "property": "C24",
   "status": "proved",
   "theorems": [
    "Verif.Props.C24_error_iff_invalid"
   ],
   "note": ""
  },
  {
   "property": "C25",
   "status": "proved",
   "theorems": [
    "Verif.Props.C25_order_irrelevant",
    "Verif.Props.C25_any_sorting_algorithm"
   ],
   "note": ""
  },
  {
   "property": "C26",
   "status": "proved",
   "theorems": [
    "Verif.Props.C26_built_messages_parse",
    "Verif.Props.C26_built_messages_parse_compliant"
   ],
   "note": ""
  },
  {
   "property": "C27",
   "status": "proved",
   "theorems": [
    "Verif.Props.C27_round_trip"
   ],
   "note": ""
  },
  {
   "property": "C28",
   "status": "proved",
   "theorems": [
    "Verif.Props.C28_exact_boundary",
    "Verif.Props.C28_counterexample"
   ],
   "note": "The user expectation is false of the code; the exact boundary is proved."
  },
  {
   "property": "C29",
   "status": "proved",
   "theorems": [
    "Verif.Props.C29_parse_string_parse"
   ],
   "note": ""
  },
  {
   "property": "C30",
   "status": "proved",
   "theorems": [
    "Verif.Props.C30_serialised",
    "Verif.Props.C30_overlap_corrupts",
    "Verif.Props.C30_overlap_panics"
   ],
   "note": "The user expectation is false under overlap (two witnesses); the positive part is proved for every schedule without overlapping SetParameter calls."
  },
  {
   "property": "C31",
   "status": "proved",
   "theorems": [
    "Verif.Props.Bsd.C31_accepts_iff",
    "Verif.Props.Bsd.C31_default_options",
    "Verif.Props.Bsd.C31_decomposition_unique",
    "Verif.Props.Bsd.C31_clean_accepted"
   ],
   "note": "The language of the MSG part is the specification in Spec/Rfc3164.lean, stated without the automaton."
  },
  {
   "property": "C32",
   "status": "proved",
   "theorems": [
    "Verif.Props.Bsd.C32_strict_never_both",
    "Verif.Props.Bsd.C32_nil_nil_iff",
    "Verif.Props.Bsd.C32_otherwise_exactly_one",
    "Verif.Props.Bsd.C32_best_effort_message_iff",
    "Verif.Props.Bsd.C32_best_effort_silent"
   ],
   "note": "The user expectation is false of the code; the exact set of (nil, nil) inputs is proved."
  },
  {
   "property": "C33",
   "status": "proved",
   "theorems": [
    "Verif.Props.Bsd.C33_returned_valid",
    "Verif.Props.Bsd.C33_priority_exact",
    "Verif.Props.Bsd.C33_timestamp_written"
   ],
   "note": ""
  },
  {
   "property": "C34",
   "status": "proved",
   "theorems": [
    "Verif.Props.Bsd.C34_tag_pid_text",
    "Verif.Props.Bsd.C34_tag_text",
    "Verif.Props.Bsd.C34_no_tag",
    "Verif.Props.Bsd.C34_bracket_overwrites",
    "Verif.Props.Bsd.C34_reading_unique"
   ],
   "note": ""
  },
  {
   "property": "C35",
   "status": "proved",
   "theorems": [
    "Verif.Props.Bsd.C35_rfc3339_conservative",
    "Verif.Props.Bsd.C35_accepted_same"
   ],
   "note": ""
  },
  {
   "property": "C36",
   "status": "proved",
   "theorems": [
    "Verif.Props.Bsd.C36_year",
    "Verif.Props.Bsd.C36_year_feb29",
    "Verif.Props.Bsd.C36_timezone_same_instant",
    "Verif.Props.Bsd.C36_locale_timezone",
    "Verif.Props.Bsd.C36_rfc3339_unaffected"
   ],
   "note": "C36_locale_timezone assumes the written time is not skipped by the clocks of the zone."
  },
  {
   "property": "C37",
   "status": "proved",
   "theorems": [
    "Verif.Props.Bsd.C37_history_independent",
    "Verif.Props.Bsd.C37_parser_same_as_machine",
    "Verif.Props.Bsd.C37_error_same",
    "Verif.Props.Bsd.C37_success_same"
   ],
   "note": ""
  },
  {
   "property": "C38",
   "status": "proved",
   "theorems": [
    "Verif.Props.Bsd.C38_no_panic",
    "Verif.Props.Bsd.C38_column_in_range",
    "Verif.Props.Bsd.C38_error_decided_by_prefix",
    "Verif.Props.Bsd.C38_impossible_date"
   ],
   "note": ""
  },
  {
   "property": "C39",
   "status": "proved",
   "theorems": [
    "Verif.Props.C39_round_trip"
   ],
   "note": "Any read schedule, both modes."
  },
  {
   "property": "C40",
   "status": "proved",
   "theorems": [
    "Verif.Props.C40_split_independent"
   ],
   "note": "bufio.Reader is modelled; any cut of the stream."
  },
  {
   "property": "C41",
   "status": "proved",
   "theorems": [
    "Verif.Props.C41_strict_stops_at_first_error",
    "Verif.Props.C41_nothing_after_error"
   ],
   "note": "First theorem for every read schedule, including mid-stream read errors."
  },
  {
   "property": "C42",
   "status": "proved",
   "theorems": [
    "Verif.Props.C42_best_effort_goes_on",
    "Verif.Props.C42_ends_without_lt"
   ],
   "note": "Holds for frames whose message starts with '<'; the second theorem shows the other frames end parsing (finding)."
  },
  {
   "property": "C43",
   "status": "proved",
   "theorems": [
    "Verif.Props.C43_only_pieces_up_to_max",
    "Verif.Props.C43_too_long_refused",
    "Verif.Props.C43_too_long_refused_after"
   ],
   "note": "Includes lengths that overflow int and uint64."
  },
  {
   "property": "C44",
   "status": "proved",
   "theorems": [
    "Verif.Props.C44_terminates",
    "Verif.Props.C44_success_means_frames",
    "Verif.Props.C44_empty_stream"
   ],
   "note": "Equivalence: success only <-> sequence of (loose) frames up to end or NUL."
  },
  {
   "property": "C45",
   "status": "proved",
   "theorems": [
    "Verif.Props.C45_truncated"
   ],
   "note": "Every proper non-empty prefix of the last frame."
  },
  {
   "property": "C46",
   "status": "proved",
   "theorems": [
    "Verif.Props.C46_nul_hides_the_rest"
   ],
   "note": "The user expectation is false of the code; the actual behaviour is proved."
  },
  {
   "property": "C47",
   "status": "proved",
   "theorems": [
    "Verif.Props.C47_history_independent"
   ],
   "note": "Any history of streams with any read schedules."
  },
  {
   "property": "C48",
   "status": "proved",
   "theorems": [
    "Verif.Props.C48_nontransparent_round_trip",
    "Verif.Props.C48_accepted_messages_come_back"
   ],
   "note": "For every admissible behaviour of the external read loop (Driver)."
  },
  {
   "property": "C49",
   "status": "proved",
   "theorems": [
    "Verif.Props.C49_number_and_order"
   ],
   "note": "Existence of the splitting and the results for every splitting."
  },
  {
   "property": "C50",
   "status": "proved",
   "theorems": [
    "Verif.Props.C50_unterminated_rest"
   ],
   "note": ""
  },
  {
   "property": "C51",
   "status": "proved",
   "theorems": [
    "Verif.Props.C51_silent_drop"
   ],
   "note": "The user expectation is false of the code; the actual behaviour is proved."
  },
  {
   "property": "C52",
   "status": "proved",
   "theorems": [
    "Verif.Props.C52_reuse_repeats_last_message",
    "Verif.Props.C52_reuse_is_not_fresh"
   ],
   "note": "The user expectation is false of the code; the actual behaviour is proved."
  },
  {
   "property": "C53",
   "status": "proved",
   "theorems": [
    "Verif.Props.C53_trailer_names",
    "Verif.Props.C53_text_round_trip",
    "Verif.Props.C53_refused_text_overwrites"
   ],
   "note": ""
  },
  {
   "property": "C54",
   "status": "proved",
   "theorems": [
    "Verif.Props.C54_unknown_trailer_ignored",
    "Verif.Props.C54_trailers_agree"
   ],
   "note": ""
  },
  {
   "property": "C55",
   "status": "proved",
   "theorems": [
    "Verif.Props.C55_column_is_longest_viable_prefix",
    "Verif.Props.C55_timestamp"
   ],
   "note": ""
  },
  {
   "property": "C56",
   "status": "proved",
   "theorems": [
    "Verif.Props.C56_truncation_reported_at_end"
   ],
   "note": ""
  },
  {
   "property": "C57",
   "status": "proved",
   "theorems": [
    "Verif.Props.C57_refused_iff",
    "Verif.Props.C57_every_outcome"
   ],
   "note": "Specification: Verif/Spec/Rfc5424Errors.lean (Broken)."
  },
  {
   "property": "C58",
   "status": "proved",
   "theorems": [
    "Verif.Props.C58_empty_id_drops_previous_element",
    "Verif.Props.C58_empty_name_drops_previous_parameter"
   ],
   "note": "The user expectation is false of the code; the actual behaviour is proved."
  },
  {
   "property": "C59",
   "status": "proved",
   "theorems": [
    "Verif.Props.Bsd.C59_every_outcome",
    "Verif.Props.Bsd.C59_one_outcome"
   ],
   "note": "Specification: Verif/Spec/Rfc3164Errors.lean (Broken)."
  },
  {
   "property": "C60",
   "status": "proved",
   "theorems": [
    "Verif.Props.C60_every_stream",
    "Verif.Props.C60_one_outcome",
    "Verif.Props.C60_shape"
   ],
   "note": "Specification: Verif/Spec/OctetStream.lean (Emits)."
  },
  {
   "property": "C61",
   "status": "proved",
   "theorems": [
    "Verif.Props.C61_rfc5424_column",
    "Verif.Props.C61_rfc3164_column",
    "Verif.Props.C61_rfc5424_constant",
    "Verif.Props.C61_rfc5424_text_identifies",
    "Verif.Props.C61_rfc5424_names",
    "Verif.Props.C61_rfc3164_names",
    "Verif.Props.C61_rfc3164_text_identifies",
    "Verif.Props.C61_impossible_date_text",
    "Verif.Props.C61_rfc3164_impossible_date_text",
    "Verif.Props.C61_token_types",
    "Verif.Props.C61_octet_text_identifies"
   ],
   "note": ""
  },
  {
   "property": "C62",
   "status": "proved",
   "theorems": [
    "Verif.Props.C62_octet_counting",
    "Verif.Props.C62_nontransparent",
    "Verif.Props.C62_nontransparent_boundary",
    "Verif.Props.C62_framings_agree",
    "Verif.Props.C62_framable_iff"
   ],
   "note": ""
  },
  {
   "property": "C63",
   "status": "proved",
   "theorems": [
    "Verif.Props.C63_rfc5424_options",
    "Verif.Props.C63_rfc5424_err",
    "Verif.Props.C63_rfc3164_options",
    "Verif.Props.C63_rfc3164_err",
    "Verif.Props.C63_octet_late_best_effort",
    "Verif.Props.C63_octet_late_every_stream",
    "Verif.Props.C63_octet_late_goes_on",
    "Verif.Props.C63_nontransparent_late_best_effort"
   ],
   "note": ""
  },
  {
   "property": "C64",
   "status": "proved",
   "theorems": [
    "Verif.Props.C64_buildable_iff"
   ],
   "note": "Specification: Verif/Spec/BuilderCalls.lean (Buildable)."
  },
  {
   "property": "C65",
   "status": "proved",
   "theorems": [
    "Verif.Props.C65_caller_memory_untouched"
   ],
   "note": ""
  },
  {
   "property": "C66",
   "status": "proved",
   "theorems": [
    "Verif.Props.C66_returned_can_be_built",
    "Verif.Props.C66_returned_string_parses"
   ],
   "note": ""
  },
  {
   "property": "C67",
   "status": "proved",
   "theorems": [
    "Verif.Props.C67_calls_denote",
    "Verif.Props.C67_one_meaning"
   ],
   "note": "Specification: Verif/Spec/BuilderCalls.lean (Denotes)."
  },
  {
   "property": "C68",
   "status": "proved",
   "theorems": [
    "Verif.Props.C68_prompt",
    "Verif.Props.C68_same_results"
   ],
   "note": ""
  },
  {
   "property": "C69",
   "status": "proved",
   "theorems": [
    "Verif.Props.C69_last_message_held_back",
    "Verif.Props.C69_single_message_not_delivered",
    "Verif.Props.C69_prefix"
   ],
   "note": "The user expectation is false of the code; the actual behaviour is proved, for every behaviour of the external read loop that the repository leaves open."
  },
  {
   "property": "C70",
   "status": "proved",
   "theorems": [
    "Verif.Props.C70_error_is_end",
    "Verif.Props.C70_error_in_length_skipped",
    "Verif.Props.C70_lost_connection_invisible"
   ],
   "note": "Specification: Verif/Spec/OctetStream.lean (Emits, AtLength)."
  },
  {
   "property": "C71",
   "status": "proved",
   "theorems": [
    "Verif.Props.C71_huge_maximum"
   ],
   "note": "The user expectation is false of the code; the actual behaviour is proved."
  },
  {
   "property": "C72",
   "status": "proved",
   "theorems": [
    "Verif.Props.C72_resume",
    "Verif.Props.C72_plain_reader_loses",
    "Verif.Props.C72_buffered"
   ],
   "note": ""
  },
  {
   "property": "C73",
   "status": "proved",
   "theorems": [
    "Verif.Props.C73_every_history",
    "Verif.Props.C73_one_outcome",
    "Verif.Props.C73_repeated_for_ever",
    "Verif.Props.C73_rest_repeated"
   ],
   "note": "Specification: Verif/Spec/NonTransparentCalls.lean (Calls)."
  },
  {
   "property": "C74",
   "status": "proved",
   "theorems": [
    "Verif.Props.C74_no_panic",
    "Verif.Props.C74_setter",
    "Verif.Props.C74_parse",
    "Verif.Props.C74_assign",
    "Verif.Props.C74_detach",
    "Verif.Props.C74_buffers",
    "Verif.Props.C74_independent",
    "Verif.Props.C74_copy_is_shallow"
   ],
   "note": "Heap model: Verif/Messages.lean; the setters write cells and maps of the heap. C74_copy_is_shallow is a literal instance that shows the finding."
  },
  {
   "property": "C75",
   "status": "proved",
   "theorems": [
    "Verif.Props.C75_round_trip_iff",
    "Verif.Props.C75_not_buildable",
    "Verif.Props.C75_hostname_forges"
   ],
   "note": "Specification: Verif/Spec/BuilderCalls.lean (Buildable). The user expectation that String validates is false of the code."
  },
  {
   "property": "C76",
   "status": "proved",
   "theorems": [
    "Verif.Props.C76_rfc5424",
    "Verif.Props.C76_rfc3164",
    "Verif.Props.C76_before_and_after",
    "Verif.Props.C76_no_deadlock",
    "Verif.Props.C76_any_reads",
    "Verif.Props.C76_any_reads_rfc3164"
   ],
   "note": "Specification: Linear and Right in Verif/Conc/Flag.lean."
  },
  {
   "property": "C77",
   "status": "proved",
   "theorems": [
    "Verif.Props.C77_bound",
    "Verif.Props.C77_linear_without_escapes",
    "Verif.Props.C77_quadratic",
    "Verif.Props.C77_counter",
    "Verif.Props.C77_removed"
   ],
   "note": "The user expectation of linear time is false of the code. Work: Verif/Cost.lean and work in Verif/Rfc5424/Cost.lean; C77_counter relates it to a counter in the state of the automaton."
  },
  {
   "property": "C78",
   "status": "proved",
   "theorems": [
    "Verif.Props.Bsd.C78_bound",
    "Verif.Props.Bsd.C78_linear",
    "Verif.Props.Bsd.C78_quadratic",
    "Verif.Props.Bsd.C78_counter"
   ],
   "note": "The user expectation of linear time is false of the code. Work: Verif/Cost.lean and work in Verif/Rfc3164/Cost.lean."
  },
  {
   "property": "C79",
   "status": "proved",
   "theorems": [
    "Verif.Props.C79_result",
    "Verif.Props.C79_quadratic",
    "Verif.Props.C79_plain"
   ],
   "note": "The user expectation of linear time is false of the code."
  },
  {
   "property": "C80",
   "status": "proved",
   "theorems": [
    "Verif.Props.Bsd.C80_column_is_longest_viable_prefix",
    "Verif.Props.Bsd.C80_timestamp",
    "Verif.Props.Bsd.C80_truncation"
   ],
   "note": ""
  },
  {
   "property": "C81",
   "status": "proved",
   "theorems": [
    "Verif.Props.C81_every_stream",
    "Verif.Props.C81_one_outcome",
    "Verif.Props.C81_platforms_agree",
    "Verif.Props.C81_round_trip",
    "Verif.Props.C81_wrong_length",
    "Verif.Props.C81_is_64",
    "Verif.Props.C81_spec_64"
   ],
   "note": "the expectation is false of the code; proved: the actual behaviour"
  },
  {
   "property": "C82",
   "status": "proved",
   "theorems": [
    "Verif.Props.C82_only_listening",
    "Verif.Props.C82_nested_parse_loses_rest",
    "Verif.Props.C82_nested_parse_goes_on",
    "Verif.Props.C82_nested_parse_at_error",
    "Verif.Props.C82_new_maximum",
    "Verif.Props.C82_larger_maximum",
    "Verif.Props.C82_best_effort"
   ],
   "note": "the expectation is false of the code; proved: the actual behaviour"
  },
  {
   "property": "C83",
   "status": "proved",
   "theorems": [
    "Verif.Props.C83_only_listening",
    "Verif.Props.C83_nested_parse_repeats",
    "Verif.Props.C83_best_effort"
   ],
   "note": "the expectation is false of the code; proved: the actual behaviour"
  },
  {
   "property": "C84",
   "status": "proved",
   "theorems": [
    "Verif.Props.C84_bounded",
    "Verif.Props.C84_covers",
    "Verif.Props.C84_buffer",
    "Verif.Props.C84_length_text",
    "Verif.Props.C84_unbounded"
   ],
   "note": "The expectation that the maximum bounds the memory is false of the code for the text of a length; proved: the bound for everything else, and that there is none for it."
  },
  {
   "property": "C85",
   "status": "proved",
   "theorems": [
    "Verif.Props.C85_bound",
    "Verif.Props.C85_linear",
    "Verif.Props.C85_without_escapes"
   ],
   "note": "Work: Verif/Octet/Cost.lean (and Verif/Rfc5424/Cost.lean for a message)"
  },
  {
   "property": "C86",
   "status": "proved",
   "theorems": [
    "Verif.Props.C86_bound",
    "Verif.Props.C86_used",
    "Verif.Props.C86_quadratic",
    "Verif.Props.C86_retained"
   ],
   "note": "Work: Verif/NonTransparent/Cost.lean. The external read loop is counted as 1 for every byte and chunk."
  },
  {
   "property": "C87",
   "status": "proved",
   "theorems": [
    "Verif.Props.C87_compliant",
    "Verif.Props.C87_default",
    "Verif.Props.C87_conforming",
    "Verif.Props.C87_stream",
    "Verif.Props.C87_lone_backslash"
   ],
   "note": "The ABNF is Verif/Spec/Abnf.lean, one definition per rule of the RFC."
  },
  {
   "property": "C88",
   "status": "proved",
   "theorems": [
    "Verif.Props.C88_disjoint",
    "Verif.Props.C88_rfc5424_to_rfc3164",
    "Verif.Props.C88_rfc3164_to_rfc5424"
   ],
   "note": ""
  },
  {
   "property": "C89",
   "status": "proved",
   "theorems": [
    "Verif.Props.C89_lines_to_octet",
    "Verif.Props.C89_octet_to_lines"
   ],
   "note": ""
  },
  {
   "property": "C90",
   "status": "proved",
   "theorems": [
    "Verif.Props.C90_injection"
   ],
   "note": "The expectation is false of the code (and of non-transparent framing as such); proved: what happens."
  },
  {
   "property": "C91",
   "status": "proved",
   "theorems": [
    "Verif.Props.C91_every_call",
    "Verif.Props.C91_then_parse",
    "Verif.Props.C91_listener",
    "Verif.Props.C91_reader_prefix",
    "Verif.Props.C91_nothing_waits",
    "Verif.Props.C91_resumes"
   ],
   "note": "What is left of the scanner when the reader panics is arbitrary in the model."
  },
  {
   "property": "C92",
   "status": "proved",
   "theorems": [
    "Verif.Props.C92_every_history",
    "Verif.Props.C92_without_panic",
    "Verif.Props.C92_redelivered",
    "Verif.Props.C92_poison"
   ],
   "note": "The expectation is false of the code; proved: what happens."
  },
  {
   "property": "C93",
   "status": "proved",
   "theorems": [
    "Verif.Props.C93_every_cut",
    "Verif.Props.C93_truth",
    "Verif.Props.C93_header",
    "Verif.Props.C93_elements",
    "Verif.Props.C93_bracket",
    "Verif.Props.C93_unnoticed",
    "Verif.Props.C93_message",
    "Verif.Props.C93_octet",
    "Verif.Props.C93_lines"
   ],
   "note": ""
  },
  {
   "property": "C94",
   "status": "proved",
   "theorems": [
    "Verif.Props.Bsd.C94_every_cut",
    "Verif.Props.Bsd.C94_header",
    "Verif.Props.Bsd.C94_wrong_priority",
    "Verif.Props.Bsd.C94_unnoticed",
    "Verif.Props.Bsd.C94_brackets",
    "Verif.Props.Bsd.C94_colon"
   ],
   "note": "The expectation is false of the code; proved: what happens."
  },
  {
   "property": "C95",
   "status": "proved",
   "theorems": [
    "Verif.Props.C95_same_message",
    "Verif.Props.C95_all_texts",
    "Verif.Props.C95_canonical"
   ],
   "note": ""
  },
  {
   "property": "C96",
   "status": "proved",
   "theorems": [
    "Verif.Props.C96_header",
    "Verif.Props.C96_fits",
    "Verif.Props.C96_sharp"
   ],
   "note": ""
  },
  {
   "property": "C97",
   "status": "proved",
   "theorems": [
    "Verif.Props.C97_random_bytes",
    "Verif.Props.C97_valid_fields",
    "Verif.Props.C97_right_pad",
    "Verif.Props.C97_maxima"
   ],
   "note": ""
  },
  {
   "property": "C98",
   "status": "proved",
   "theorems": [
    "Verif.Props.C98_values",
    "Verif.Props.C98_scratch",
    "Verif.Props.C98_every_stream",
    "Verif.Props.C98_callers_reader",
    "Verif.Props.C98_token_stays",
    "Verif.Props.C98_token_expires"
   ],
   "note": ""
  },
  {
   "property": "C99",
   "status": "proved",
   "theorems": [
    "Verif.Props.Bsd.C99_same_message_all",
    "Verif.Props.Bsd.C99_same_message",
    "Verif.Props.Bsd.C99_resend",
    "Verif.Props.Bsd.C99_timezone_moves"
   ],
   "note": ""
  }
 ]
}