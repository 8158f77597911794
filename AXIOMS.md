# Axioms of the property theorems (output of `#print axioms`, written by tools/axioms.py)

* 343 theorems: Classical.choice, Quot.sound, propext
* 32 theorems: Quot.sound, propext
* 12 theorems: propext
* 1 theorems: none

C01 Verif.Props.C01_strict_accepts_iff_grammar: Classical.choice, Quot.sound, propext
C01 Verif.Props.C01_decomposition_unique: Classical.choice, Quot.sound, propext
C02 Verif.Props.C02_exactly_one: Classical.choice, Quot.sound, propext
C02 Verif.Props.C02_exactly_one_any_state: Classical.choice, Quot.sound, propext
C02 Verif.Props.C02_parser_same_as_machine: Classical.choice, Quot.sound, propext
C03 Verif.Props.C03_partial_message_iff: Classical.choice, Quot.sound, propext
C04 Verif.Props.C04_success_same: Classical.choice, Quot.sound, propext
C04 Verif.Props.C04_error_same: Classical.choice, Quot.sound, propext
C05 Verif.Props.C05_returned_valid: Classical.choice, Quot.sound, propext
C06 Verif.Props.C06_history_independent: Classical.choice, Quot.sound, propext
C06 Verif.Props.C06_state_independent: Classical.choice, Quot.sound, propext
C07 Verif.Props.C07_field_bounds: Classical.choice, Quot.sound, propext
C08 Verif.Props.C08_timestamp_is_written_and_real: Classical.choice, Quot.sound, propext
C08 Verif.Props.C08_impossible_date_refused: Classical.choice, Quot.sound, propext
C09 Verif.Props.C09_duplicate_id_refused: Classical.choice, Quot.sound, propext
C09 Verif.Props.C09_one_entry_per_element: Classical.choice, Quot.sound, propext
C10 Verif.Props.C10_values_unescaped: Classical.choice, Quot.sound, propext
C100 Verif.Props.C100_rfc5424: Classical.choice, Quot.sound, propext
C100 Verif.Props.C100_rfc3164: Classical.choice, Quot.sound, propext
C100 Verif.Props.C100_rfc5424_history: Classical.choice, Quot.sound, propext
C100 Verif.Props.C100_rfc3164_history: Classical.choice, Quot.sound, propext
C100 Verif.Props.C100_rfc5424_accepts_iff: Classical.choice, Quot.sound, propext
C100 Verif.Props.C100_rfc3164_accepts_iff: Classical.choice, Quot.sound, propext
C101 Verif.Props.C101_set: Classical.choice, Quot.sound, propext
C101 Verif.Props.C101_setters: Classical.choice, Quot.sound, propext
C101 Verif.Props.C101_setters_return: Classical.choice, Quot.sound, propext
C101 Verif.Props.C101_exec: Quot.sound, propext
C101 Verif.Props.C101_lines: Quot.sound, propext
C102 Verif.Props.C102_ranges: Classical.choice, Quot.sound, propext
C102 Verif.Props.C102_decimal: Classical.choice, Quot.sound, propext
C102 Verif.Props.C102_escape: Classical.choice, Quot.sound, propext
C102 Verif.Props.C102_remove_any: Classical.choice, Quot.sound, propext
C102 Verif.Props.C102_remove: Classical.choice, Quot.sound, propext
C102 Verif.Props.C102_base_valid: Classical.choice, Quot.sound, propext
C102 Verif.Props.C102_valid5: Classical.choice, Quot.sound, propext
C102 Verif.Props.C102_compute: Classical.choice, Quot.sound, propext
C102 Verif.Props.C102_texts: Classical.choice, Quot.sound, propext
C102 Verif.Props.C102_export5: Classical.choice, Quot.sound, propext
C102 Verif.Props.C102_export3: Classical.choice, Quot.sound, propext
C103 Verif.Props.C103_options: Classical.choice, Quot.sound, propext
C103 Verif.Props.C103_parse: Classical.choice, Quot.sound, propext
C103 Verif.Props.C103_hasBestEffort: Classical.choice, Quot.sound, propext
C103 Verif.Props.C103_texts: Classical.choice, Quot.sound, propext
C104 Verif.Props.C104_entry: Classical.choice, Quot.sound, propext
C104 Verif.Props.C104_string: Classical.choice, Quot.sound, propext
C104 Verif.Props.C104_setter: Classical.choice, Quot.sound, propext
C104 Verif.Props.C104_chain: Classical.choice, Quot.sound, propext
C105 Verif.Props.C105_options: Classical.choice, Quot.sound, propext
C105 Verif.Props.C105_rfc5424: Classical.choice, Quot.sound, propext
C105 Verif.Props.C105_rfc3164: Classical.choice, Quot.sound, propext
C105 Verif.Props.C105_lock: Classical.choice, Quot.sound, propext
C105 Verif.Props.C105_machine: Classical.choice, Quot.sound, propext
C106 Verif.Props.C106_parser: Classical.choice, Quot.sound, propext
C106 Verif.Props.C106_history: Classical.choice, Quot.sound, propext
C106 Verif.Props.C106_trailers: Classical.choice, Quot.sound, propext
C106 Verif.Props.C106_trailer_names: Classical.choice, Quot.sound, propext
C107 Verif.Props.C107_chain: Classical.choice, Quot.sound, propext
C107 Verif.Props.C107_built: Classical.choice, Quot.sound, propext
C107 Verif.Props.C107_independent: Classical.choice, Quot.sound, propext
C107 Verif.Props.C107_new_is_independent: Classical.choice, Quot.sound, propext
C107 Verif.Props.C107_copy: Classical.choice, Quot.sound, propext
C107 Verif.Props.C107_copy_back: Classical.choice, Quot.sound, propext
C107 Verif.Props.C107_copy_nil: Classical.choice, Quot.sound, propext
C108 Verif.Props.C108_rfc5424: Classical.choice, Quot.sound, propext
C108 Verif.Props.C108_rfc3164: Classical.choice, Quot.sound, propext
C108 Verif.Props.C108_octet: Classical.choice, Quot.sound, propext
C108 Verif.Props.C108_octet_messages: Classical.choice, Quot.sound, propext
C108 Verif.Props.C108_lines: Classical.choice, Quot.sound, propext
C109 Verif.Props.C109_values: Classical.choice, Quot.sound, propext
C109 Verif.Props.C109_program: Classical.choice, Quot.sound, propext
C109 Verif.Props.C109_parse: Classical.choice, Quot.sound, propext
C109 Verif.Props.C109_kept: Classical.choice, Quot.sound, propext
C11 Verif.Props.C11_msg_verbatim: Classical.choice, Quot.sound, propext
C11 Verif.Props.C11_no_msg: Classical.choice, Quot.sound, propext
C11 Verif.Props.C11_every: Classical.choice, Quot.sound, propext
C110 Verif.Props.C110_values: Classical.choice, Quot.sound, propext
C110 Verif.Props.C110_program: Classical.choice, Quot.sound, propext
C110 Verif.Props.C110_parse3: Classical.choice, Quot.sound, propext
C110 Verif.Props.C110_kept: Classical.choice, Quot.sound, propext
C111 Verif.Props.C111_values: Classical.choice, Quot.sound, propext
C111 Verif.Props.C111_program: Classical.choice, Quot.sound, propext
C111 Verif.Props.C111_results: Classical.choice, Quot.sound, propext
C111 Verif.Props.C111_kept: Classical.choice, Quot.sound, propext
C112 Verif.Props.C112_values: Classical.choice, Quot.sound, propext
C112 Verif.Props.C112_program: Classical.choice, Quot.sound, propext
C112 Verif.Props.C112_own: Classical.choice, Quot.sound, propext
C112 Verif.Props.C112_kept: Classical.choice, Quot.sound, propext
C113 Verif.Props.C113_every_history: Classical.choice, Quot.sound, propext
C113 Verif.Props.C113_without_panic: propext
C113 Verif.Props.C113_prefix: Classical.choice, Quot.sound, propext
C113 Verif.Props.C113_next_call: Classical.choice, Quot.sound, propext
C114 Verif.Props.C114_every_history: Classical.choice, Quot.sound, propext
C115 Verif.Props.C115_every_stream: Classical.choice, Quot.sound, propext
C115 Verif.Props.C115_one_outcome: Classical.choice, Quot.sound, propext
C115 Verif.Props.C115_consumed: Classical.choice, Quot.sound, propext
C115 Verif.Props.C115_stuck: Classical.choice, Quot.sound, propext
C115 Verif.Props.C115_frames: Classical.choice, Quot.sound, propext
C115 Verif.Props.C115_other_between: Classical.choice, Quot.sound, propext
C116 Verif.Props.C116_every_stream: Classical.choice, Quot.sound, propext
C116 Verif.Props.C116_one_list: Classical.choice, Quot.sound, propext
C117 Verif.Props.C117_octet_every_history: Classical.choice, Quot.sound, propext
C117 Verif.Props.C117_octet_results: propext
C117 Verif.Props.C117_lines_every_history: Classical.choice, Quot.sound, propext
C117 Verif.Props.C117_everything_once: propext
C117 Verif.Props.C117_reported: Classical.choice, Quot.sound, propext
C117 Verif.Props.C117_last_one_set: propext
C117 Verif.Props.C117_from_inside: Quot.sound, propext
C118 Verif.Props.C118_panicking_listener: Classical.choice, Quot.sound, propext
C119 Verif.Props.C119_panicking_reader: Classical.choice, Quot.sound, propext
C119 Verif.Props.C119_not_swallowed: Classical.choice, Quot.sound, propext
C12 Verif.Props.C12_compliant_accepts_iff: Classical.choice, Quot.sound, propext
C12 Verif.Props.C12_refused: Classical.choice, Quot.sound, propext
C13 Verif.Props.C13_column_in_range: Classical.choice, Quot.sound, propext
C14 Verif.Props.C14_error_decided_by_prefix: Classical.choice, Quot.sound, propext
C15 Verif.Props.C15_no_panic: Classical.choice, Quot.sound, propext
C16 Verif.Props.C16_concurrent_parse: Classical.choice, Quot.sound, propext
C16 Verif.Props.C16_no_deadlock: Classical.choice, Quot.sound, propext
C16 Verif.Props.C16_rfc3164_concurrent_parse: Classical.choice, Quot.sound, propext
C16 Verif.Props.C16_rfc3164_no_deadlock: Classical.choice, Quot.sound, propext
C17 Verif.Props.C17_decomposition: Quot.sound, propext
C17 Verif.Props.C17_valid_iff: Classical.choice, Quot.sound, propext
C17 Verif.Props.C17_lookups: Classical.choice, Quot.sound, propext
C17 Verif.Props.C17_names: Quot.sound, propext
C17 Verif.Props.C17_names_identify: Quot.sound, propext
C18 Verif.Props.C18_decimal_value: Classical.choice, Quot.sound, propext
C18 Verif.Props.C18_inverse_of_printing: Classical.choice, Quot.sound, propext
C19 Verif.Props.C19_remove_exactly: Classical.choice, Quot.sound, propext
C20 Verif.Props.C20_escape_safe_and_reversible: Quot.sound, propext
C20 Verif.Props.C20_unescaping_is_a_function: none
C21 Verif.Props.C21_priority: Classical.choice, Quot.sound, propext
C21 Verif.Props.C21_version: Classical.choice, Quot.sound, propext
C21 Verif.Props.C21_timestamp: Classical.choice, Quot.sound, propext
C21 Verif.Props.C21_hostname: Quot.sound, propext
C21 Verif.Props.C21_appname: Quot.sound, propext
C21 Verif.Props.C21_procID: Quot.sound, propext
C21 Verif.Props.C21_msgID: Quot.sound, propext
C21 Verif.Props.C21_message: Quot.sound, propext
C21 Verif.Props.C21_elementID: Quot.sound, propext
C22 Verif.Props.C22_only_own_field: Classical.choice, Quot.sound, propext
C23 Verif.Props.C23_well_formed: Classical.choice, Quot.sound, propext
C23 Verif.Props.C23_bad_id: Quot.sound, propext
C23 Verif.Props.C23_bad_name: Classical.choice, Quot.sound, propext
C24 Verif.Props.C24_error_iff_invalid: Classical.choice, Quot.sound, propext
C25 Verif.Props.C25_order_irrelevant: Quot.sound, propext
C25 Verif.Props.C25_any_sorting_algorithm: Quot.sound, propext
C26 Verif.Props.C26_built_messages_parse: Classical.choice, Quot.sound, propext
C26 Verif.Props.C26_built_messages_parse_compliant: Classical.choice, Quot.sound, propext
C27 Verif.Props.C27_round_trip: Classical.choice, Quot.sound, propext
C28 Verif.Props.C28_exact_boundary: Classical.choice, Quot.sound, propext
C28 Verif.Props.C28_counterexample: Classical.choice, Quot.sound, propext
C29 Verif.Props.C29_parse_string_parse: Classical.choice, Quot.sound, propext
C30 Verif.Props.C30_serialised: Classical.choice, Quot.sound, propext
C30 Verif.Props.C30_overlap_corrupts: Classical.choice, Quot.sound, propext
C30 Verif.Props.C30_overlap_panics: Classical.choice, Quot.sound, propext
C31 Verif.Props.Bsd.C31_accepts_iff: Classical.choice, Quot.sound, propext
C31 Verif.Props.Bsd.C31_default_options: Classical.choice, Quot.sound, propext
C31 Verif.Props.Bsd.C31_decomposition_unique: Classical.choice, Quot.sound, propext
C31 Verif.Props.Bsd.C31_clean_accepted: Classical.choice, Quot.sound, propext
C32 Verif.Props.Bsd.C32_strict_never_both: Classical.choice, Quot.sound, propext
C32 Verif.Props.Bsd.C32_nil_nil_iff: Classical.choice, Quot.sound, propext
C32 Verif.Props.Bsd.C32_otherwise_exactly_one: Classical.choice, Quot.sound, propext
C32 Verif.Props.Bsd.C32_best_effort_message_iff: Classical.choice, Quot.sound, propext
C32 Verif.Props.Bsd.C32_best_effort_silent: Classical.choice, Quot.sound, propext
C33 Verif.Props.Bsd.C33_returned_valid: Classical.choice, Quot.sound, propext
C33 Verif.Props.Bsd.C33_priority_exact: Classical.choice, Quot.sound, propext
C33 Verif.Props.Bsd.C33_timestamp_written: Classical.choice, Quot.sound, propext
C34 Verif.Props.Bsd.C34_tag_pid_text: Classical.choice, Quot.sound, propext
C34 Verif.Props.Bsd.C34_tag_text: Classical.choice, Quot.sound, propext
C34 Verif.Props.Bsd.C34_no_tag: Classical.choice, Quot.sound, propext
C34 Verif.Props.Bsd.C34_bracket_overwrites: Classical.choice, Quot.sound, propext
C34 Verif.Props.Bsd.C34_reading_unique: Classical.choice, Quot.sound, propext
C35 Verif.Props.Bsd.C35_rfc3339_conservative: Classical.choice, Quot.sound, propext
C35 Verif.Props.Bsd.C35_accepted_same: Classical.choice, Quot.sound, propext
C36 Verif.Props.Bsd.C36_year: Classical.choice, Quot.sound, propext
C36 Verif.Props.Bsd.C36_year_feb29: Classical.choice, Quot.sound, propext
C36 Verif.Props.Bsd.C36_timezone_same_instant: Classical.choice, Quot.sound, propext
C36 Verif.Props.Bsd.C36_locale_timezone: Classical.choice, Quot.sound, propext
C36 Verif.Props.Bsd.C36_rfc3339_unaffected: Classical.choice, Quot.sound, propext
C37 Verif.Props.Bsd.C37_history_independent: Classical.choice, Quot.sound, propext
C37 Verif.Props.Bsd.C37_parser_same_as_machine: Classical.choice, Quot.sound, propext
C37 Verif.Props.Bsd.C37_error_same: Classical.choice, Quot.sound, propext
C37 Verif.Props.Bsd.C37_success_same: Classical.choice, Quot.sound, propext
C38 Verif.Props.Bsd.C38_no_panic: Classical.choice, Quot.sound, propext
C38 Verif.Props.Bsd.C38_column_in_range: Classical.choice, Quot.sound, propext
C38 Verif.Props.Bsd.C38_error_decided_by_prefix: Classical.choice, Quot.sound, propext
C38 Verif.Props.Bsd.C38_impossible_date: Classical.choice, Quot.sound, propext
C39 Verif.Props.C39_round_trip: Classical.choice, Quot.sound, propext
C40 Verif.Props.C40_split_independent: Classical.choice, Quot.sound, propext
C41 Verif.Props.C41_strict_stops_at_first_error: Classical.choice, Quot.sound, propext
C41 Verif.Props.C41_nothing_after_error: Classical.choice, Quot.sound, propext
C42 Verif.Props.C42_best_effort_goes_on: Classical.choice, Quot.sound, propext
C42 Verif.Props.C42_ends_without_lt: Classical.choice, Quot.sound, propext
C43 Verif.Props.C43_only_pieces_up_to_max: Classical.choice, Quot.sound, propext
C43 Verif.Props.C43_too_long_refused: Classical.choice, Quot.sound, propext
C43 Verif.Props.C43_too_long_refused_after: Classical.choice, Quot.sound, propext
C44 Verif.Props.C44_terminates: Classical.choice, Quot.sound, propext
C44 Verif.Props.C44_success_means_frames: Classical.choice, Quot.sound, propext
C44 Verif.Props.C44_empty_stream: Classical.choice, Quot.sound, propext
C45 Verif.Props.C45_truncated: Classical.choice, Quot.sound, propext
C46 Verif.Props.C46_nul_hides_the_rest: Classical.choice, Quot.sound, propext
C47 Verif.Props.C47_history_independent: Classical.choice, Quot.sound, propext
C48 Verif.Props.C48_nontransparent_round_trip: Classical.choice, Quot.sound, propext
C48 Verif.Props.C48_accepted_messages_come_back: Classical.choice, Quot.sound, propext
C49 Verif.Props.C49_number_and_order: Classical.choice, Quot.sound, propext
C50 Verif.Props.C50_unterminated_rest: Classical.choice, Quot.sound, propext
C51 Verif.Props.C51_silent_drop: Classical.choice, Quot.sound, propext
C52 Verif.Props.C52_reuse_repeats_last_message: Classical.choice, Quot.sound, propext
C52 Verif.Props.C52_reuse_is_not_fresh: Classical.choice, Quot.sound, propext
C53 Verif.Props.C53_trailer_names: Classical.choice, Quot.sound, propext
C53 Verif.Props.C53_text_round_trip: Classical.choice, Quot.sound, propext
C53 Verif.Props.C53_refused_text_overwrites: Classical.choice, Quot.sound, propext
C54 Verif.Props.C54_unknown_trailer_ignored: Quot.sound, propext
C54 Verif.Props.C54_trailers_agree: Quot.sound, propext
C55 Verif.Props.C55_column_is_longest_viable_prefix: Classical.choice, Quot.sound, propext
C55 Verif.Props.C55_timestamp: Classical.choice, Quot.sound, propext
C56 Verif.Props.C56_truncation_reported_at_end: Classical.choice, Quot.sound, propext
C57 Verif.Props.C57_refused_iff: Classical.choice, Quot.sound, propext
C57 Verif.Props.C57_every_outcome: Classical.choice, Quot.sound, propext
C58 Verif.Props.C58_empty_id_drops_previous_element: Classical.choice, Quot.sound, propext
C58 Verif.Props.C58_empty_name_drops_previous_parameter: Classical.choice, Quot.sound, propext
C59 Verif.Props.Bsd.C59_every_outcome: Classical.choice, Quot.sound, propext
C59 Verif.Props.Bsd.C59_one_outcome: Classical.choice, Quot.sound, propext
C60 Verif.Props.C60_every_stream: Classical.choice, Quot.sound, propext
C60 Verif.Props.C60_one_outcome: Classical.choice, Quot.sound, propext
C60 Verif.Props.C60_shape: Quot.sound, propext
C61 Verif.Props.C61_rfc5424_column: Classical.choice, Quot.sound, propext
C61 Verif.Props.C61_rfc3164_column: Classical.choice, Quot.sound, propext
C61 Verif.Props.C61_rfc5424_constant: Classical.choice, Quot.sound, propext
C61 Verif.Props.C61_rfc5424_text_identifies: Classical.choice, Quot.sound, propext
C61 Verif.Props.C61_rfc5424_names: Classical.choice, Quot.sound, propext
C61 Verif.Props.C61_rfc3164_names: Classical.choice, Quot.sound, propext
C61 Verif.Props.C61_rfc3164_text_identifies: Classical.choice, Quot.sound, propext
C61 Verif.Props.C61_impossible_date_text: Classical.choice, Quot.sound, propext
C61 Verif.Props.C61_rfc3164_impossible_date_text: Classical.choice, Quot.sound, propext
C61 Verif.Props.C61_token_types: Classical.choice, Quot.sound, propext
C61 Verif.Props.C61_octet_text_identifies: Classical.choice, Quot.sound, propext
C62 Verif.Props.C62_octet_counting: Classical.choice, Quot.sound, propext
C62 Verif.Props.C62_nontransparent: Classical.choice, Quot.sound, propext
C62 Verif.Props.C62_nontransparent_boundary: Classical.choice, Quot.sound, propext
C62 Verif.Props.C62_framings_agree: Classical.choice, Quot.sound, propext
C62 Verif.Props.C62_framable_iff: Classical.choice, Quot.sound, propext
C63 Verif.Props.C63_rfc5424_options: propext
C63 Verif.Props.C63_rfc5424_err: Classical.choice, Quot.sound, propext
C63 Verif.Props.C63_rfc3164_options: propext
C63 Verif.Props.C63_rfc3164_err: Classical.choice, Quot.sound, propext
C63 Verif.Props.C63_octet_late_best_effort: Classical.choice, Quot.sound, propext
C63 Verif.Props.C63_octet_late_every_stream: Classical.choice, Quot.sound, propext
C63 Verif.Props.C63_octet_late_goes_on: Classical.choice, Quot.sound, propext
C63 Verif.Props.C63_nontransparent_late_best_effort: propext
C64 Verif.Props.C64_buildable_iff: Classical.choice, Quot.sound, propext
C65 Verif.Props.C65_caller_memory_untouched: Classical.choice, Quot.sound, propext
C66 Verif.Props.C66_returned_can_be_built: Classical.choice, Quot.sound, propext
C66 Verif.Props.C66_returned_string_parses: Classical.choice, Quot.sound, propext
C67 Verif.Props.C67_calls_denote: Classical.choice, Quot.sound, propext
C67 Verif.Props.C67_one_meaning: Classical.choice, Quot.sound, propext
C68 Verif.Props.C68_prompt: Classical.choice, Quot.sound, propext
C68 Verif.Props.C68_same_results: Quot.sound, propext
C69 Verif.Props.C69_last_message_held_back: Classical.choice, Quot.sound, propext
C69 Verif.Props.C69_single_message_not_delivered: Classical.choice, Quot.sound, propext
C69 Verif.Props.C69_prefix: Classical.choice, Quot.sound, propext
C70 Verif.Props.C70_error_is_end: Classical.choice, Quot.sound, propext
C70 Verif.Props.C70_error_in_length_skipped: Classical.choice, Quot.sound, propext
C70 Verif.Props.C70_lost_connection_invisible: Classical.choice, Quot.sound, propext
C71 Verif.Props.C71_huge_maximum: Classical.choice, Quot.sound, propext
C72 Verif.Props.C72_resume: Classical.choice, Quot.sound, propext
C72 Verif.Props.C72_plain_reader_loses: Classical.choice, Quot.sound, propext
C72 Verif.Props.C72_buffered: Classical.choice, Quot.sound, propext
C73 Verif.Props.C73_every_history: Classical.choice, Quot.sound, propext
C73 Verif.Props.C73_one_outcome: Classical.choice, Quot.sound, propext
C73 Verif.Props.C73_repeated_for_ever: Classical.choice, Quot.sound, propext
C73 Verif.Props.C73_rest_repeated: Classical.choice, Quot.sound, propext
C74 Verif.Props.C74_no_panic: Classical.choice, Quot.sound, propext
C74 Verif.Props.C74_setter: Classical.choice, Quot.sound, propext
C74 Verif.Props.C74_parse: Classical.choice, Quot.sound, propext
C74 Verif.Props.C74_assign: Quot.sound, propext
C74 Verif.Props.C74_detach: Quot.sound, propext
C74 Verif.Props.C74_buffers: propext
C74 Verif.Props.C74_independent: Classical.choice, Quot.sound, propext
C74 Verif.Props.C74_copy_is_shallow: propext
C75 Verif.Props.C75_round_trip_iff: Classical.choice, Quot.sound, propext
C75 Verif.Props.C75_not_buildable: Classical.choice, Quot.sound, propext
C75 Verif.Props.C75_hostname_forges: Classical.choice, Quot.sound, propext
C76 Verif.Props.C76_rfc5424: Classical.choice, Quot.sound, propext
C76 Verif.Props.C76_rfc3164: Classical.choice, Quot.sound, propext
C76 Verif.Props.C76_before_and_after: Quot.sound, propext
C76 Verif.Props.C76_no_deadlock: Classical.choice, Quot.sound, propext
C76 Verif.Props.C76_any_reads: Classical.choice, Quot.sound, propext
C76 Verif.Props.C76_any_reads_rfc3164: Classical.choice, Quot.sound, propext
C77 Verif.Props.C77_bound: Classical.choice, Quot.sound, propext
C77 Verif.Props.C77_linear_without_escapes: Classical.choice, Quot.sound, propext
C77 Verif.Props.C77_quadratic: Classical.choice, Quot.sound, propext
C77 Verif.Props.C77_counter: Classical.choice, Quot.sound, propext
C77 Verif.Props.C77_removed: Quot.sound, propext
C78 Verif.Props.Bsd.C78_bound: Classical.choice, Quot.sound, propext
C78 Verif.Props.Bsd.C78_linear: Classical.choice, Quot.sound, propext
C78 Verif.Props.Bsd.C78_quadratic: Classical.choice, Quot.sound, propext
C78 Verif.Props.Bsd.C78_counter: Classical.choice, Quot.sound, propext
C79 Verif.Props.C79_result: propext
C79 Verif.Props.C79_quadratic: Quot.sound, propext
C79 Verif.Props.C79_plain: Quot.sound, propext
C80 Verif.Props.Bsd.C80_column_is_longest_viable_prefix: Classical.choice, Quot.sound, propext
C80 Verif.Props.Bsd.C80_timestamp: Classical.choice, Quot.sound, propext
C80 Verif.Props.Bsd.C80_truncation: Classical.choice, Quot.sound, propext
C81 Verif.Props.C81_every_stream: Classical.choice, Quot.sound, propext
C81 Verif.Props.C81_one_outcome: Classical.choice, Quot.sound, propext
C81 Verif.Props.C81_platforms_agree: Classical.choice, Quot.sound, propext
C81 Verif.Props.C81_round_trip: Classical.choice, Quot.sound, propext
C81 Verif.Props.C81_wrong_length: Classical.choice, Quot.sound, propext
C81 Verif.Props.C81_is_64: Quot.sound, propext
C81 Verif.Props.C81_spec_64: Classical.choice, Quot.sound, propext
C82 Verif.Props.C82_only_listening: Classical.choice, Quot.sound, propext
C82 Verif.Props.C82_nested_parse_loses_rest: Classical.choice, Quot.sound, propext
C82 Verif.Props.C82_nested_parse_goes_on: Classical.choice, Quot.sound, propext
C82 Verif.Props.C82_nested_parse_at_error: Classical.choice, Quot.sound, propext
C82 Verif.Props.C82_new_maximum: Classical.choice, Quot.sound, propext
C82 Verif.Props.C82_larger_maximum: Classical.choice, Quot.sound, propext
C82 Verif.Props.C82_best_effort: Classical.choice, Quot.sound, propext
C83 Verif.Props.C83_only_listening: Quot.sound, propext
C83 Verif.Props.C83_nested_parse_repeats: Classical.choice, Quot.sound, propext
C83 Verif.Props.C83_best_effort: Classical.choice, Quot.sound, propext
C84 Verif.Props.C84_bounded: Classical.choice, Quot.sound, propext
C84 Verif.Props.C84_covers: Quot.sound, propext
C84 Verif.Props.C84_buffer: Quot.sound, propext
C84 Verif.Props.C84_length_text: Classical.choice, Quot.sound, propext
C84 Verif.Props.C84_unbounded: Classical.choice, Quot.sound, propext
C85 Verif.Props.C85_bound: Classical.choice, Quot.sound, propext
C85 Verif.Props.C85_linear: Classical.choice, Quot.sound, propext
C85 Verif.Props.C85_without_escapes: Classical.choice, Quot.sound, propext
C86 Verif.Props.C86_bound: Classical.choice, Quot.sound, propext
C86 Verif.Props.C86_used: Classical.choice, Quot.sound, propext
C86 Verif.Props.C86_quadratic: Classical.choice, Quot.sound, propext
C86 Verif.Props.C86_retained: Quot.sound, propext
C87 Verif.Props.C87_compliant: Classical.choice, Quot.sound, propext
C87 Verif.Props.C87_default: Classical.choice, Quot.sound, propext
C87 Verif.Props.C87_conforming: Classical.choice, Quot.sound, propext
C87 Verif.Props.C87_stream: Classical.choice, Quot.sound, propext
C87 Verif.Props.C87_lone_backslash: Classical.choice, Quot.sound, propext
C88 Verif.Props.C88_disjoint: Classical.choice, Quot.sound, propext
C88 Verif.Props.C88_rfc5424_to_rfc3164: Classical.choice, Quot.sound, propext
C88 Verif.Props.C88_rfc3164_to_rfc5424: Classical.choice, Quot.sound, propext
C89 Verif.Props.C89_lines_to_octet: Classical.choice, Quot.sound, propext
C89 Verif.Props.C89_octet_to_lines: Classical.choice, Quot.sound, propext
C90 Verif.Props.C90_injection: Classical.choice, Quot.sound, propext
C91 Verif.Props.C91_every_call: Classical.choice, Quot.sound, propext
C91 Verif.Props.C91_then_parse: Classical.choice, Quot.sound, propext
C91 Verif.Props.C91_listener: Classical.choice, Quot.sound, propext
C91 Verif.Props.C91_reader_prefix: Classical.choice, Quot.sound, propext
C91 Verif.Props.C91_nothing_waits: Classical.choice, Quot.sound, propext
C91 Verif.Props.C91_resumes: Classical.choice, Quot.sound, propext
C92 Verif.Props.C92_every_history: Classical.choice, Quot.sound, propext
C92 Verif.Props.C92_without_panic: propext
C92 Verif.Props.C92_redelivered: Classical.choice, Quot.sound, propext
C92 Verif.Props.C92_poison: Classical.choice, Quot.sound, propext
C93 Verif.Props.C93_every_cut: Classical.choice, Quot.sound, propext
C93 Verif.Props.C93_truth: Classical.choice, Quot.sound, propext
C93 Verif.Props.C93_header: Classical.choice, Quot.sound, propext
C93 Verif.Props.C93_elements: Classical.choice, Quot.sound, propext
C93 Verif.Props.C93_bracket: Classical.choice, Quot.sound, propext
C93 Verif.Props.C93_unnoticed: Classical.choice, Quot.sound, propext
C93 Verif.Props.C93_message: Classical.choice, Quot.sound, propext
C93 Verif.Props.C93_octet: Classical.choice, Quot.sound, propext
C93 Verif.Props.C93_lines: Classical.choice, Quot.sound, propext
C94 Verif.Props.Bsd.C94_every_cut: Classical.choice, Quot.sound, propext
C94 Verif.Props.Bsd.C94_header: Classical.choice, Quot.sound, propext
C94 Verif.Props.Bsd.C94_wrong_priority: Classical.choice, Quot.sound, propext
C94 Verif.Props.Bsd.C94_unnoticed: Classical.choice, Quot.sound, propext
C94 Verif.Props.Bsd.C94_brackets: Classical.choice, Quot.sound, propext
C94 Verif.Props.Bsd.C94_colon: Classical.choice, Quot.sound, propext
C95 Verif.Props.C95_same_message: Classical.choice, Quot.sound, propext
C95 Verif.Props.C95_all_texts: Classical.choice, Quot.sound, propext
C95 Verif.Props.C95_canonical: Classical.choice, Quot.sound, propext
C96 Verif.Props.C96_header: Classical.choice, Quot.sound, propext
C96 Verif.Props.C96_fits: Classical.choice, Quot.sound, propext
C96 Verif.Props.C96_sharp: Classical.choice, Quot.sound, propext
C97 Verif.Props.C97_random_bytes: Classical.choice, Quot.sound, propext
C97 Verif.Props.C97_valid_fields: Classical.choice, Quot.sound, propext
C97 Verif.Props.C97_right_pad: Quot.sound, propext
C97 Verif.Props.C97_maxima: Classical.choice, Quot.sound, propext
C98 Verif.Props.C98_values: Classical.choice, Quot.sound, propext
C98 Verif.Props.C98_scratch: Classical.choice, Quot.sound, propext
C98 Verif.Props.C98_every_stream: Classical.choice, Quot.sound, propext
C98 Verif.Props.C98_callers_reader: Classical.choice, Quot.sound, propext
C98 Verif.Props.C98_token_stays: propext
C98 Verif.Props.C98_token_expires: Classical.choice, Quot.sound, propext
C99 Verif.Props.Bsd.C99_same_message_all: Classical.choice, Quot.sound, propext
C99 Verif.Props.Bsd.C99_same_message: Classical.choice, Quot.sound, propext
C99 Verif.Props.Bsd.C99_resend: Classical.choice, Quot.sound, propext
C99 Verif.Props.Bsd.C99_timezone_moves: Classical.choice, Quot.sound, propext
