#!/usr/bin/env python3
"""Source of /verif/MANIFEST.json."""
import json, os
C = []
def c(prop, status, theorems, note=""):
    C.append(dict(property=prop, status=status, theorems=["Verif.Props." + t for t in theorems], note=note))

c("C01", "proved", ["C01_strict_accepts_iff_grammar", "C01_decomposition_unique"])
c("C02", "proved", ["C02_exactly_one","C02_exactly_one_any_state", "C02_parser_same_as_machine"], "history independence is C06")
c("C03", "proved", ["C03_partial_message_iff"])
c("C04", "proved", ["C04_success_same", "C04_error_same"])
c("C05", "proved", ["C05_returned_valid"])
c("C06", "proved", ["C06_history_independent","C06_state_independent"])
c("C07", "proved", ["C07_field_bounds"])
c("C08", "proved", ["C08_timestamp_is_written_and_real", "C08_impossible_date_refused"])
c("C09", "proved", ["C09_duplicate_id_refused", "C09_one_entry_per_element"])
c("C10", "proved", ["C10_values_unescaped"])
c("C11", "proved", ["C11_msg_verbatim", "C11_no_msg", "C11_every"])
c("C12", "proved", ["C12_compliant_accepts_iff", "C12_refused"])
c("C13", "proved", ["C13_column_in_range"])
c("C14", "proved", ["C14_error_decided_by_prefix"])
c("C15", "proved", ["C15_no_panic"])
c("C17", "proved", ["C17_decomposition", "C17_valid_iff", "C17_lookups", "C17_names", "C17_names_identify"])
c("C18", "proved", ["C18_decimal_value", "C18_inverse_of_printing"])
c("C19", "proved", ["C19_remove_exactly"])
c("C20", "proved", ["C20_escape_safe_and_reversible", "C20_unescaping_is_a_function"])

c("C39","proved",["C39_round_trip"],"Any read schedule, both modes.")
c("C40","proved",["C40_split_independent"],"bufio.Reader is modelled; any cut of the stream.")
c("C41","proved",["C41_strict_stops_at_first_error","C41_nothing_after_error"],"First theorem for every read schedule, including mid-stream read errors.")
c("C42","proved",["C42_best_effort_goes_on","C42_ends_without_lt"],"Holds for frames whose message starts with '<'; the second theorem shows the other frames end parsing (finding).")
c("C43","proved",["C43_only_pieces_up_to_max","C43_too_long_refused","C43_too_long_refused_after"],"Includes lengths that overflow int and uint64.")
c("C44","proved",["C44_terminates","C44_success_means_frames","C44_empty_stream"],"Equivalence: success only <-> sequence of (loose) frames up to end or NUL.")
c("C45","proved",["C45_truncated"],"Every proper non-empty prefix of the last frame.")
c("C46","proved",["C46_nul_hides_the_rest"],"The user expectation is false of the code; the actual behaviour is proved.")
c("C47","proved",["C47_history_independent"],"Any history of streams with any read schedules.")
c("C48","proved",["C48_nontransparent_round_trip","C48_accepted_messages_come_back"],"For every admissible behaviour of the external read loop (Driver).")
c("C49","proved",["C49_number_and_order"],"Existence of the splitting and the results for every splitting.")
c("C50","proved",["C50_unterminated_rest"])
c("C51","proved",["C51_silent_drop"],"The user expectation is false of the code; the actual behaviour is proved.")
c("C52","proved",["C52_reuse_repeats_last_message","C52_reuse_is_not_fresh"],"The user expectation is false of the code; the actual behaviour is proved.")
c("C53","proved",["C53_trailer_names","C53_text_round_trip","C53_refused_text_overwrites"])
c("C54","proved",["C54_unknown_trailer_ignored","C54_trailers_agree"])
c("C16","proved",["C16_concurrent_parse","C16_no_deadlock","C16_rfc3164_concurrent_parse","C16_rfc3164_no_deadlock"],"Interleaving model, any number of goroutines and calls; mutual exclusion is part of the theorem.")
c("C21","proved",["C21_priority","C21_version","C21_timestamp","C21_hostname","C21_appname","C21_procID","C21_msgID","C21_message","C21_elementID"])
c("C22","proved",["C22_only_own_field"])
c("C23","proved",["C23_well_formed","C23_bad_id","C23_bad_name"])
c("C24","proved",["C24_error_iff_invalid"])
c("C25","proved",["C25_order_irrelevant","C25_any_sorting_algorithm"])
c("C26","proved",["C26_built_messages_parse","C26_built_messages_parse_compliant"])
c("C27","proved",["C27_round_trip"])
c("C28","proved",["C28_exact_boundary","C28_counterexample"],"The user expectation is false of the code; the exact boundary is proved.")
c("C29","proved",["C29_parse_string_parse"])
c("C30","proved",["C30_serialised","C30_overlap_corrupts","C30_overlap_panics"],"The user expectation is false under overlap (two witnesses); the positive part is proved for every schedule without overlapping SetParameter calls.")
def b(prop, names, note=""): c(prop, "proved", ["Bsd." + n for n in names.split()], note)
b("C31","C31_accepts_iff C31_default_options C31_decomposition_unique C31_clean_accepted","The language of the MSG part is the specification in Spec/Rfc3164.lean, stated without the automaton.")
b("C32","C32_strict_never_both C32_nil_nil_iff C32_otherwise_exactly_one C32_best_effort_message_iff C32_best_effort_silent","The user expectation is false of the code; the exact set of (nil, nil) inputs is proved.")
b("C33","C33_returned_valid C33_priority_exact C33_timestamp_written")
b("C34","C34_tag_pid_text C34_tag_text C34_no_tag C34_bracket_overwrites C34_reading_unique")
b("C35","C35_rfc3339_conservative C35_accepted_same")
b("C36","C36_year C36_year_feb29 C36_timezone_same_instant C36_locale_timezone C36_rfc3339_unaffected","C36_locale_timezone assumes the written time is not skipped by the clocks of the zone.")
b("C37","C37_history_independent C37_parser_same_as_machine C37_error_same C37_success_same")
b("C38","C38_no_panic C38_column_in_range C38_error_decided_by_prefix C38_impossible_date")
c("C55","proved",["C55_column_is_longest_viable_prefix","C55_timestamp"])
c("C56","proved",["C56_truncation_reported_at_end"])
c("C57","proved",["C57_refused_iff","C57_every_outcome"],"Specification: Verif/Spec/Rfc5424Errors.lean (Broken).")
c("C58","proved",["C58_empty_id_drops_previous_element","C58_empty_name_drops_previous_parameter"],"The user expectation is false of the code; the actual behaviour is proved.")
b("C59","C59_every_outcome C59_one_outcome","Specification: Verif/Spec/Rfc3164Errors.lean (Broken).")
c("C60","proved",["C60_every_stream","C60_one_outcome","C60_shape"],"Specification: Verif/Spec/OctetStream.lean (Emits).")
c("C61","proved",["C61_rfc5424_column","C61_rfc3164_column","C61_rfc5424_constant","C61_rfc5424_text_identifies","C61_rfc5424_names","C61_rfc3164_names","C61_rfc3164_text_identifies","C61_impossible_date_text","C61_rfc3164_impossible_date_text","C61_token_types","C61_octet_text_identifies"])
c("C63","proved",["C63_rfc5424_options","C63_rfc5424_err","C63_rfc3164_options","C63_rfc3164_err","C63_octet_late_best_effort","C63_octet_late_every_stream","C63_octet_late_goes_on","C63_nontransparent_late_best_effort"])
c("C65","proved",["C65_caller_memory_untouched"])
c("C62","proved",["C62_octet_counting","C62_nontransparent","C62_nontransparent_boundary","C62_framings_agree","C62_framable_iff"])
c("C64","proved",["C64_buildable_iff"],"Specification: Verif/Spec/BuilderCalls.lean (Buildable).")
c("C66","proved",["C66_returned_can_be_built","C66_returned_string_parses"])
c("C67","proved",["C67_calls_denote","C67_one_meaning"],"Specification: Verif/Spec/BuilderCalls.lean (Denotes).")
c("C68","proved",["C68_prompt","C68_same_results"])
c("C69","proved",["C69_last_message_held_back","C69_single_message_not_delivered","C69_prefix"],"The user expectation is false of the code; the actual behaviour is proved, for every behaviour of the external read loop that the repository leaves open.")
c("C70","proved",["C70_error_is_end","C70_error_in_length_skipped","C70_lost_connection_invisible"],"Specification: Verif/Spec/OctetStream.lean (Emits, AtLength).")
c("C71","proved",["C71_huge_maximum"],"The user expectation is false of the code; the actual behaviour is proved.")
c("C72","proved",["C72_resume","C72_plain_reader_loses","C72_buffered"])
c("C73","proved",["C73_every_history","C73_one_outcome","C73_repeated_for_ever","C73_rest_repeated"],"Specification: Verif/Spec/NonTransparentCalls.lean (Calls).")
c("C74","proved",["C74_no_panic","C74_setter","C74_parse","C74_assign","C74_detach","C74_buffers","C74_independent","C74_copy_is_shallow"],"Heap model: Verif/Messages.lean; the setters write cells and maps of the heap. C74_copy_is_shallow is a literal instance that shows the finding.")
c("C75","proved",["C75_round_trip_iff","C75_not_buildable","C75_hostname_forges"],"Specification: Verif/Spec/BuilderCalls.lean (Buildable). The user expectation that String validates is false of the code.")
c("C76","proved",["C76_rfc5424","C76_rfc3164","C76_before_and_after","C76_no_deadlock","C76_any_reads","C76_any_reads_rfc3164"],"Specification: Linear and Right in Verif/Conc/Flag.lean.")
c("C77","proved",["C77_bound","C77_linear_without_escapes","C77_quadratic","C77_counter","C77_removed"],"The user expectation of linear time is false of the code. Work: Verif/Cost.lean and work in Verif/Rfc5424/Cost.lean; C77_counter relates it to a counter in the state of the automaton.")
b("C78","C78_bound C78_linear C78_quadratic C78_counter","The user expectation of linear time is false of the code. Work: Verif/Cost.lean and work in Verif/Rfc3164/Cost.lean.")
c("C79","proved",["C79_result","C79_quadratic","C79_plain"],"The user expectation of linear time is false of the code.")
c("C81","proved",["C81_every_stream","C81_one_outcome","C81_platforms_agree","C81_round_trip","C81_wrong_length","C81_is_64","C81_spec_64"],"the expectation is false of the code; proved: the actual behaviour")
b("C80","C80_column_is_longest_viable_prefix C80_timestamp C80_truncation")
c("C82","proved",["C82_only_listening","C82_nested_parse_loses_rest","C82_nested_parse_goes_on","C82_nested_parse_at_error","C82_new_maximum","C82_larger_maximum","C82_best_effort"],"the expectation is false of the code; proved: the actual behaviour")
c("C83","proved",["C83_only_listening","C83_nested_parse_repeats","C83_best_effort"],"the expectation is false of the code; proved: the actual behaviour")
c("C84","proved",["C84_bounded","C84_covers","C84_buffer","C84_length_text","C84_unbounded"],"The expectation that the maximum bounds the memory is false of the code for the text of a length; proved: the bound for everything else, and that there is none for it.")
c("C85","proved",["C85_bound","C85_linear","C85_without_escapes"],"Work: Verif/Octet/Cost.lean (and Verif/Rfc5424/Cost.lean for a message)")
c("C86","proved",["C86_bound","C86_used","C86_quadratic","C86_retained"],"Work: Verif/NonTransparent/Cost.lean. The external read loop is counted as 1 for every byte and chunk.")
c("C87","proved",["C87_compliant","C87_default","C87_conforming","C87_stream","C87_lone_backslash"],"The ABNF is Verif/Spec/Abnf.lean, one definition per rule of the RFC.")
c("C88","proved",["C88_disjoint","C88_rfc5424_to_rfc3164","C88_rfc3164_to_rfc5424"],"")
c("C89","proved",["C89_lines_to_octet","C89_octet_to_lines"],"")
c("C90","proved",["C90_injection"],"The expectation is false of the code (and of non-transparent framing as such); proved: what happens.")
c("C91","proved",["C91_every_call","C91_then_parse","C91_listener","C91_reader_prefix","C91_nothing_waits","C91_resumes"],"What is left of the scanner when the reader panics is arbitrary in the model.")
c("C92","proved",["C92_every_history","C92_without_panic","C92_redelivered","C92_poison"],"The expectation is false of the code; proved: what happens.")
c("C93","proved",["C93_every_cut","C93_truth","C93_header","C93_elements","C93_bracket","C93_unnoticed","C93_message","C93_octet","C93_lines"],"")
b("C94","C94_every_cut C94_header C94_wrong_priority C94_unnoticed C94_brackets C94_colon","The expectation is false of the code; proved: what happens.")
c("C95","proved",["C95_same_message","C95_all_texts","C95_canonical"],"")
c("C96","proved",["C96_header","C96_fits","C96_sharp"],"")
c("C97","proved",["C97_random_bytes","C97_valid_fields","C97_right_pad","C97_maxima"],"")
c("C98","proved",["C98_values","C98_scratch","C98_every_stream","C98_callers_reader","C98_token_stays","C98_token_expires"],"")
b("C99","C99_same_message_all C99_same_message C99_resend C99_timezone_moves","")
c("C100","proved",["C100_rfc5424","C100_rfc3164","C100_rfc5424_history","C100_rfc3164_history","C100_rfc5424_accepts_iff","C100_rfc3164_accepts_iff"],"")
c("C101","proved",["C101_set","C101_setters","C101_setters_return","C101_exec","C101_lines"],"")
c("C102","proved",["C102_ranges","C102_decimal","C102_escape","C102_remove_any","C102_remove","C102_base_valid","C102_valid5","C102_compute","C102_texts","C102_export5","C102_export3"],"")
c("C103","proved",["C103_options", "C103_parse", "C103_hasBestEffort", "C103_texts"],"")
c("C104","proved",["C104_entry", "C104_string", "C104_setter", "C104_chain"],"")
c("C105","proved",["C105_options", "C105_rfc5424", "C105_rfc3164", "C105_lock", "C105_machine"],"")
c("C106","proved",["C106_parser", "C106_history", "C106_trailers", "C106_trailer_names"],"")
c("C107","proved",["C107_chain", "C107_built", "C107_independent", "C107_new_is_independent", "C107_copy", "C107_copy_back", "C107_copy_nil"],"")
c("C108","proved",["C108_rfc5424", "C108_rfc3164", "C108_octet", "C108_octet_messages", "C108_lines"],"")
c("C109","proved",["C109_values", "C109_program", "C109_parse", "C109_kept"],"")
c("C110","proved",["C110_values", "C110_program", "C110_parse3", "C110_kept"],"")
c("C111","proved",["C111_values", "C111_program", "C111_results", "C111_kept"],"")
c("C112","proved",["C112_values", "C112_program", "C112_own", "C112_kept"],"")
c("C113","proved",["C113_every_history", "C113_without_panic", "C113_prefix", "C113_next_call"],"")
c("C114","proved",["C114_every_history"],"")
c("C115","proved",["C115_every_stream", "C115_one_outcome", "C115_consumed", "C115_stuck", "C115_frames", "C115_other_between"],"")
c("C116","proved",["C116_every_stream", "C116_one_list"],"")
c("C117","proved",["C117_octet_every_history", "C117_octet_results", "C117_lines_every_history", "C117_everything_once", "C117_reported", "C117_last_one_set", "C117_from_inside"],"")
c("C118","proved",["C118_panicking_listener"],"That a caller goes on with the same *bufio.Reader after the panic is on the model only (C91).")
c("C119","proved",["C119_panicking_reader", "C119_not_swallowed"],"The state of the parser after the panic is not part of this.")
C.sort(key=lambda d: d["property"])
root = os.path.dirname(os.path.dirname(os.path.abspath(__file__)))
json.dump({"claims": C}, open(os.path.join(root, "MANIFEST.json"), "w"), indent=1)
