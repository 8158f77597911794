# A machine-checked model of influxdata/go-syslog in Lean 4

`/repo` is read as text only; nothing of it is built or run. `properties.jsonl` lists the properties, `MANIFEST.json` names the theorems,
`lean/Verif/Props/*.lean` contains them (and nothing else but examples and small glue), `lean/Verif/Spec/*.lean` contains the
specifications they are stated with, the rest of `lean/Verif` is model and proof.

## 1. What is modelled, and how

| Code | Lean | How |
|---|---|---|
| `common/functions.go`, `common/facility.go`, `common/severity.go`, `syslog.go` (`Base`) | `Verif/Common.lean`, `Verif/Base.lean` | hand translation, function by function |
| `rfc5424/machine.go` (12 046 generated lines) | `Verif/Gen/Rfc5424.lean` (tables) + `Verif/Rfc5424/Machine.lean` (semantics) | the *generated Go FSM* is translated mechanically by `tools/extract.py`/`tools/gen.py` into a table: one row per `stCaseN:` label (from-state actions, byte ranges -> `trN`/`stN`, end-of-input actions). The script refuses any Go snippet it does not recognise verbatim. The meaning of every action is written by hand in Lean; each constructor of `Act` quotes its Go text. |
| `rfc5424/builder.go` (`set`, all setters, `String`, `Valid`) | `Verif/Gen/Builder.lean` + `Verif/Builder/*.lean` | same |
| `rfc3164/machine.go`, `rfc3164/syslog_message.go`, `rfc3164/options.go`, `rfc3164/year.go` | `Verif/Gen/Rfc3164.lean` + `Verif/Rfc3164/*.lean` | same |
| `octetcounting/{scanner,tokens,parser}.go` | `Verif/Octet/Model.lean` (64 bits), `Verif/Octet/Platform.lean` (any size of `int`), `Verif/Octet/Late.lean` (late options), `Verif/Octet/Listener.lean`, `Verif/Octet/Replace.lean` (listeners that call the parser, or install another listener), `Verif/Octet/Open.lean` (readers and listeners that panic), `Verif/Octet/Memory.lean` (with the memory of the buffer) | hand translation; `bufio.Reader` is modelled as a buffer over an arbitrary list of `Read` results |
| `nontransparent/{parser,trailer_type}.go` | `Verif/NonTransparent/Model.lean`, `Verif/NonTransparent/Listener.lean`, `Verif/NonTransparent/Replace.lean` (listeners that call the parser, or install another listener), `Verif/NonTransparent/Panic.lean` (listeners that panic) | hand translation of the FSM; the external read loop (`ragel-machinery/parser`) is a parameter (`Driver`) |
| the bodies of `Parse` (`rfc5424/machine.go:113`, `rfc3164/machine.go:97`), `set` (`rfc5424/builder.go:67`) and `Exec` (`nontransparent/parser.go:28`) as programs | `Verif/Gen/Go*.lean` (programs) + `Verif/Go/Lang.lean` (the part of Go they use) + `Verif/Go/{Rfc5424,Rfc3164,Builder,Lines}.lean` (meaning of the other statements) | transcribed statement by statement by `tools/goast.py`; `Verif/Go/{Ragel,Check}.lean` and C100, C101 prove that the programs do what the tables say |
| the hand-written functions of all packages as programs (119 functions) | `Verif/Gen/Mini.lean` (programs) + `Verif/Mini/Lang.lean` (syntax and meaning of the part of Go they use: heap, structs, slices, maps, closures, calls through interfaces, `defer`) | transcribed statement by statement by `tools/gomini.py`; `Verif/Mini/*.lean` and the properties from C102 on prove that the programs do what the hand translations say |
| `testing/testing.go` (`RandomBytes`, `RightPad`, the maxima) | `Verif/Testing.lean` | hand translation; the random source is a parameter |
| error texts (the `Err...` constants, `fmt.Errorf` templates, `Token.String`) | `Verif/Texts.lean` | hand translation |
| mutex-protected `parser` types (`rfc5424/parser.go`, `rfc3164/parser.go`) | `Verif/Conc/Lock.lean` | interleaving state machine: lock, start, end, unlock are separate steps of every goroutine |
| `WithBestEffort`, `HasBestEffort` of a parser shared by goroutines (`machine.go`, `parser.go` of both RFCs) | `Verif/Conc/Flag.lean` | interleaving state machine with a ghost clock; the two reads of the mode in `Parse` are separate steps |
| package variables of `rfc5424/builder.go` shared by goroutines | `Verif/Conc/Builders.lean` | interleaving state machine: `SetParameter` is five steps |
| `common.RemoveBytes` on a shared backing array | `Verif/Heap.lean` | explicit heap of byte arrays, slices as (array, offset, length, capacity) |
| the pointers and maps of `rfc5424.SyslogMessage` (setters, `export`, copies) | `Verif/Messages.lean` | explicit heap; the setter automaton runs on heap cells; a program is any list of operations on messages and buffers |
| the work of parsing and escaping | `Verif/Cost.lean`, `Verif/Rfc5424/Cost.lean`, `Verif/Rfc3164/Cost.lean`, `Verif/Octet/Cost.lean`, `Verif/NonTransparent/Cost.lean`, `Verif/Props/CostEscape.lean` | counts dispatches, actions and the bytes each action reads or copies; allocation, map access and `append` to a short slice count 1 |

Strings are byte lists (`List UInt8`). Go maps are canonical (sorted) association lists; where Go iterates a map, the iteration
order is an explicit argument. `panic` (nil-map write, slice out of range) is an explicit outcome (`none`), so "never panics" is a
theorem, not an artefact of totalisation. `uint8`/`uint16`/`uint64`/`int` conversions wrap as in Go where a value can reach the bound
(priority, version, message length).

`time.Time` is modelled by civil fields, nanoseconds and zone offset; `time.Parse`/`Format`/`AddDate`/`In`/`ParseInLocation` are
modelled on the texts the FSMs let through (`Verif/GoTime.lean`, `Verif/Calendar.lean`); a `*time.Location` is an arbitrary function from
instants to offsets.

### Not modelled

* `docs/`, `StringAddress`, `Uint8Address`, `TimeParse`, `YearTime` of `testing/testing.go`, the `.rl` sources (the generated Go is what runs), `init`-time registration: none exists.
* `Go` memory safety/GC, wall-clock performance (the work is counted: C77-C79, C85, C86), goroutine scheduling below the granularity named above; data races as such
  (sequential consistency is assumed: C16 shows there are none on the parser, C30 that there are on the builder; the mode of a parser is switched without
  the mutex, a race whose possible outcomes are covered by `C76_any_reads`).
* `WithListener`'s user callback: in most theorems it only records results. C82 and C83 model a callback that calls `Parse` and the
  option setters of the same parser (to any depth), C91, C92 and (statement by statement, `Mini/Cut.lean`) C118 one that panics (and with C113 a reader that panics), C117 one that installs another listener; a callback that hands the parser to other goroutines is not
  modelled.
* `parser.WithError` / driver internals of `ragel-machinery`: parameters.
* `make` panicking or memory running out for a large maximum message length.

## 2. Trusted base

1. Lean's kernel (Lean 4.33.0). No axiom is added; no `native_decide`/`bv_decide`; the axioms of every theorem are listed in `AXIOMS.md`
   (written by `tools/axioms.py` with `#print axioms`): at most `propext`, `Classical.choice`, `Quot.sound`.
2. `tools/goast.py`: the programs of `Verif/Gen/Go*.lean` are the Go function bodies, statement for statement, and the small semantics of
   `goto`, `if`, `switch`, assignments and slices in `Verif/Go/Lang.lean` and `Verif/Go/*.lean` is Go's. `tools/extract.py` and `tools/gen.py`,
   which interpret the same code as tables, need not be trusted for the control flow: C100 and C101 prove that program and table agree. Both
   scripts abort on any line they do not recognise; their output is committed, and rerunning them on `/repo` reproduces it byte for byte.
   `tools/unparse.py`, which shares nothing with `goast.py`, prints the committed programs back as Go and compares them with `/repo`: all 4825
   labels and 21259 statements, the order of labels, the `switch cs` tables and the search trees are equal.
   The same holds for `tools/gomini.py`, `Verif/Gen/Mini.lean` and `Verif/Mini/Lang.lean` (simplifications: top of that file) with respect to
   the hand-written functions; the hand translations that C102 and the properties after it compare with need not be trusted.
   What those programs call and is not among them is a parameter of the semantics with a stated contract: `bufio`, `io`, the RFC parser (C103),
   `sort.Strings`, `fmt`, `time.Format` (`libX`, C104), the mutex and the clock (`ParserEnv`, `ClockEnv`, C105), the generated
   `machine.Parse` (`ParseOk`, C105 and C106, met by `xMachine5` and `xMachine3`; in C108 it is the execution of the Go body, `goParse5` and
   `goParse3`, and there is no such hypothesis), and for C106 (`ntX`) the listener, `fmt.Errorf`,
   `strings.ToUpper` and ragel-machinery (`xRagelParse`, item 5). The generated functions `set` (C104, C107) and `Exec` (C106) are not
   assumptions: their programs (`Verif/Gen/GoBuilder.lean`, `Verif/Gen/GoLines.lean`) are executed over the same memory, with the meaning
   of their statements in `Mini/SetGo.lean` (`setStmt`, `setCond`) and `Mini/Lines.lean`. In C109 to C112 the generated `machine.Parse` is executed over
   the same memory too (`parseStmt`, `parseCond`, `parseRet` in `Mini/ParseGo.lean`, for rfc3164 and C110 in `Mini/ParseGo3.lean`: the message under construction, its maps and the
   exported message are in memory; the integer and byte-slice working fields of the machine are kept beside it, with arbitrary initial
   contents `left`). C111 (`streamX`) has the external functions of C103 and of C109 in one list, C112 (`lineX`) those of C106 and of C109, with the same meanings; `Mini/Mono.lean` proves that
   a longer list keeps every execution that ends.
3. The hand translations named above, each definition with a citation of file and lines (`tools/cites.py` checks that every cited range
   exists).
4. The models of Go's `time`, `bufio`, `strconv`, `sort`, `fmt` on the inputs that reach them.
5. The assumed contract of `github.com/leodido/ragel-machinery` (not in the repository): `ArbitraryReader` cuts after every trailer byte,
   `Parse` runs `Exec` on each chunk with the state left by the previous one, then `OnErr`/`OnEOF`, then `OnCompletion`. What the
   repository's tests do not fix is a field of `Driver`, and theorems hold for all values. C92 and C113 assume that it does not recover from panics.
6. The English of `properties.jsonl` agrees with the theorem statements: what one has to read are `Verif/Props` and `Verif/Spec`.

## 3. Proof architecture

0. **Programs** (`Verif/Gen/Go*.lean`), simulated by -> 1. **tables** (extracted) -> 2. **abstract control automaton** with counters (`host k`, `sdid k`, ...), related to the table by a
simulation checked by the kernel for *every* state and *every* byte (`decide +kernel` over the whole finite table, lifted by a lemma to
all byte strings) -> 3. **descent function**: a recursive-descent parser on byte lists; theorem `parse = descent` for all inputs, all
options and all previous machine states (induction on the input) -> 4. **declarative grammar** (`Verif/Spec/*.lean`), written without
reference to the model; soundness and completeness of the descent function with respect to it -> 5. property theorems
(`Verif/Props/*.lean`), all stated about the table machine (layer 1), one file per area, with non-vacuity examples next to them.

The refusals have a specification of their own: `Spec/Rfc5424Errors.lean`, `Spec/Rfc3164Errors.lean` (`Broken`: where a text stops being
a message, which error, what is left of the message) and `Spec/OctetStream.lean` (`Emits`). Together with the grammars they determine
every outcome of every input (C57, C59, C60).

Octet counting: `runLoop` over `bufio` -> `prun` over the list of delivered bytes (for every read schedule) -> frames / `Emits`.

## 4. Properties, method, theorems

Names are in namespace `Verif.Props`. All properties of the list can be expressed in the model; where the property a user expects is false of
the code, the theorem states and proves what the code does (marked "finding" below).

<!-- table -->
| | Property | Status | Method | Theorems |
|---|---|---|---|---|
| C01 | RFC5424 strict acceptance is exactly the grammar | proved | descent = grammar, both directions; uniqueness of the decomposition | `C01_strict_accepts_iff_grammar`, `C01_decomposition_unique` |
| C02 | RFC5424 strict mode: exactly one of message and error | proved | case analysis of the descent | `C02_exactly_one`, `C02_exactly_one_any_state`, `C02_parser_same_as_machine` |
| C03 | RFC5424 best effort returns a partial message exactly when the header minimum was read | proved | descent, invariant of the partial output | `C03_partial_message_iff` |
| C04 | Best effort never changes a successful parse | proved | the two modes run the same steps | `C04_success_same`, `C04_error_same` |
| C05 | Every returned RFC5424 message is valid and internally consistent | proved | invariant of the output over all steps | `C05_returned_valid` |
| C06 | RFC5424 parser reuse: results do not depend on history | proved | `parse` equals a function that does not take the old machine state | `C06_history_independent`, `C06_state_independent` |
| C07 | RFC5424 header field bounds | proved | from C01 | `C07_field_bounds` |
| C08 | RFC5424 timestamps denote real calendar instants | proved | from C01 + calendar | `C08_timestamp_is_written_and_real`, `C08_impossible_date_refused` |
| C09 | Duplicate structured data ids are always rejected | proved | from the grammar of elements | `C09_duplicate_id_refused`, `C09_one_entry_per_element` |
| C10 | SD-PARAM values are unescaped exactly | proved | from C01 + escaping specification | `C10_values_unescaped` |
| C11 | RFC5424 MSG is the verbatim remainder | proved | from C01 | `C11_msg_verbatim`, `C11_no_msg`, `C11_every` |
| C12 | Compliant MSG mode | proved | UTF-8 automaton = RFC 3629 ABNF, then as C01 | `C12_compliant_accepts_iff`, `C12_refused` |
| C13 | RFC5424 error columns are in range | proved | invariant on the position | `C13_column_in_range` |
| C14 | RFC5424 errors depend only on the prefix up to the reported column | proved | prefix lemma: the run up to the error does not look further | `C14_error_decided_by_prefix` |
| C15 | RFC5424 Parse never panics | proved | panic is an outcome; proved unreachable from every machine state | `C15_no_panic` |
| C16 | Concurrent use of a NewParser parser | proved | invariant over all interleavings | `C16_concurrent_parse`, `C16_no_deadlock`, `C16_rfc3164_concurrent_parse`, `C16_rfc3164_no_deadlock` |
| C17 | Priority decomposition | proved | all 256 values; names against RFC 5424/5427 tables | `C17_decomposition`, `C17_valid_iff`, `C17_lookups`, `C17_names`, `C17_names_identify` |
| C18 | Decimal conversion | proved | induction | `C18_decimal_value`, `C18_inverse_of_printing` |
| C19 | RemoveBytes removes exactly the given positions | proved | induction on the positions | `C19_remove_exactly` |
| C20 | EscapeBytes makes ASCII values safe and reversible | proved | induction on the text | `C20_escape_safe_and_reversible`, `C20_unescaping_is_a_function` |
| C21 | Builder setters accept exactly the grammar and ignore the rest | proved | builder tables = grammar of each field | `C21_priority`, `C21_version`, `C21_timestamp`, `C21_hostname`, `C21_appname`, `C21_procID`, `C21_msgID`, `C21_message`, `C21_elementID` |
| C22 | Setters touch only their own field | proved | same | `C22_only_own_field` |
| C23 | SetParameter semantics | proved | same, three `set` runs | `C23_well_formed`, `C23_bad_id`, `C23_bad_name` |
| C24 | String fails exactly on invalid messages | proved | case analysis | `C24_error_iff_invalid` |
| C25 | String output does not depend on map iteration order | proved | sorting a permutation gives the same list | `C25_order_irrelevant`, `C25_any_sorting_algorithm` |
| C26 | Built messages parse | proved | printer output satisfies the grammar, then C01/C12 | `C26_built_messages_parse`, `C26_built_messages_parse_compliant` |
| C27 | Builder/parser round trip | proved | same + uniqueness | `C27_round_trip` |
| C28 | Round trip fails for non-ASCII parameter values | proved | exact set of texts that survive; witness | `C28_exact_boundary`, `C28_counterexample` |
| C29 | Parse/String/Parse is stable | proved | C01 + printer | `C29_parse_string_parse` |
| C30 | Builders are not isolated between goroutines | proved | interleavings: invariant without overlap, two witnesses with overlap | `C30_serialised`, `C30_overlap_corrupts`, `C30_overlap_panics` |
| C31 | RFC3164 acceptance and field extraction | proved | descent = grammar, uniqueness | `Bsd.C31_accepts_iff`, `Bsd.C31_default_options`, `Bsd.C31_decomposition_unique`, `Bsd.C31_clean_accepted` |
| C32 | RFC3164 Parse can return a nil error without a complete message | proved | exact set of silent inputs | `Bsd.C32_strict_never_both`, `Bsd.C32_nil_nil_iff`, `Bsd.C32_otherwise_exactly_one`, `Bsd.C32_best_effort_message_iff`, `Bsd.C32_best_effort_silent` |
| C33 | Every returned RFC3164 message is valid | proved | invariant | `Bsd.C33_returned_valid`, `Bsd.C33_priority_exact`, `Bsd.C33_timestamp_written` |
| C34 | RFC3164 tag, pid and message | proved | readings of the MSG language | `Bsd.C34_tag_pid_text`, `Bsd.C34_tag_text`, `Bsd.C34_no_tag`, `Bsd.C34_bracket_overwrites`, `Bsd.C34_reading_unique` |
| C35 | RFC3164 WithRFC3339 is a conservative extension | proved | comparison of two runs | `Bsd.C35_rfc3339_conservative`, `Bsd.C35_accepted_same` |
| C36 | RFC3164 year and timezone options | proved | calendar arithmetic | `Bsd.C36_year`, `Bsd.C36_year_feb29`, `Bsd.C36_timezone_same_instant`, `Bsd.C36_locale_timezone`, `Bsd.C36_rfc3339_unaffected` |
| C37 | RFC3164 reuse and mode agreement | proved | as C06 | `Bsd.C37_history_independent`, `Bsd.C37_parser_same_as_machine`, `Bsd.C37_error_same`, `Bsd.C37_success_same` |
| C38 | RFC3164 error columns and panics | proved | as C13-C15 | `Bsd.C38_no_panic`, `Bsd.C38_column_in_range`, `Bsd.C38_error_decided_by_prefix`, `Bsd.C38_impossible_date` |
| C39 | Octet counting round trip | proved | frames -> prun | `C39_round_trip` |
| C40 | Octet counting is independent of how the reader splits the stream | proved | prun depends on the delivered bytes only | `C40_split_independent` |
| C41 | Octet counting strict mode stops at the first error | proved | induction over the rounds | `C41_strict_stops_at_first_error`, `C41_nothing_after_error` |
| C42 | Octet counting best effort keeps going after message errors | proved | same | `C42_best_effort_goes_on`, `C42_ends_without_lt` |
| C43 | Octet counting length limit | proved | same | `C43_only_pieces_up_to_max`, `C43_too_long_refused`, `C43_too_long_refused_after` |
| C44 | Octet counting terminates and reports | proved | same, termination by fuel never exhausted | `C44_terminates`, `C44_success_means_frames`, `C44_empty_stream` |
| C45 | Octet counting truncated last frame | proved | prefixes of frames | `C45_truncated` |
| C46 | Octet counting NUL bytes | proved | actual behaviour | `C46_nul_hides_the_rest` |
| C47 | Octet counting parser reuse | proved | idle states | `C47_history_independent` |
| C48 | Non-transparent round trip | proved | chunk by chunk, all drivers | `C48_nontransparent_round_trip`, `C48_accepted_messages_come_back` |
| C49 | Non-transparent number and order of results | proved | same | `C49_number_and_order` |
| C50 | Non-transparent last message without trailer | proved | same | `C50_unterminated_rest` |
| C51 | Non-transparent silent drop | proved | actual behaviour | `C51_silent_drop` |
| C52 | Non-transparent parser reuse | proved | actual behaviour and positive part | `C52_reuse_repeats_last_message`, `C52_reuse_is_not_fresh` |
| C53 | Trailer type text round trip | proved | case analysis | `C53_trailer_names`, `C53_text_round_trip`, `C53_refused_text_overwrites` |
| C54 | WithTrailer ignores unknown trailers | proved | case analysis | `C54_unknown_trailer_ignored`, `C54_trailers_agree` |
| C55 | The error column is the end of the longest viable prefix | proved | every shorter prefix can be completed to a message (construction) | `C55_column_is_longest_viable_prefix`, `C55_timestamp` |
| C56 | Truncated messages are reported at the cut | proved | from C55/C57 | `C56_truncation_reported_at_end` |
| C57 | Complete specification of refusals | proved | descent = `Broken` | `C57_refused_iff`, `C57_every_outcome` |
| C58 | What best effort keeps of structured data | proved | from C57 | `C58_empty_id_drops_previous_element`, `C58_empty_name_drops_previous_parameter` |
| C59 | Complete specification of the RFC 3164 outcomes | proved | descent = `Broken` (3164) | `Bsd.C59_every_outcome`, `Bsd.C59_one_outcome` |
| C60 | Complete specification of the octet counting results | proved | prun = `Emits` | `C60_every_stream`, `C60_one_outcome`, `C60_shape` |
| C61 | Error texts | proved | suffix/prefix analysis of the texts | `C61_rfc5424_column`, `C61_rfc3164_column`, `C61_rfc5424_constant`, `C61_rfc5424_text_identifies`, `C61_rfc5424_names`, `C61_rfc3164_names`, `C61_rfc3164_text_identifies`, `C61_impossible_date_text`, `C61_rfc3164_impossible_date_text`, `C61_token_types`, `C61_octet_text_identifies` |
| C63 | Options and accessors | proved | induction on option lists; invariant of the run; bisimulation up to the flag | `C63_rfc5424_options`, `C63_rfc5424_err`, `C63_rfc3164_options`, `C63_rfc3164_err`, `C63_octet_late_best_effort`, `C63_octet_late_every_stream`, `C63_octet_late_goes_on`, `C63_nontransparent_late_best_effort` |
| C65 | Removing bytes never touches the caller's memory | proved | heap model of slices refines the list model of C19 | `C65_caller_memory_untouched` |
| C62 | End to end: build, print, frame, receive | proved | composition of C27 with C39/C48; which texts can be framed by induction on the grammar | `C62_octet_counting`, `C62_nontransparent`, `C62_nontransparent_boundary`, `C62_framings_agree`, `C62_framable_iff` |
| C64 | Which messages can be built | proved | invariant of the setters and its converse by construction of a chain | `C64_buildable_iff` |
| C66 | Returned messages can be passed on | proved | partial messages of `Broken` are messages of the grammar | `C66_returned_can_be_built`, `C66_returned_string_parses` |
| C67 | Meaning of a chain of setter calls | proved | induction on the chain | `C67_calls_denote`, `C67_one_meaning` |
| C68 | Octet counting delivers promptly | proved | loop with the unread schedule attached to each result; frame by frame | `C68_prompt`, `C68_same_results` |
| C69 | Non-transparent framing delivers one message late | proved | chunk by chunk, stream left open; outputs only grow | `C69_last_message_held_back`, `C69_single_message_not_delivered`, `C69_prefix` |
| C70 | Read errors in octet counting streams | proved | tokens before an error are those at the end; induction on `Emits` | `C70_error_is_end`, `C70_error_in_length_skipped`, `C70_lost_connection_invisible` |
| C71 | Huge maximum length | proved | `prunc`, the run with a buffer of given size, refines the scanner on `bufio.Reader`; `bufSize` with wrapping addition | `C71_huge_maximum` |
| C72 | Going on after an error | proved | `parseOn` leaves what `prunc` leaves (`runLoop_spec`); induction on the calls; for the other readers: the schedule is empty after the first `Read` | `C72_resume`, `C72_plain_reader_loses`, `C72_buffered` |
| C73 | Complete specification of a non-transparent parser over all its calls | proved | `parse_groups`, `parse_bad_any`: a call from any machine state; every stream has one of two shapes; induction on the acts | `C73_every_history`, `C73_one_outcome`, `C73_repeated_for_ever`, `C73_rest_repeated` |
| C74 | Messages in memory: what is shared and what is not | proved | heap model of the messages; simulation of the setter automaton by the one on values; frame conditions; invariant over histories | `C74_no_panic`, `C74_setter`, `C74_parse`, `C74_assign`, `C74_detach`, `C74_buffers`, `C74_independent`, `C74_copy_is_shallow` |
| C75 | Messages filled in by hand | proved | C64, C66 and the converse of C28; the forged text is the text of another message by associativity | `C75_round_trip_iff`, `C75_not_buildable`, `C75_hostname_forges` |
| C76 | Switching the mode while goroutines parse | proved | invariant over all executions with a ghost clock; the automaton commutes with assignments to the mode | `C76_rfc5424`, `C76_rfc3164`, `C76_before_and_after`, `C76_no_deadlock`, `C76_any_reads`, `C76_any_reads_rfc3164` |
| C77 | Time of parsing an RFC 5424 message | proved | potential method over the automaton; abstract interpretation of the table computed by the kernel; counter semantics; explicit family for the lower bound | `C77_bound`, `C77_linear_without_escapes`, `C77_quadratic`, `C77_counter`, `C77_removed` |
| C78 | Time of parsing an RFC 3164 message | proved | potential method over the automaton; abstract interpretation of the table computed by the kernel; counter semantics; explicit family for the lower bound | `Bsd.C78_bound`, `Bsd.C78_linear`, `Bsd.C78_quadratic`, `Bsd.C78_counter` |
| C79 | Time of escaping a value | proved | invariant of the loop with a counter | `C79_result`, `C79_quadratic`, `C79_plain` |
| C80 | RFC 3164: the error column is the end of the longest viable prefix | proved | from the complete specification C59 and the prefix property C38 | `Bsd.C80_column_is_longest_viable_prefix`, `Bsd.C80_timestamp`, `Bsd.C80_truncation` |
| C81 | Octet counting on platforms with 32 bits | proved | the model with the number of bits of int as a parameter; refinement and specification as for C60 | `C81_every_stream`, `C81_one_outcome`, `C81_platforms_agree`, `C81_round_trip`, `C81_wrong_length`, `C81_is_64`, `C81_spec_64` |
| C82 | Octet counting: a listener that calls the parser | proved | the functions that emit with the listener as a parameter, nesting depth as fuel (results do not depend on it); invariant over frames up to and after the call | `C82_only_listening`, `C82_nested_parse_loses_rest`, `C82_nested_parse_goes_on`, `C82_nested_parse_at_error`, `C82_new_maximum`, `C82_larger_maximum`, `C82_best_effort` |
| C83 | Non-transparent framing: a listener that calls the parser | proved | the functions that emit with the listener as a parameter, nesting depth as fuel (results do not depend on it); invariant over groups of lines up to and after the call | `C83_only_listening`, `C83_nested_parse_repeats`, `C83_best_effort` |
| C84 | Octet counting: what is retained of a stream | proved | invariant of the states a Parse call goes through; explicit family of streams for the length text (from the specification of every stream, C60) | `C84_bounded`, `C84_covers`, `C84_buffer`, `C84_length_text`, `C84_unbounded` |
| C85 | Octet counting: time | proved | potential method: bytes left, calls left; induction on the rounds, with the bound of C77 for each message | `C85_bound`, `C85_linear`, `C85_without_escapes` |
| C86 | Non-transparent framing: time and memory | proved | potential method: length and backslashes of the candidate; explicit family for the lower bound (C77) | `C86_bound`, `C86_used`, `C86_quadratic`, `C86_retained` |
| C87 | Conformance with the text of RFC 5424 | proved | rule by rule equivalence of the ABNF with the grammar of C01 (induction on words); deviation from the specification of refusals (C57) | `C87_compliant`, `C87_default`, `C87_conforming`, `C87_stream`, `C87_lone_backslash` |
| C88 | Telling RFC 5424 and RFC 3164 messages apart | proved | from the complete specifications of both parsers (C57, C59): the byte after the priority decides | `C88_disjoint`, `C88_rfc5424_to_rfc3164`, `C88_rfc3164_to_rfc5424` |
| C89 | Choosing the wrong framing | proved | from the complete specifications of both framings (C60, C49-C51) | `C89_lines_to_octet`, `C89_octet_to_lines` |
| C90 | Messages that contain the trailer | proved | from C11, C39 and C48 | `C90_injection` |
| C91 | An octet counting parser survives panics | proved | the run with a reader that may panic simulates the run on every continuation of the stream (induction on rounds); the parser invariant (no token put back) holds wherever a panic can leave it | `C91_every_call`, `C91_then_parse`, `C91_listener`, `C91_reader_prefix`, `C91_nothing_waits`, `C91_resumes` |
| C92 | A non-transparent parser whose listener panics | proved | as C73, with an outcome for the panic: the first panicking result splits the reports of the call | `C92_every_history`, `C92_without_panic`, `C92_redelivered`, `C92_poison` |
| C93 | What is left of a truncated RFC 5424 message | proved | from the complete specification of outcomes (C57): the beginning of a message is parsed back at most one way (prefix-freeness of each field, induction on elements and parameters) | `C93_every_cut`, `C93_truth`, `C93_header`, `C93_elements`, `C93_bracket`, `C93_unnoticed`, `C93_message`, `C93_octet`, `C93_lines` |
| C94 | What is left of a truncated RFC 3164 message | proved | from the complete specification of outcomes (C59): a proper beginning of a word of a prefix-free language fails at its end, for each field | `Bsd.C94_every_cut`, `Bsd.C94_header`, `Bsd.C94_wrong_priority`, `Bsd.C94_unnoticed`, `Bsd.C94_brackets`, `Bsd.C94_colon` |
| C95 | Texts that say the same | proved | extensionality of the maps; digits of the fraction and offsets determine the time; String by C25 and C66 | `C95_same_message`, `C95_all_texts`, `C95_canonical` |
| C96 | How long a text may be | proved | lengths of the fields from the grammar of C01; C39 and C43 | `C96_header`, `C96_fits`, `C96_sharp` |
| C97 | The helpers of package testing | proved | loop invariant: after r rounds the loop has seen the first r groups | `C97_random_bytes`, `C97_valid_fields`, `C97_right_pad`, `C97_maxima` |
| C98 | The buffer is used again and nobody sees it | proved | refinement: a second model in which the buffer is an array and literals are offsets into it simulates the first; the window of waiting bytes is invariant under the copies | `C98_values`, `C98_scratch`, `C98_every_stream`, `C98_callers_reader`, `C98_token_stays`, `C98_token_expires` |
| C99 | Sending an RFC 3164 message on | proved | from C31: the part after the last ]: of a text has no such part itself, which determines how the text of the relay is read | `Bsd.C99_same_message_all`, `Bsd.C99_same_message`, `Bsd.C99_resend`, `Bsd.C99_timezone_moves` |
| C100 | Parse of both RFCs, statement by statement | proved | simulation of the goto program by the table automaton: its blocks are compared with the table for every state and byte by functions whose soundness is proved and which the kernel evaluates, each action's statements are proved to do what the action does, then induction on the input | `C100_rfc5424`, `C100_rfc3164`, `C100_rfc5424_history`, `C100_rfc3164_history`, `C100_rfc5424_accepts_iff`, `C100_rfc3164_accepts_iff` |
| C101 | Setters and non-transparent framing, statement by statement | proved | the setters as C100 (the actions never jump, so that also panics agree); `Exec` by a direct simulation, its dispatch for all 256 bytes and kinds of trailer | `C101_set`, `C101_setters`, `C101_setters_return`, `C101_exec`, `C101_lines` |
| C102 | The hand-written helpers, statement by statement | proved | symbolic execution of the programs of `Verif/Gen/Mini.lean` under one semantics for all of them; loops by induction on the list they run over, tables by evaluation of the kernel for every byte | `C102_ranges`, `C102_decimal`, `C102_escape`, `C102_remove_any`, `C102_remove`, `C102_base_valid`, `C102_valid5`, `C102_compute`, `C102_texts`, `C102_export5`, `C102_export3` |
| C103 | Octet counting, statement by statement | proved | symbolic execution of the programs, a relation between the heap and the model's parser that every statement preserves, the loop by induction on the rounds of the model; bufio.Reader, ParseUint, bytes.Buffer and the message parser are those of the model | `C103_options`, `C103_parse`, `C103_hasBestEffort`, `C103_texts` |
| C104 | The builder, statement by statement | proved | symbolic execution of the programs, a relation between the heap and messages; loops over map keys and sorted names by induction; the generated set is executed as its program over the same memory, by a simulation between that meaning of the program and the one of C101 (Go/Sim, Mini/SetGo); sort.Strings, fmt.Sprintf and time.Format are those of the model | `C104_entry`, `C104_string`, `C104_setter`, `C104_chain` |
| C105 | Constructors, options and the locked Parse, statement by statement | proved | symbolic execution of the programs; the loop over the options by an invariant with the options already applied; sequences of calls by induction with a relation between heap and configuration; sync.Mutex and the clock are parameters with stated meaning, machine.Parse is a hypothesis in the words of the model (C100 proves it of its program), shown satisfiable by an instance | `C105_options`, `C105_rfc5424`, `C105_rfc3164`, `C105_lock`, `C105_machine` |
| C106 | Non-transparent framing, statement by statement | proved | symbolic execution of the programs; a relation between heap and the model's parser that every chunk, every event of the driver and every option preserves; sequences of calls by induction; composition with C73; the generated Exec is executed as its program over the same memory, the ragel driver is the stated contract with its open points as parameters, the RFC 5424 parser is a hypothesis in the words of the model (C100), shown satisfiable by an instance | `C106_parser`, `C106_history`, `C106_trailers`, `C106_trailer_names` |
| C107 | Building messages beside each other, statement by statement | proved | symbolic execution of the setters and a simulation for set (C104) that also give a frame: which variables may change, and that the map stays the same map; a message depends only on the variables it reaches; chains by induction; composition with C22 and C67 | `C107_chain`, `C107_built`, `C107_independent`, `C107_new_is_independent`, `C107_copy`, `C107_copy_back`, `C107_copy_nil` |
| C108 | From the constructor to the grammar, all of it executed from the source | proved | the hypothesis about machine.Parse in C103, C105 and C106 is discharged by C100 (the execution of its Go body returns, and returns what the model returns); the model's answers are put in terms of the grammar by C01-C05, C12, C13 and C31-C33, C38; octet streams by C39 | `C108_rfc5424`, `C108_rfc3164`, `C108_octet`, `C108_octet_messages`, `C108_lines` |
| C109 | Programs that use parsers and messages together see values | proved | machine.Parse executed block by block over memory is simulated by its execution on values (C100): a relation between the struct and maps under construction and the model's message, with a data-flow check that the output is allocated before it is written and that lookups into the maps succeed; export gives a message in new variables; sequences of operations by an invariant (each parser and message is represented, no two reach a common variable) | `C109_values`, `C109_program`, `C109_parse`, `C109_kept` |
| C110 | Programs that use both parser packages in one memory see values | proved | rfc3164's machine.Parse executed block by block over memory is simulated by its execution on values (C100), like C109's; export gives a message in new variables without structured data; sequences of operations by an invariant (each thing is represented, no two things own a common variable; a setter, ComputeFromPriority or a write of the program touches only what its message reaches) | `C110_values`, `C110_program`, `C110_parse3`, `C110_kept` |
| C111 | Messages delivered from a stream are the program's own | proved | the execution of octetcounting (C103) for any Parse of rfc5424 that meets a contract; the contract is proved for the generated Parse executed over memory (C109); a longer list of external functions keeps every execution that ends; sequences of operations by an invariant (each stream parser, parser and message is represented, no two own a common variable); the loop of the parser on events with two best effort flags (`Octet/Late.lean`) | `C111_values`, `C111_program`, `C111_results`, `C111_kept` |
| C112 | Messages delivered from lines are the program's own | proved | the execution of nontransparent (C106) for any Parse of rfc5424 that meets a contract relative to a memory relation; the contract is proved for the generated Parse executed over memory (C109); a longer list of external functions keeps every execution that ends; sequences of operations by an invariant (each line parser, parser and message is represented, no two own a common variable) | `C112_values`, `C112_program`, `C112_own`, `C112_kept` |
| C113 | A non-transparent parser whose reader panics | proved | as C92, with the loop over the chunks cut off before the end of the stream; the specification of a call interrupted so is a third relation between what is kept, the bytes, and the reports | `C113_every_history`, `C113_without_panic`, `C113_prefix`, `C113_next_call` |
| C114 | The whole history of an octet-counting parser | proved | invariant over the acts: the variable of the parser holds the parser of the model, whose two best effort flags and maximum are functions of the options so far; `parse_call` and `sopt_call` as for C103, the specification as for C81 | `C114_every_history` |
| C115 | The exported scanner of octet counting | proved | invariant over the calls: the scanner of the model stands for announced length, space seen and the bytes to come (`pscan`, `scan_spec`); every step of the specification is the step of that, the specification is total | `C115_every_stream`, `C115_one_outcome`, `C115_consumed`, `C115_stuck`, `C115_frames`, `C115_other_between` |
| C116 | The exported scanner of octet counting, at source level | proved | `scan_call`: the statements do what the scanner of the model does, wherever in a variable the scanner is (`Slot`); induction on the calls, with C115 | `C116_every_stream`, `C116_one_list` |
| C117 | A listener is replaced | proved | the loops with the field `emit` as part of the state; they do what the loops of the model do, and call the listener of the moment for each result (simulation); the specification of who hears what is a recursion over what happens, its consequences by induction | `C117_octet_every_history`, `C117_octet_results`, `C117_lines_every_history`, `C117_everything_once`, `C117_reported`, `C117_last_one_set`, `C117_from_inside` |
| C118 | A listener that panics, statement by statement | proved | a general theorem about the language of the statements, by induction over the statements and the depth of the calls: an execution with an environment that panics at a call of the listener is the one without, up to that call, and ends in a state in which the listener is called (all deferred calls of the program are Unlock); the simulation of C103 with a listener of which something is known only in states that an invariant describes, which gives the state at the panic | `C118_panicking_listener` |
| C119 | A reader that panics, statement by statement | proved | a general theorem about the language of the statements, by induction over the statements and the depth of the calls, for any way to compare two executions that goes through sequences, loops and deferred calls: once for 'the same, up to a panic', once for 'what returns here, returns there'; with C114 | `C119_panicking_reader`, `C119_not_swallowed` |
<!-- /table -->

## 5. Findings (behaviour of the code that a user would not expect; each is proved)

RFC 5424 parser
* Best effort: an empty/malformed SD-ID drops the *previous*, complete element; a malformed parameter name drops the previous parameter
  (C58). A value broken inside a UTF-8 sequence drops its parameter, one broken between characters drops nothing (C57).
* Best effort, end of input in the version: the last digit is lost (C57). A message cut right after the `[` of a further element loses the
  complete element before it, too. A cut right after an element, or in the text, goes unnoticed (C93).
* A backslash before another character than `"`, `\`, `]` in a parameter value makes the message an error, where RFC 5424 (6.3.3) wants a
  regular backslash; otherwise the accepted inputs are those of the RFC (C87).

RFC 5424 builder
* `String()` (through `EscapeBytes`) writes, for every character of a parameter value, only its first byte, taken for a code point: values
  with non-ASCII characters are mangled. Exact boundary in C28: values of US-ASCII and `Ã` survive.
* `SetParameter` with an invalid value resets an existing parameter to the empty string (C23).
* The package variables `currentid`, `currentparamname` make concurrent building of *different* messages unsafe: lost and misplaced
  parameters, nil-map panic (C30).
* Copying a message (`*b = *a`) does not copy its structured data: `SetElementID`, `SetParameter` on the copy change the original, too; the
  other setters do not (C74).
* `String()` checks only priority and version. A message whose fields were filled in without the setters prints as a text that may be no
  message, or another message: the hostname alone can forge everything after it (C75).

RFC 3164 parser
* `Parse` can return `(nil, nil)` in strict mode; the exact set of such inputs is C32. In best effort these give a partial message
  without an error.
* `]` in the text overwrites the ProcID, `]: ` cuts the text (C34). Best effort on a truncated priority reports a wrong priority (C59, C94).
* A relay that writes RFC 3164 messages on in the usual format changes a few of them: `-: su: x` gets a tag, the pid of `t[z]: ]v` grows; with `WithTimezone` the time of every message moves by the offset of the zone at every hop (C99).
* A message cut in its tag or pid is accepted without an error, with the beginning of the tag or of the pid as its text (C94).
* With `WithRFC3339` every RFC 5424 message is such an input: no error, and in best effort a message with nothing but the priority (C88).
* `WithTimezone`, `WithLocaleTimezone`, `WithYear` do not apply to RFC 3339 timestamps (C36).

Octet counting
* NUL is taken for the end of the stream, and skipped right after a length (C46, C60); `/` counts as a digit, leading zeros are accepted; a
  frame whose message does not start with `<` ends parsing even in best effort (C42); lengths of 2^63 and more pass the maximum check (but
  still give one error) (C43, C60); a read error is indistinguishable from the end of the stream, and inside a length it is skipped (C70).
  `WithBestEffort()` called on an existing parser reaches only the framing, not the message parser (C63).
* Where `int` has 32 bits the upper half of an announced length is dropped: a frame announcing 2^32 + n bytes passes the maximum check and is
  read as a frame of n bytes (C81).
* A maximum within 20 of the largest `int` makes the buffer size overflow: every message above 16 bytes is an error (C71).
* After strict mode stopped at an error, `Parse` can be called again only with a large enough `*bufio.Reader`; otherwise what the scanner
  had read ahead is lost (C72).
* `Parse` called from the listener replaces the scanner: the rest of the outer stream is lost without an error; in strict mode the outer call
  may go on with the rest of the inner stream. A larger maximum set by the listener does not enlarge the buffer (C82).

Non-transparent framing
* `Parse` called from the listener delivers the message being handled a second time (C83).
* A listener that panics (and a caller that recovers): the message comes again first in the next call, so that one message that makes the
  listener panic makes the parser useless for ever (C92). After a panic of the reader the last complete message waits for the next call and the line being read is lost (C113). The octet counting parser is as new after a panic (C91).
* The message tokens of the exported octet counting `Scanner` change under the caller at the next `Scan` (C98); results do not.
* The exported octet counting `Scanner` still finds a message after characters that the parser refuses between the space and `<`; a message cut short is returned as `EOF` with its text at every call, for ever; after a NUL the scanner goes on (C115).
* A message text with the trailer and `<` in it arrives as two messages (C90); octet counted streams that end with the trailer vanish (C89).
* While the stream is open the last complete message is held back until the next one is complete (C69); octet counting does not do this (C68).
* A stream whose first byte is not `<` is dropped without any result (C51). State is kept between `Parse` calls: the last message is
  reported again by each later call (C52, C73). A read error
  at a frame boundary is not reported. `UnmarshalText` on failure overwrites the value with -1 (C53).
  `WithBestEffort()` called on an existing parser changes nothing but `HasBestEffort()` (C63).

Names
* Facility 13 is called `security` where RFC 5427 says `audit`; facilities 9 and 15 have the same message (C17).

Time
* Three places take quadratic time: removing the backslashes of a parameter value (C77), `]` in the text of an RFC 3164 message, each of which
  copies the text so far to ProcID (C78), and `EscapeBytes`, for every value (C79). Otherwise parsing is linear (octet counting: C85).
* The configured maximum does not bound what octet counting retains: the digits of a length are collected in a growing buffer, and may end up in
  the error text, however many there are (C84). Non-transparent framing knows no maximum at all (C86).

## 6. Testing the theorems against wrong programs

`seeded/mutants.py`, `mutants2.py`, ... list edits of the model (tables, actions, hand translated functions); `tools/seed.py` applies one at a time to a scratch
copy, rebuilds, and records which theorems fail and which are still proved. `seeded/LOG.jsonl` has one line per attempt.
Theorems tightened because an edit survived are named there.

## 7. Testing the model against the repository's tests

`tools/conform.py` reads the Go test tables of `/repo` (rfc5424, rfc3164, octetcounting, nontransparent; `tools/goexpr.py` is a small parser
for Go expressions) and writes `lean/Verif/Conformance/*.lean`: one `example` per case, which evaluates the model in the kernel on the input
of the case and compares with what the test expects of the Go code (message, partial message, error kind and column, both modes);
`Conformance/Builder.lean` and `Conformance/Examples.lean` do the same by hand for the other tests and the `Example` functions. About 550
cases; all agree. Random test data is replaced by fixed data of the same length; of the generated length sweeps only the ends are kept; the
octet-counting cases with messages of 8 kB and 64 kB are left out. These are tests (of point 2 to 5 of the trusted base), not proofs.
One comment of the repository's tests is wrong, which the model showed: `SetTimestamp("2003-10-11T22:14:15.000003Z+02:00")` is refused, not
read up to the `Z`; the assertion in `TestSetTimestamp` holds because the message still has the timestamp of the call before.

## 8. How to check

`cd lean && lake build` (about 15 minutes on 4 cores); `python3 tools/axioms.py`; `python3 tools/cites.py`; `python3 tools/gen.py` and
`git diff --stat lean/Verif/Gen` (must be empty; needs /repo).
