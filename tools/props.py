#!/usr/bin/env python3
"""Source of /verif/properties.jsonl (one JSON object per line)."""
import json, os
P = []
def p(id, title, statement, quantifier, why, anchors):
    P.append(dict(id=id, title=title, statement=statement, quantifier=quantifier, why_tests_cant=why, anchors=anchors))

# ------------------------------------------------------------------ RFC 5424 parser
p("C01", "RFC5424 strict acceptance is exactly the grammar",
  "With default options, rfc5424 Machine.Parse(input) returns a message and a nil error if and only if input is `<PRI>VERSION SP (-|TIMESTAMP) SP HOSTNAME SP APPNAME SP PROCID SP MSGID SP (-|SD-ELEMENT+) [SP MSG]` with PRI in 0..191 without leading zeros, VERSION 1..999 without leading zero, a syntactically valid and calendar-valid RFC3339 timestamp with at most 6 fraction digits, name fields of 1..255/48/128/32 printable US-ASCII bytes, and structured data with distinct ids; and then the returned fields are exactly the pieces of that (unique) decomposition.",
  "every byte string", "the accepted language and the set of rejected inputs are both infinite; a table of examples cannot show that no other string is accepted and that none of the grammar's strings is refused",
  ["rfc5424/machine.go:Parse", "rfc5424/machine.go.rl", "common/common.rl", "rfc5424/syslog_message.go:export"])
p("C02", "RFC5424 strict mode: exactly one of message and error",
  "Without best effort, Parse never returns (nil, nil) and never returns both a message and an error.",
  "every byte string, compliant-msg option on or off, any previous use of the machine", "one input reaching an error transition without an error value would break every caller that only checks err",
  ["rfc5424/machine.go:Parse"])
p("C03", "RFC5424 best effort returns a partial message exactly when the header minimum was read",
  "With best effort on, whenever Parse returns an error it returns a (partial) message with it if and only if the input starts with `<PRI>` (PRI in 0..191, no leading zeros) followed by a digit 1..9, and that message is Valid() and carries that PRI.",
  "every byte string", "depends on where in the input the first error is, for every possible error position",
  ["rfc5424/machine.go:Parse", "rfc5424/syslog_message.go:minimal", "README.md:Best effort mode"])
p("C04", "Best effort never changes a successful parse",
  "If strict Parse succeeds then best-effort Parse returns the same message and nil error, and conversely; and both modes always report the same error (same kind, same column).",
  "every byte string, both compliant-msg settings", "relates two runs on every input",
  ["rfc5424/machine.go:Parse", "rfc5424/parser.go:Parse"])
p("C05", "Every returned RFC5424 message is valid and internally consistent",
  "Any message returned by Parse, complete or partial, has Priority in [0,191], Version in [1,999], Facility = Priority/8 in [0,23], Severity = Priority%8 in [0,7], so Valid() is true.",
  "every byte string, best effort on or off", "must hold on every exit path of the FSM",
  ["rfc5424/syslog_message.go", "syslog.go:ComputeFromPriority", "syslog.go:Valid"])
p("C06", "RFC5424 parser reuse: results do not depend on history",
  "The result of Parse(input) is the same whatever sequence of inputs the same machine instance has parsed before.",
  "every history of previous inputs and every input", "the machine keeps fields that Parse does not reset (current element and parameter names); only a proof over all histories shows they never leak",
  ["rfc5424/machine.go:Parse", "rfc5424/machine.go:machine"])
p("C07", "RFC5424 header field bounds",
  "In any returned message (also partial ones) Hostname, Appname, ProcID and MsgID are either nil or printable US-ASCII without spaces, non-empty, not equal to `-`, and at most 255, 48, 128 and 32 bytes long.",
  "every byte string, best effort on or off", "an off-by-one in one of ~500 generated states would only show at one exact length",
  ["rfc5424/machine.go", "rfc5424/syslog_message.go:export"])
p("C08", "RFC5424 timestamps denote real calendar instants",
  "A returned Timestamp is non-nil only for text of the RFC3339MICRO form, its date exists in the proleptic Gregorian calendar (day <= days of that month, leap years honoured), and its fields are those written in the input; a syntactically well-formed but impossible date is always reported as an error.",
  "every byte string", "all years/months/days/offsets, and all prefixes", ["rfc5424/machine.go:set_timestamp", "time.Parse"])
p("C09", "Duplicate structured data ids are always rejected",
  "If two SD elements carry the same id Parse returns the duplicate-id error (strict: no message), and in every returned message, element ids are pairwise distinct keys of the map.",
  "any number of elements with any parameters between the two", "the repetition can be at any distance", ["rfc5424/machine.go:set_id"])
p("C10", "SD-PARAM values are unescaped exactly",
  "On success, each PARAM-VALUE in the message equals the text between the quotes in which every `\\\\`, `\\\"`, `\\]` pair has been replaced by its second byte and nothing else changed; the last parameter with a given name in an element wins.",
  "every number and position of escapes", "positions are removed with an index shift per removal; correct only if it holds for any list of positions", ["rfc5424/machine.go:set_paramvalue", "common/functions.go:RemoveBytes"])
p("C11", "RFC5424 MSG is the verbatim remainder",
  "On success without the compliant option, Message is nil when nothing (or only the single separator space) follows the structured data, and otherwise equals, byte for byte, everything after that separator space, whatever bytes it contains.",
  "every byte string", "all lengths and contents, including NUL, LF and invalid UTF-8", ["rfc5424/machine.go:set_msg"])
p("C12", "Compliant MSG mode",
  "WithCompliantMsg: an input is accepted iff it is accepted without the option and its MSG either does not start with the UTF-8 BOM or is entirely valid UTF-8; when accepted the message is identical to the one without the option; when refused because of MSG, the error is the MSG error and in best effort mode Message carries the bytes before the error column.",
  "every byte string", "UTF-8 validity has unboundedly many inputs", ["rfc5424/machine.go:msg_compliant", "rfc5424/options.go:WithCompliantMsg", "common/common.rl:utf8octets"])
p("C13", "RFC5424 error columns are in range",
  "Every error returned by Parse carries a column between 0 and len(input).",
  "every byte string", "every error exit", ["rfc5424/machine.go"])
p("C14", "RFC5424 errors depend only on the prefix up to the reported column",
  "If Parse reports an error at a column c < len(input) then any other input with the same first c+1 bytes yields the same error, the same column and the same partial message.",
  "every pair of inputs", "relates two arbitrary inputs", ["rfc5424/machine.go:fail"])
p("C15", "RFC5424 Parse never panics",
  "Parse performs no out-of-range slice, no write to a nil map and no out-of-range byte removal on any input.",
  "every byte string, every previous history", "fuzzing samples only", ["rfc5424/machine.go", "common/functions.go:RemoveBytes"])
p("C16", "Concurrent use of a NewParser parser",
  "When any number of goroutines call Parse on the same rfc5424.NewParser or rfc3164.NewParser value, then under every interleaving each call that returns, returns what an isolated Parse of its own input returns; the calls never deadlock.",
  "every number of goroutines, every schedule", "schedules cannot be enumerated by tests", ["rfc5424/parser.go:Parse", "rfc3164/parser.go:Parse"])
# ------------------------------------------------------------------ base
p("C17", "Priority decomposition",
  "ComputeFromPriority(v) sets Priority=v, Facility=v/8, Severity=v%8 so that Facility*8+Severity=v; Base.Valid() holds iff Priority is set and <=191; for every valid priority all five textual lookups return non-empty strings.",
  "every uint8", "finite but never enumerated; covers all values", ["syslog.go", "common/facility.go", "common/severity.go", "common/functions.go:ValidPriority"])
p("C18", "Decimal conversion",
  "UnsafeUTF8DecimalCodePointsToInt of a string of ASCII digits is its decimal value (until 64-bit overflow), so it is inverse to decimal printing.",
  "every digit string", "unbounded length", ["common/functions.go:UnsafeUTF8DecimalCodePointsToInt"])
p("C19", "RemoveBytes removes exactly the given positions",
  "For strictly increasing positions inside the slice (shifted by offset), RemoveBytes returns the bytes at all other indexes in order, and does not panic.",
  "every slice and every strictly increasing position list", "arbitrary lists", ["common/functions.go:RemoveBytes"])
p("C20", "EscapeBytes makes ASCII values safe and reversible",
  "For US-ASCII values the output of EscapeBytes contains no unescaped `\\\"`, `\\\\` or `]` and unescaping it gives the value back. (For values with bytes >= 0x80 this fails in the code: see C28.)",
  "every US-ASCII string", "arbitrary strings", ["common/functions.go:EscapeBytes"])
# ------------------------------------------------------------------ builder
p("C21", "Builder setters accept exactly the grammar and ignore the rest",
  "Each of SetTimestamp, SetHostname, SetAppname, SetProcID, SetMsgID, SetElementID, SetMessage, SetPriority, SetVersion either stores exactly the given value, when it matches the corresponding grammar rule, or leaves the message completely unchanged.",
  "every message state and every argument", "all strings; length boundaries per field", ["rfc5424/builder.go"])
p("C22", "Setters touch only their own field",
  "A setter changes no field other than its own (SetPriority: priority, facility, severity).",
  "every message state and every argument", "frame property over all states", ["rfc5424/builder.go"])
p("C23", "SetParameter semantics",
  "If id and name are well-formed, SetParameter leaves exactly one entry for name in element id, holding the unescaped value when the value is well-formed and the empty string otherwise; other elements and parameters are unchanged; with an ill-formed id nothing changes unless the element already exists; the documented `operation is discarded when the parameter already exists` is false of the code.",
  "every message state and every id, name, value", "arbitrary states", ["rfc5424/builder.go:SetParameter"])
p("C24", "String fails exactly on invalid messages",
  "String() returns an error iff Valid() is false.", "every message state", "all states", ["rfc5424/builder.go:String", "rfc5424/syslog_message.go:Valid"])
p("C25", "String output does not depend on map iteration order",
  "The text produced by String() is the same for every order in which Go iterates the two maps.",
  "every message, every iteration order of the outer and inner maps", "Go randomises map iteration; all orders must give one result", ["rfc5424/builder.go:String"])
p("C26", "Built messages parse",
  "For any sequence of builder calls with US-ASCII parameter values, if the message is Valid() then String() is accepted by the strict parser.",
  "every finite sequence of setter calls with any arguments", "unbounded call sequences", ["rfc5424/builder.go", "rfc5424/machine.go:Parse"])
p("C27", "Builder/parser round trip",
  "For any sequence of builder calls with US-ASCII parameter values that gives a Valid() message m, Parse(m.String()) returns a message equal to m.",
  "every finite sequence of setter calls", "unbounded call sequences and values", ["rfc5424/builder.go:String", "rfc5424/machine.go:Parse", "common/functions.go:EscapeBytes"])
p("C28", "Round trip fails for non-ASCII parameter values",
  "Full round trip (C27 without the ASCII restriction) is expected by users but false of the code: EscapeBytes emits only the first byte of each multi-byte character, re-encoded.",
  "existence of a builder sequence", "documents the exact boundary of C27", ["common/functions.go:EscapeBytes"])
p("C29", "Parse/String/Parse is stable",
  "If strict Parse accepts an input giving m whose parameter values are US-ASCII, then Parse(m.String()) succeeds and returns m again.",
  "every accepted input", "relates parser and printer on all inputs", ["rfc5424/builder.go:String", "rfc5424/machine.go:Parse"])
p("C30", "Builders are not isolated between goroutines",
  "Two goroutines calling SetParameter on two different messages should not interfere; the package-level variables currentid/currentparamname make this false under some interleavings; it holds when calls are serialised.",
  "every interleaving of two calls", "needs a schedule", ["rfc5424/builder.go:currentid", "rfc5424/builder.go:SetParameter"])
# ------------------------------------------------------------------ RFC 3164
p("C31", "RFC3164 acceptance and field extraction",
  "With default options Parse succeeds iff the input is `<PRI>Mmm dd hh:mm:ss HOSTNAME MSG` with PRI in 0..191, a Stamp timestamp whose date exists in (leap) year 0, 1..255 printable hostname bytes, and a non-empty MSG part in the language of the TAG/CONTENT grammar (in particular every MSG without control characters is accepted); the priority, timestamp and hostname are the written ones, and the split of an accepted input into its parts is unique.",
  "every byte string", "infinite language", ["rfc3164/machine.go:Parse", "rfc3164/machine.go.rl"])
p("C32", "RFC3164 Parse can return a nil error without a complete message",
  "Users expect exactly one of message/error (as C02). It is false of the code: some inputs (e.g. a control byte inside MSG, or a wrong byte right after the timestamp) give a nil message with a nil error. It does hold for never returning both a message and an error in strict mode, and outside a described set of inputs (`Silent`) exactly one of the two is returned. In best effort mode a message comes with the error iff the input is `<`, a digit and at least one more byte (so `<13` cut off there gives priority 1), and the silent inputs give a partial message with a nil error.",
  "every byte string", "the whole input space has to be covered to say when this happens", ["rfc3164/machine.go:Parse"])
p("C33", "Every returned RFC3164 message is valid",
  "Any message returned (complete or partial) has Priority in [0,191], Facility/Severity derived from it, Hostname nil or 1..255 printable bytes, Appname nil or 1..32 printable bytes without space, `:` and `[`.",
  "every byte string, best effort on or off", "every exit path", ["rfc3164/machine.go", "rfc3164/syslog_message.go"])
p("C34", "RFC3164 tag, pid and message",
  "For `tag[pid]: text` with a well-formed tag, pid without `]`, and printable text without `]`, the message has Appname=tag, ProcID=pid, Message=text; for `tag: text`, Appname=tag, ProcID nil. It is false when text contains `]`: ProcID is then overwritten.",
  "every tag, pid, text", "all lengths and contents", ["rfc3164/machine.go:set_content", "rfc3164/machine.go:set_tag"])
p("C35", "RFC3164 WithRFC3339 is a conservative extension",
  "Every input accepted without WithRFC3339 is accepted with it, with the same message.",
  "every byte string", "relates two machines on every input", ["rfc3164/machine.go", "rfc3164/options.go:WithRFC3339"])
p("C36", "RFC3164 year and timezone options",
  "WithYear(y) yields a timestamp in year y with the written month, day and time (Feb 29 in a non-leap year becomes Mar 1); WithTimezone changes only the presentation zone and never the instant; WithLocaleTimezone interprets the written time in that zone.",
  "every stamp, every year, every location", "all dates, years and zones", ["rfc3164/machine.go:set_timestamp", "rfc3164/options.go", "rfc3164/year.go"])
p("C37", "RFC3164 reuse and mode agreement",
  "Results do not depend on previous inputs; NewParser and NewMachine return the same; best effort and strict mode report the same error, and what strict mode accepts best effort accepts with the same message.",
  "every history and input", "all histories", ["rfc3164/machine.go:Parse"])
p("C38", "RFC3164 error columns and panics",
  "Parse never panics; every error has a column between 0 and len(input); an error at a column c < len(input) is decided by the first c+1 bytes (any continuation gives the same error and partial message); a well-formed timestamp text that denotes no real date is always reported at the space that follows it.", "every byte string", "all inputs", ["rfc3164/machine.go"])
# ------------------------------------------------------------------ octet counting
p("C39", "Octet counting round trip",
  "For any list of RFC5424 messages, each accepted by the strict parser and at most the maximum length, parsing the stream `LEN SP MSG LEN SP MSG ...` calls the listener once per message, in order, with the result of parsing that message alone and nil error.",
  "every list of messages, any bytes inside MSG", "unbounded streams", ["octetcounting/parser.go:run", "octetcounting/scanner.go"])
p("C40", "Octet counting is independent of how the reader splits the stream",
  "The sequence of results is a function of the bytes delivered, not of the sizes of the reads.",
  "every read schedule of the same bytes", "all schedules", ["octetcounting/scanner.go", "bufio.Reader"])
p("C41", "Octet counting strict mode stops at the first error",
  "In strict mode at most one result carries an error, and it is the last one emitted.",
  "every byte stream", "all streams", ["octetcounting/parser.go:run"])
p("C42", "Octet counting best effort keeps going after message errors",
  "In best effort mode a syntactically wrong message inside a correct frame is reported (with its partial message) and does not prevent the following frames from being parsed.",
  "every list of frames", "all streams", ["octetcounting/parser.go:run"])
p("C43", "Octet counting length limit",
  "No message longer than the configured maximum is ever handed to the message parser; a frame announcing a larger length ends parsing with an error result.",
  "every byte stream and every limit", "integer conversions at 2^63 and 2^64", ["octetcounting/parser.go:run", "octetcounting/scanner.go:scanMsgLen"])
p("C44", "Octet counting terminates and reports",
  "On any finite stream Parse terminates; if it emits nothing but successful messages the stream was consumed up to its end or up to a NUL byte; an empty stream gives exactly one error result.",
  "every byte stream", "termination over all inputs", ["octetcounting/parser.go:run"])
p("C45", "Octet counting truncated last frame",
  "If the stream ends inside the last frame, strict mode reports an error for it; best effort additionally parses the bytes that did arrive and reports that partial message with a non-nil error.",
  "every prefix cut", "every cut position", ["octetcounting/parser.go:run", "octetcounting/scanner.go:scanSyslogMsg"])
p("C46", "Octet counting NUL bytes",
  "Users expect every byte of the stream to be either consumed as part of a frame or reported. False of the code: a NUL byte where a frame should start silently ends parsing.",
  "existence of a stream", "needs reasoning on the end-of-input marker", ["octetcounting/scanner.go:read"])
p("C47", "Octet counting parser reuse",
  "A second Parse call on the same parser gives the results a fresh parser would give.",
  "every history of streams", "all histories", ["octetcounting/parser.go:Parse"])
# ------------------------------------------------------------------ non transparent
p("C48", "Non-transparent round trip",
  "For any list of messages starting with `<` in which no trailer byte is directly followed by `<`, parsing the stream MSG1 TRAILER MSG2 TRAILER ... emits one result per message, in order, equal to parsing that message alone.",
  "every list of messages, LF or NUL trailer", "unbounded streams", ["nontransparent/parser.go:Exec", "nontransparent/parser.go:process"])
p("C49", "Non-transparent number and order of results",
  "A fresh parser emits exactly one result per trailer-terminated line starting with `<` (when the first line starts with it), in stream order, each being the parse of that line joined with the following lines that do not start with `<`.",
  "every byte stream", "all streams", ["nontransparent/parser.go"])
p("C50", "Non-transparent last message without trailer",
  "If the stream ends without a trailer the unterminated last line is parsed on its own and always reported with a non-nil error.",
  "every byte stream", "all streams", ["nontransparent/parser.go:OnErr", "nontransparent/parser.go:OnCompletion"])
p("C51", "Non-transparent silent drop",
  "Users expect garbage to be reported. False of the code: if the first line does not start with `<`, no complete line of the whole stream is ever reported.",
  "every stream whose first byte is not `<`", "all continuations", ["nontransparent/parser.go:Exec"])
p("C52", "Non-transparent parser reuse",
  "Users expect a second Parse to start afresh. False of the code: the last message of the first stream is emitted again.",
  "existence of two streams", "needs a history", ["nontransparent/parser.go:OnCompletion"])
p("C53", "Trailer type text round trip",
  "MarshalText then UnmarshalText gives the same trailer type for LF and NUL; unknown types are refused by both; parsing of names ignores ASCII case and accepts only LF/NUL, bare or quoted.",
  "every trailer value and every string", "all strings", ["nontransparent/trailer_type.go"])
p("C54", "WithTrailer ignores unknown trailers",
  "WithTrailer with a value other than LF and NUL leaves the parser configuration unchanged, and the FSM trailer and the reader trailer always agree.",
  "every option list", "all option sequences", ["nontransparent/parser.go:WithTrailer", "nontransparent/parser.go:NewParser"])
# ------------------------------------------------------------------ RFC 5424 errors
p("C55", "The error column is the end of the longest viable prefix",
  "When RFC 5424 parsing fails with an error at column c, the first c bytes of the input can be continued to an input that is accepted under the same options, and (if c is not the end of input) the first c+1 bytes cannot. Exceptions, inherent in the code: impossible dates and duplicate ids are reported after the offending piece, and a malformed timestamp is judged by syntax only.",
  "every input of Go-representable length, every option setting", "quantifies over all continuations of all inputs", ["rfc5424/machine.go:Parse"])
p("C56", "Truncated messages are reported at the cut",
  "Cutting an accepted message anywhere gives either an accepted message or an error whose column is the length of what is left.",
  "every accepted message, every cut position, every option setting", "all messages and all cuts", ["rfc5424/machine.go:Parse"])
p("C57", "Complete specification of refusals",
  "For every input that is not a message: which error kind is reported, at which column, and which partial message best effort returns, is exactly as given by a specification written from the grammar (per grammar element: how far the text is still a beginning of that element, and which completed pieces are kept).",
  "every input, every option setting", "all malformed inputs", ["rfc5424/machine.go:Parse", "rfc5424/machine.go:err", "rfc5424/builder.go"])
p("C58", "What best effort keeps of structured data",
  "Users expect best effort to keep every completed SD-ELEMENT and SD-PARAM. False of the code: an element without id also removes the previous complete element, and a parameter without name also removes the previous complete parameter of that element.",
  "every message, every malformed continuation of that form", "all messages", ["rfc5424/machine.go:Parse"])
p("C59", "Complete specification of the RFC 3164 outcomes",
  "For every input and every combination of options, the result of RFC 3164 parsing (message, error kind and column, partial message in best effort, or nothing at all) is the one given by a specification written from the grammar; no input has two outcomes.",
  "every input, every option setting", "all inputs, well-formed or not", ["rfc3164/machine.go:Parse", "rfc3164/syslog_message.go:export"])
p("C60", "Complete specification of the octet counting results",
  "For every byte stream, every way of delivering it, and every choice of options, the results the listener gets (messages, framing errors with the token they name, errors of truncated frames) are those of a specification written over the text of the stream; no stream has two outcomes or none.",
  "every byte stream, every read schedule without mid-stream read errors, both modes, every maximum", "all streams, well-formed or not, cut in all ways", ["octetcounting/parser.go:run", "octetcounting/scanner.go:Scan"])
p("C61", "Error texts",
  "The text of a parser error ends with its column, and says no other column; looking for an exported error constant followed by the column finds exactly the errors of that kind; two errors with the same text are of the same kind at the same column; an impossible date is quoted in full. The text of an octet counting framing error determines the error (token, its text, expected length).",
  "every error on every input, every option setting", "all inputs; texts are what callers without typed errors have", ["rfc5424/machine.go:err", "rfc3164/machine.go:err", "octetcounting/parser.go:run", "octetcounting/tokens.go:String"])
p("C63", "Options and accessors",
  "HasBestEffort says whether the option was given; options given twice or in another order make no difference (RFC 3164: the last year/zone given counts); Err gives the error of the last Parse. Calling WithBestEffort on an existing stream parser is not the same as the option: an octet counting parser then goes on after bad messages but never delivers partial ones, a non-transparent parser behaves as before although HasBestEffort says true.",
  "every option list, every input, every parser state", "all sequences of options, all inputs", ["rfc5424/options.go", "rfc3164/options.go", "options.go", "octetcounting/parser.go:WithBestEffort", "nontransparent/parser.go:WithBestEffort"])
p("C65", "Removing bytes never touches the caller's memory",
  "RemoveBytes returns the bytes not at the given positions, no slice the caller holds shows other bytes afterwards (also slices that overlap the argument), and neither does it when the caller later writes into or appends to the result.",
  "every memory, every slice with any capacity, every set of positions, every growth policy of append", "aliasing of all overlapping slices", ["common/functions.go:RemoveBytes"])
p("C62", "End to end: build, print, frame, receive",
  "Messages assembled with the setters (US-ASCII parameter values), printed with String and sent with octet counting arrive at the listener unchanged, in order, however the network cuts the stream. With non-transparent framing the same holds exactly for messages in which neither a parameter value nor the message text contains the trailer followed by '<'; any other message arrives as more than one result. For those messages both framings deliver the same messages.",
  "every list of messages that the setters can make, every read schedule, both modes, both trailers", "composition over all messages and schedules", ["rfc5424/builder.go:String", "octetcounting/parser.go", "nontransparent/parser.go"])
p("C64", "Which messages can be built",
  "A message can be made by some chain of setter calls exactly when its fields satisfy the bounds of RFC 5424 (priority up to 191 with matching facility and severity, version up to 999, real timestamps, printable fields within their lengths other than '-', well-formed identifiers and names, UTF-8 values, non-empty text and structured data).",
  "every message value, every chain of calls", "reachability over unbounded chains", ["rfc5424/builder.go:Set*"])
p("C66", "Returned messages can be passed on",
  "Every message that RFC 5424 parsing returns - complete, or partial with an error - can be assembled with the setters, and String gives a text that strict parsing accepts; the result is the same message if its parameter values are US-ASCII.",
  "every input, every option setting", "all malformed inputs and all points of failure", ["rfc5424/machine.go:Parse", "rfc5424/builder.go:String"])
p("C67", "Meaning of a chain of setter calls",
  "In every field, the value after any chain of setter calls on a new message is that of the last call accepted for the field; there is an element for every accepted identifier, and every parameter has the value of the last call naming it (the empty string if that value was ill-formed). This determines the message, so the order of calls for different fields does not matter.",
  "every chain of setter calls", "all interleavings of accepted and refused calls", ["rfc5424/builder.go:Set*"])
p("C68", "Octet counting delivers promptly",
  "When the reader has delivered complete frames, the listener has got the results of all of them before the parser asks the reader for more; a peer that sends a message and waits for an answer is not left waiting.",
  "every list of messages, every way the reads are cut, every later behaviour of the reader (bytes, errors, blocking)", "the order of reads and callbacks over all schedules", ["octetcounting/parser.go:run", "octetcounting/scanner.go:scanSyslogMsg"])
p("C69", "Non-transparent framing delivers one message late",
  "Users expect a message to be delivered when its trailer has arrived. False of the code: while the stream is open, the last complete message is held back until a further complete line starting with `<` arrives or the stream ends; so a single message is not delivered while the connection stays open. What has been delivered is never revised.",
  "every list of messages, every continuation of the stream", "the state of a live stream after every prefix", ["nontransparent/parser.go:Exec", "nontransparent/parser.go:OnCompletion"])
p("C70", "Read errors in octet counting streams",
  "A read error acts as the end of the stream whatever the error and whatever the reader would deliver afterwards; only inside or right after a length it is skipped like a NUL byte and parsing goes on. In particular a connection that breaks between two frames leaves no trace in the results.",
  "every stream, every position of the first read error, every later behaviour of the reader", "all points of failure of the reader", ["octetcounting/scanner.go:read", "octetcounting/parser.go:run"])
p("C71", "Huge maximum length",
  "Users expect that a very large WithMaxMessageLength means no limit. False of the code for values within 20 of the largest int: the size of the read buffer overflows, and every message longer than 16 bytes, correct or not, ends parsing with an error.",
  "every such maximum, every frame, every way of delivering it, both modes", "boundary arithmetic over all maxima and messages", ["octetcounting/scanner.go:NewScanner", "octetcounting/scanner.go:scanSyslogMsg"])
p("C72", "Going on after an error",
  "In strict mode, on a *bufio.Reader whose buffer has at least the configured maximum plus 20 bytes, Parse can be called again after it stopped at a wrong message, and goes on with the frame after it, any number of times. On other readers it cannot: what a Read delivered together with the wrong message is lost. What a *bufio.Reader of any size has already buffered when Parse is called is parsed first.",
  "every number of calls, every list of messages, every way of delivering them", "histories of calls over all streams and schedules", ["octetcounting/scanner.go:NewScanner", "octetcounting/parser.go:Parse"])
p("C73", "Complete specification of a non-transparent parser over all its calls",
  "For every sequence of calls of Parse on one parser, on all streams (well-formed or not, ending with any error), with options applied in between, the results of each call are those of a specification over the text of the streams that says what is kept from call to call; none panics, none has two outcomes. In particular a message is reported again at the start of every later call, and an unterminated rest can be reported again.",
  "every list of calls and options, every stream, every behaviour of the external read loop that the repository leaves open", "all histories of a stateful parser", ["nontransparent/parser.go:Exec", "nontransparent/parser.go:OnCompletion", "nontransparent/parser.go:process", "nontransparent/parser.go:WithTrailer"])
p("C74", "Messages in memory: what is shared and what is not",
  "After every history of operations of a program (new messages, parsing its buffers, copying messages with *a = *b, setter calls, dropping structured data, overwriting buffers), no operation panics; a parsed message shows what the parser returned, shares nothing with any other message and is independent of the buffer; a setter call changes its own message as on a message alone, and another message only if that was copied from or to it and has the same structured data map, in which case exactly its structured data changes; a message that is not copied shows what the operations on it alone made of it.",
  "every finite history of operations on any number of messages and buffers, every setter call and argument, every parser option and input", "all interleavings of operations on aliased data", ["rfc5424/builder.go:set", "rfc5424/builder.go:SetParameter", "rfc5424/syslog_message.go:export", "rfc5424/machine.go:Parse", "syslog.go:Base"])
p("C75", "Messages filled in by hand",
  "The fields of a message are exported and can be filled in without the setters. String then Parse gives back a message exactly when it is valid, the setters could have made it and its parameter values are stable under printing. Users expect that String of a valid message is a text that parses as that message: false of the code, because String checks only priority and version; whoever chooses the hostname of a hand-made message can make its text parse, without an error, as any message with a text that the setters can make.",
  "every message value (not only those built with the setters), every iteration order of its maps, both modes; every message that is to be forged", "all values of all fields", ["rfc5424/builder.go:String", "rfc5424/syslog_message.go:SyslogMessage", "rfc5424/machine.go:Parse"])
p("C76", "Switching the mode while goroutines parse",
  "WithBestEffort and HasBestEffort of a parser do not take its mutex. Still every execution of any number of goroutines that call Parse, WithBestEffort and HasBestEffort on one parser is linearizable: each call has its effect at one moment between call and return, the mode changes at most once and only during a WithBestEffort, a Parse called after a WithBestEffort returned is a best effort parse. Even if the racing reads of the mode see arbitrary values, each Parse returns the strict or the best effort result, never a mixture.",
  "every number of goroutines, every list of calls of each, every input, every schedule; every pair of values seen by the two reads of the mode", "all interleavings", ["rfc5424/parser.go:Parse", "rfc5424/parser.go:HasBestEffort", "rfc5424/machine.go:WithBestEffort", "rfc3164/parser.go:Parse", "rfc3164/machine.go:WithBestEffort"])
p("C77", "Time of parsing an RFC 5424 message",
  "Parsing does work (dispatches, actions, bytes read or copied) at most linear in the length of the input plus, for every backslash in it, the length of the input. Without escapes it is linear. Users expect linear time always: false of the code, a parameter value of k escaped quotes is accepted after at least k*k bytes have been moved.",
  "every input, every mode, every state left by earlier calls; every k for the lower bound", "growth over all lengths", ["rfc5424/machine.go:Parse", "common/functions.go:RemoveBytes"])
p("C78", "Time of parsing an RFC 3164 message",
  "Parsing does work at most linear in the length of the input plus, for every closing bracket in it, the length of the input. Users expect linear time always: false of the code, a message with k closing brackets after the tag is accepted after at least k*k/2 bytes have been copied.",
  "every input, every option, every state left by earlier calls; every k for the lower bound", "growth over all lengths", ["rfc3164/machine.go:Parse"])
p("C79", "Time of escaping a value",
  "EscapeBytes (used by String for every parameter value) copies a number of bytes between about a quarter and half of the square of the length of its result, for every value; exactly n(n-1)/2 for n bytes of US-ASCII of which none is escaped. Users expect linear time.",
  "every value", "growth over all lengths", ["common/functions.go:EscapeBytes", "rfc5424/builder.go:String"])
p("C80", "RFC 3164: the error column is the end of the longest viable prefix",
  "When RFC 3164 parsing fails with an error at column c, the first c bytes of the input can be continued to an input that is accepted in strict mode with the same other options, and (if c is not the end of input) the first c+1 bytes cannot. Exceptions: impossible dates are reported after the date, and a malformed timestamp is judged by syntax only. Cutting an accepted message anywhere gives an accepted message, an error whose column is the length of what is left, or one of the silent outcomes of C32.",
  "every input, every option setting, every cut position", "all inputs and all their continuations", ["rfc3164/machine.go:Parse"])
p("C81", "Octet counting on platforms with 32 bits",
  "Users expect that results do not depend on the platform and that a frame whose announced length exceeds the maximum is refused. True as long as every announced length is below 2^31; in particular correct frames arrive on both kinds of platforms. False of the code in general: where int has 32 bits, a frame that announces 2^32 bytes (or a multiple) more than it has passes the check of the maximum and is parsed as a correct frame, while with 64 bits it is refused. For both kinds of platforms a specification over the text of the stream gives exactly the results.",
  "every stream, every way of delivering it, every option setting, both sizes of int", "all streams and announced lengths, on platforms the tests are not run on", ["octetcounting/parser.go:run", "octetcounting/scanner.go:scanSyslogMsg", "octetcounting/scanner.go:NewScanner"])
p("C82", "Octet counting: a listener that calls the parser",
  "A user who calls Parse of the same octet counting parser from its listener expects that the results of the inner stream come in between and that the outer stream then goes on. False of the code: the inner call replaces the scanner. While a message is handled, a nested Parse of a correct stream makes the whole rest of the outer stream disappear, without an error, whatever it is; in strict mode, if the inner stream has a wrong message, the outer call goes on with the rest of the inner stream. Only when the listener is handling the error that ends a strict stream are the results those of the two streams one after the other. Options applied by the listener: a maximum length counts from the next message on, but the buffer keeps its size, so a message of more than 20 bytes above the old maximum is an error although the new one allows it; WithBestEffort makes Parse go on after errors, without changing what the message parser returns. A listener that only listens gets the results of C60.",
  "every stream, every position in it, every nested stream, every way of delivering them, every option setting", "all streams, nested streams and positions", ["octetcounting/parser.go:Parse", "octetcounting/parser.go:run", "octetcounting/parser.go:WithListener", "octetcounting/parser.go:WithMaxMessageLength", "octetcounting/parser.go:WithBestEffort"])
p("C83", "Non-transparent framing: a listener that calls the parser",
  "A user who calls Parse of the same non-transparent parser from its listener expects every message of both streams exactly once. False of the code: nothing is lost, but the message that is being handled is delivered a second time by the inner call (and without one more trailer, should it end with one), before the messages of the inner stream; then the outer stream goes on. WithBestEffort applied by the listener has no effect. A listener that only listens gets the results of C48-C51.",
  "every stream of messages, every position in it, every nested stream of messages, every trailer, every option setting, every way the generated loop may treat the end of a stream", "all streams, nested streams and positions", ["nontransparent/parser.go:Parse", "nontransparent/parser.go:process", "nontransparent/parser.go:OnCompletion", "nontransparent/parser.go:WithListener", "nontransparent/parser.go:WithBestEffort"])
p("C84", "Octet counting: what is retained of a stream",
  "For any stream and options, at every moment of a Parse call the parser has buffered at most max(16, maximum + 20) bytes of the stream, and the last token it keeps is not longer, unless it is a length. The text of a length is collected whatever the maximum: after '1 ' any number of digits is retained and put into the error, so no bound that depends on the options alone holds for it.",
  "every stream, every schedule of reads, all options, every moment of the call; for the length text every number of digits", "memory under adversarial input is a statement about all streams and all intermediate states",
  ["octetcounting/scanner.go: NewScanner, scanMsgLen, scanSyslogMsg", "octetcounting/parser.go: scan, run"])
p("C85", "Octet counting: time",
  "The work of a Parse call (calls, rounds of loops, bytes read and copied, including the work of the message parser) is at most 154 times the bytes of the stream plus 4 times the Read calls, plus the size of the buffer once and once for every backslash in the stream, plus a constant: linear in the stream for a given maximum, whatever its content and however it is delivered.",
  "every stream, every schedule of reads, all options, parsers that were used before", "a bound on the work is a statement about all inputs",
  ["octetcounting/parser.go: Parse, run, scan, parse", "octetcounting/scanner.go: Scan, scanMsgLen, scanSyslogMsg"])

p("C86", "Non-transparent framing: time and memory",
  "The work of a Parse call is at most 170 times the bytes of the stream plus the bytes for every backslash in it plus a constant, whatever the stream; for a parser used before, what it holds of earlier streams counts, too. The bound is reached: one line with k escaped quotes takes k squared steps, whatever the options. Users expect WithMaxMessageLength to bound what is retained: false, a line that starts with '<' and all following lines that do not are retained, and nothing is reported, whatever the options.",
  "every stream, all options, every behaviour of the external read loop, every number of earlier calls", "bounds on work and memory are statements about all inputs",
  ["nontransparent/parser.go: Parse, Exec, process, OnCompletion", "options.go: WithMaxMessageLength"])

p("C87", "Conformance with the text of RFC 5424",
  "The README promises an RFC5424-compliant parser. With WithCompliantMsg the accepted inputs are exactly the SYSLOG-MSGs of the ABNF of RFC 5424 section 6 (with the ranges, calendar and uniqueness rules given there in words); without it the same with any bytes as MSG; a conforming message is accepted under all options with the same result. A stream of conforming frames (RFC 6587 TCP-DATA) within the configured maximum gives one result per message, without errors. Deviation: an invalid escape sequence in a PARAM-VALUE, whose backslash section 6.3.3 says MUST be treated as a regular backslash, is refused.",
  "every byte string; every list of conforming messages and every way of delivering the stream; every message with such an escape", "conformance to a grammar is a statement about all strings",
  ["README.md", "rfc5424/machine.go: Parse", "octetcounting/parser.go: Parse"])
p("C88", "Telling RFC 5424 and RFC 3164 messages apart",
  "No input is a complete message of both formats (strict), so a program can try one parser and then the other. What the wrong parser returns: an RFC 5424 message given to the RFC 3164 parser is refused right after the priority, but with WithRFC3339 it is not refused: strict mode returns neither message nor error, best effort returns a message with nothing but the priority and no error. An RFC 3164 message given to the RFC 5424 parser is refused right after the priority; with an RFC 3339 timestamp of a year from 1000 on the first three digits of the year are taken for the version, which best effort returns.",
  "every message of either format, all options of both parsers", "a statement about all messages of a format",
  ["rfc5424/machine.go: Parse", "rfc3164/machine.go: Parse", "rfc3164/options.go: WithRFC3339, WithBestEffort"])
p("C89", "Choosing the wrong framing",
  "A stream with non-transparent framing (every stream that starts with '<') given to an octet counting parser gives one error and no message. A stream with octet counting framing (every stream that does not start with '<') given to a non-transparent parser gives no message without an error and at most one result; users expect an error, but if the stream ends with the trailer there is no result at all.",
  "every such stream, all options, every way of delivering it, every behaviour of the external read loop", "a statement about all streams",
  ["octetcounting/parser.go: Parse", "nontransparent/parser.go: Parse"])
p("C90", "Messages that contain the trailer",
  "Users expect that one sent message arrives as one message. With non-transparent framing whoever chooses the text of a message can add messages to the stream: a message whose text is extended with the trailer and another message is one message for the message parser and over octet counting, but arrives as two over non-transparent framing, the second exactly as if it had been sent.",
  "every message with a text, every added message, all options, every behaviour of the external read loop", "a statement about all messages",
  ["nontransparent/parser.go: Parse", "octetcounting/parser.go: Parse", "rfc5424/machine.go: Parse"])

p("C91", "An octet counting parser survives panics",
  "A panic of the reader or of the listener leaves Parse; a caller that recovers can use the parser again: every later call gives what it would give on a new parser, whatever ended the earlier calls. A listener that panics has got exactly the results it would have got without the panic, up to there. What the listener has got when the reader panics (or blocks) is a beginning of what it gets for every continuation of the stream, and lacks at most one result, an error, of what it would get if the stream ended there: nothing waits for the end of the stream. If the caller goes on with the same large enough *bufio.Reader after a panic of the listener, the next call gives exactly the following results.",
  "every sequence of calls, every stream and way of delivering it, every listener, every point where reader or listener panic, every continuation", "panics can come at any point of any stream and in any order",
  ["octetcounting/parser.go: Parse, run, scan, unscan", "octetcounting/scanner.go: NewScanner, Scan"])
p("C92", "A non-transparent parser whose listener panics",
  "Users expect that a parser can be used again when the listener has panicked and the caller has recovered. What it reports is fully determined (specification of all histories of calls with panics), and is not what they expect: the message being handled comes again as the first result of the next call, the messages after it in the old stream are lost; a listener that panics at one particular message panics again in every later call, whatever the later streams contain, and no other message is ever reported.",
  "every sequence of calls of Parse on all streams, options applied in between, every listener and every point where it panics, every behaviour of the external read loop (that does not recover itself)", "a panic can come at any result of any history",
  ["nontransparent/parser.go: Parse, Exec, OnCompletion, process"])

p("C93", "What is left of a truncated RFC 5424 message",
  "Parsing any beginning of a valid RFC 5424 message in best effort mode never tells anything the message does not say: every field present is the field of the whole message (the version may be a beginning of its digits), every parameter present is one of that element, the message text a beginning of the text. Which header fields are present is exactly determined: those that arrived with the following space (the timestamp also without it); there is no message exactly when nothing of the version arrived. Every complete element is there unless the cut is right after the bracket opening the next one, which loses the last complete element. Truncation goes unnoticed (no error) exactly when the cut is right after an element, after the nil value of the structured data, or in the text. The same holds for the last, truncated message of a stream of either framing.",
  "every valid message, every place of the cut, both values of the compliance option, every framed stream before it", "the messages and the cuts are unboundedly many",
  ["rfc5424/machine.go: Parse", "octetcounting/parser.go: run", "nontransparent/parser.go: OnCompletion, process"])

p("C94", "What is left of a truncated RFC 3164 message",
  "Users expect that best effort on the beginning of an RFC 3164 message tells nothing the message does not say, as for RFC 5424 (C93). What it tells is exactly determined for every place of the cut, and the expectation holds for timestamp and hostname (each present exactly when it arrived with its space) but not for the rest: a cut in the digits of the priority gives a wrong priority (all digits that arrived but the last); a cut in the tag, or in the pid, is accepted without an error, in both modes, with the beginning of the tag or of the pid as the text. Only when something of the text proper has arrived are tag, pid and text right. Truncation goes unnoticed exactly when the cut is right after the timestamp (or 1 to 18 bytes into an RFC 3339 timestamp) or in MSG.",
  "every message the parser reads, every place of the cut, every combination of options", "the messages and the cuts are unboundedly many",
  ["rfc3164/machine.go: Parse", "rfc3164/machine.go.rl: set_prival, set_tag, set_content, set_message"])

p("C95", "Texts that say the same",
  "Two accepted RFC 5424 texts give the same message exactly if they say the same: they may differ in the order of elements and of parameters, in parameters whose name occurs again later in the element, in trailing zeros of the fraction of a second, in the spelling of the zone UTC, and in whether there is an empty MSG or none; any other difference shows in the message. String() of a returned message is a canonical text: for messages with US-ASCII parameter values it is the same for two of them exactly if they are the same message.",
  "every pair of accepted texts, every pair of returned messages (complete or partial), every map iteration order", "pairs of texts are unboundedly many",
  ["rfc5424/machine.go: Parse", "rfc5424/builder.go: String"])
p("C96", "How long a text may be",
  "All of an RFC 5424 message before the structured data has at most 509 bytes. Messages without structured data whose texts have at most the configured maximum less 511 bytes (7681 for the default of 8192) are delivered by the octet counting parser, whatever is in the other fields; for every longer text there are other fields with which it is refused.",
  "every list of messages, every maximum, every way of delivering the stream", "the bound is a statement about all messages",
  ["octetcounting/parser.go: NewParser, run", "testing/testing.go: MaxMessage"])
p("C97", "The helpers of package testing",
  "RandomBytes(n), if it returns, returns n ASCII letters: the first n letters that the six bit groups of the random numbers stand for, in reverse order; it returns exactly if there are so many. Such a field is accepted by the setters if it is not empty and not too long. RightPad returns exactly limit bytes, a beginning of the string or the string and spaces, and panics for negative limits. MaxPriority, MaxVersion, MaxRFC3339MicroTimestamp are the maxima that messages can have.",
  "every random source, every length, every string and limit", "the random source is arbitrary",
  ["testing/testing.go: RandomBytes, RightPad, MaxPriority, MaxVersion, MaxRFC3339MicroTimestamp"])

p("C98", "The buffer is used again and nobody sees it",
  "The octet counting scanner returns messages as slices of the buffer it reads into; the reads that follow move and overwrite that buffer, and a reader may scribble over the part of the slice it was given that it does not report. None of this reaches the listener: over any number of streams on one parser every result is the one that the reported bytes alone determine, and a caller's own bufio.Reader is left with exactly the bytes that follow. Only the tokens of the exported Scanner show it: a message token is good until the next Scan and no longer, the others keep their text.",
  "every sequence of streams, every way of delivering them, whatever the reads leave in the buffer, both modes, every maximum", "needs particular alignments of messages and reads; a test sees one",
  ["octetcounting/scanner.go: scanSyslogMsg, Scan", "octetcounting/parser.go: run, parse, scan, unscan", "octetcounting/tokens.go: Token"])

p("C99", "Sending an RFC 3164 message on",
  "The library has no String for RFC 3164 messages; a relay that writes the fields of a returned message as <PRI>Mmm dd hh:mm:ss HOSTNAME TAG[PID]: TEXT always gets a text that is accepted, with the same priority, time and host (without RFC 3339 timestamps and time zones; with WithTimezone the time moves by the offset of the zone at every hop). It is the same message unless it has neither tag nor pid and a text that reads as one with a tag (the tag was -), or a pid and a text that is a ] and no other ]. Two accepted texts give the same message exactly if priority, time, host, text, tag and pid are the same, a tag or pid - being the same as none; with the default options the time is the same exactly if the timestamps are.",
  "every accepted input and every year for sending on, every time zone for the move; every pair of accepted inputs and all options for the last part", "the conditions are about all placements of brackets in all texts",
  ["rfc3164/machine.go: Parse", "rfc3164/syslog_message.go: SyslogMessage"])

p("C100", "Parse of both RFCs, statement by statement",
  "Executed statement by statement as it is written (every label, goto, if, switch, assignment and return), Parse of an RFC 5424 or RFC 3164 machine ends for every input and whatever earlier calls left in the machine: after at most 13 n + 17 blocks for n bytes it reaches a return statement, never panics and never jumps to a label that does not exist; what it returns is what a new machine with the same options returns, call after call; strict mode accepts exactly the texts of the grammar and returns their parts.",
  "every input, every value of the variables and fields at the start, every history of calls", "the automata have more than a thousand labels each; a missing label, a wrong jump or a loop shows only on the inputs that reach it",
  ["rfc5424/machine.go: Parse", "rfc3164/machine.go: Parse"])

p("C101", "Setters and non-transparent framing, statement by statement",
  "Executed statement by statement as it is written, the function behind the setters of RFC 5424 messages ends for every value after at most 13 n + 17 blocks, without jumping to a missing label; every chain of setter calls on a new message returns, with the message the calls denote (C67). The function behind non-transparent framing ends for every chunk of n bytes after at most 3 n + 5 blocks; every stream gives the results of the other properties, after any history.",
  "every value, message and chain of setter calls; every stream, trailer, driver and history of the parser", "as for C100; and the entry points into the middle of the setter automaton have no test of their own",
  ["rfc5424/builder.go: set", "nontransparent/parser.go: Exec"])

p("C102", "The hand-written helpers, statement by statement",
  "Executed statement by statement as they are written - pointers, structs, slices with capacities, maps, loops and nested calls included - the helpers of package common (InBetween, ValidPriority, ValidVersion, UnsafeUTF8DecimalCodePointsToInt, EscapeBytes, RemoveBytes), the methods of syslog.Base (Valid, ComputeFromPriority, the five text methods), SyslogMessage.Valid and the minimal/export methods that turn what a machine collected into the returned message end for every argument and every state of the heap, return what C17-C20 and the models of the parsers say, panic only where RemoveBytes gets a position out of range, and change nothing that existed before the call except the receiver of ComputeFromPriority; returned pointers and slices are new.",
  "every argument value, heap, message, slice capacity and allocation policy of append", "the other properties speak about hand translations of these functions; here their statements themselves are executed, for every heap and every capacity, with aliasing",
  ["common/functions.go: InBetween, ValidPriority, ValidVersion, UnsafeUTF8DecimalCodePointsToInt, EscapeBytes, RemoveBytes", "syslog.go: Base", "rfc5424/syslog_message.go: minimal, export, Valid", "rfc3164/syslog_message.go: minimal, export"])

p("C103", "Octet counting, statement by statement",
  "Executed statement by statement as it is written - NewParser with any list of options, then Parse for any sequence of readers - the octet counting parser ends every call without a panic, hands the listener (if one is among the options) exactly the results that C39-C47 are about, stream by stream and in order, each result with exactly the message and error of the model, hands nothing to anyone without a listener, and changes nothing that existed before; HasBestEffort tells whether the option was given; the texts of the framing errors, made by the String methods of tokens as they are written, are those of C61.",
  "every list of options, every sequence of streams and of the pieces in which readers deliver them, every heap", "the other properties of octet counting speak about a hand translation; here the statements of the package themselves are executed",
  ["octetcounting/parser.go: NewParser, Parse, run, parse, scan, unscan, WithListener, WithBestEffort, WithMaxMessageLength, HasBestEffort", "octetcounting/scanner.go: NewScanner, Scan, scanMsgLen, scanSyslogMsg, read, unread", "octetcounting/tokens.go: String", "options.go: WithListener, WithBestEffort, WithMaxMessageLength", "rfc5424/machine.go: NewMachine"])

p("C104", "The builder, statement by statement",
  "Executed statement by statement as it is written, SyslogMessage.String ends without a panic for every message in memory and whatever the order in which maps are iterated, changes nothing that existed before, and returns the text of C25-C28 and C75 with a nil error, or no text and the error 'invalid syslog' exactly if the message is not valid; every setter and every chain of setter calls, executed together with the generated function set that they call, does to the message in memory and to the package variables what C21-C23 and C67 say of it, changes no other variable that existed before, and returns its receiver; entry points are translated to the right start states.",
  "every message in memory, every order of iteration over maps, every list of setter calls with any arguments", "the other properties of the builder speak about a hand translation of the setters and of String; here the statements of the file themselves are executed, with maps in memory and an arbitrary iteration order",
  ["rfc5424/builder.go: String, SetPriority, SetVersion, SetTimestamp, SetHostname, SetAppname, SetProcID, SetMsgID, SetElementID, SetParameter, SetMessage, translate, set"])

p("C105", "Constructors, options and the locked Parse, statement by statement",
  "Executed statement by statement as they are written: the option functions of rfc5424 and rfc3164 only return a function value; NewParser applies the options from left to right, so that the machine gets the configuration of C63 for the same list, and a WithYear operator is consulted exactly once, then and not later; after that any sequence of Parse, HasBestEffort and WithBestEffort calls on the parser returns, for each Parse, what the model returns for a new parser with the configuration of that moment (in strict mode an error comes without a message). Whatever machine.Parse does, it runs with the lock held, and Parse returns or panics with the lock released; Err, HasBestEffort and text of the machines return the fields they name, and text panics exactly if the bounds are not those of a slice of the input.",
  "every list of options, every clock, every sequence of method calls and inputs, every result or panic of machine.Parse", "the other properties speak about a hand translation of the constructors and of the locked Parse; here the statements are executed, for all option lists, sequences of calls and outcomes of the inner function",
  ["rfc5424/options.go: WithBestEffort, WithCompliantMsg", "rfc5424/parser.go: NewParser, HasBestEffort, Parse", "rfc5424/machine.go: NewMachine, WithBestEffort, HasBestEffort, Err, text", "rfc3164/options.go: WithBestEffort, WithYear, WithTimezone, WithLocaleTimezone, WithRFC3339", "rfc3164/parser.go: NewParser, HasBestEffort, Parse", "rfc3164/machine.go: NewMachine, WithBestEffort, WithYear, WithTimezone, WithLocaleTimezone, WithRFC3339, HasBestEffort, Err, text", "rfc3164/year.go: YearOperation, CurrentYear, Year"])

p("C106", "Non-transparent framing, statement by statement",
  "Executed statement by statement as they are written: for nontransparent.NewParser with any options, followed by any sequence of Parse calls (each on its own stream, ended by any reader error or the end of the stream), options applied to the existing parser and HasBestEffort calls, every call returns and none panics; each Parse gives the listener the results of the model that C48 to C54 are about, in order, and nothing if no listener has been set, an option applied late has the effect that the model says, HasBestEffort tells the option, and no other variable of the program changes. What the listener gets over the whole sequence, from the call of Parse on that begins when there is one, is what the specification of C73 allows for it (exactly one possibility). TrailerType: Value, String and MarshalText know exactly LF (0) and NUL (1); TrailerTypeFromString, UnmarshalText and UnmarshalTOML do what C53 says and set the variable to -1 if the name is unknown.",
  "every list of options, every sequence of method calls, every stream with less than 2^63 bytes in total, every behaviour of the driver that its tests leave open", "the other properties speak about a hand translation of the package; here the statements are executed, for all option lists and sequences of calls",
  ["nontransparent/parser.go: NewParser, WithListener, WithBestEffort, WithMaxMessageLength, HasBestEffort, WithTrailer, Parse, Exec, OnErr, OnEOF, OnCompletion, process", "nontransparent/trailer_type.go: String, Value, TrailerTypeFromString, UnmarshalText, UnmarshalTOML, MarshalText"])

p("C107", "Building messages beside each other, statement by statement",
  "Executed statement by statement, with the generated function set: no chain of setters on any message in memory panics; a new message, any chain of setters and String give the text (or the error) of the message that the calls denote (C67); the chain changes no variable that existed before except those that belong to its message, so that every other message that shares nothing with it stays as it was and prints the same text, and a new message shares nothing with those that existed before; a copy of the struct (b := *a) shares the structured data if there are any at that moment: a chain on one of the two then gives its new structured data to the other, in both directions, and leaves every other field of the other as it was; if there were none, the two are independent.",
  "every memory, every number of messages in it, every list of setter calls with any arguments, every order of iteration over maps", "what is shared depends on the addresses of the maps in all reachable memories, and the chains are unbounded",
  ["rfc5424/builder.go: set, SetPriority, SetVersion, SetTimestamp, SetHostname, SetAppname, SetProcID, SetMsgID, SetElementID, SetParameter, SetMessage, String", "rfc5424/syslog_message.go: SyslogMessage"])

p("C108", "From the constructor to the grammar, all of it executed from the source",
  "NewParser of rfc5424 and rfc3164 and any sequence of Parse, WithBestEffort and HasBestEffort on the parser, executed from the source with nothing assumed but the mutex and the clock (the options, the constructor, the locked Parse, and the generated machine.Parse state by state, whatever earlier calls left in the machine): every call returns, and Parse returns the parts of the message and no error if the input is a message of the grammar (with WithCompliantMsg: a compliant one), and otherwise an error pointing into the input, without a message unless best effort is on and the input begins as C03 (C32) says; RFC 3164 answers with neither exactly on the inputs of C32. The octet-counting parser, executed likewise on any number of readers one after the other, gives the listener exactly the parts of the framed messages, in order, however the readers cut them; the non-transparent parser, executed likewise, what the specification of C73 says.",
  "every list of options, every sequence of calls and inputs, every contents of the machine's fields, every memory; every stream and every way of cutting it", "the combinations of options, histories and inputs are unbounded; unit tests also cannot separate what one layer assumes of the next",
  ["rfc5424/parser.go: NewParser, Parse, WithBestEffort, HasBestEffort", "rfc5424/machine.go: Parse", "rfc3164/parser.go: NewParser, Parse", "rfc3164/machine.go: Parse", "octetcounting/parser.go: NewParser, Parse", "nontransparent/parser.go: NewParser, Parse"])

p("C109", "Programs that use parsers and messages together see values",
  "A program makes rfc5424 parsers (with any options) and messages, calls Parse, WithBestEffort and HasBestEffort on any parser, setters and String on any message (parsed or its own), in any order and number. Executed from the source over one memory (the hand-written functions statement by statement, the generated Parse and set block by block, allocating and writing the very structs and maps), every call ends without a panic and the program sees exactly what the same operations give on values: what a message or a parser is never depends on what was done to another one. In particular the message that Parse returns is in new variables, shares nothing with the parser, with earlier or later results or with messages being built, and stays as it is, and prints the same text, until one of its own setters is called; Parse leaves everything that existed before, the parser included, as it was.",
  "every sequence of operations, every input and option list, every memory and every contents of the machine's working fields, every order of map iteration", "sharing between results would show only in particular histories (parse, parse, change, print), which are unbounded; unit tests look at one message of one parser",
  ["rfc5424/machine.go: Parse", "rfc5424/syslog_message.go: export, minimal", "rfc5424/parser.go: NewParser, Parse, HasBestEffort", "rfc5424/builder.go: set, String"])

p("C110", "Programs that use both parser packages in one memory see values",
  "A program makes parsers of rfc5424 and of rfc3164 (with any options; CurrentYear reads the clock), parses with any of them, switches best effort on and asks for it, makes, sets, prints and validates messages, asks for the texts of facility and severity, reads any field of any message, calls ComputeFromPriority, and at any time its own code writes anything it likes into the variables of a message that it has. Executed from the source over one memory (hand-written functions statement by statement, the generated Parse of both packages and set block by block), every call ends without a panic, and the program sees exactly what the same operations give on values. So the message that Parse of rfc3164 returns is in new variables and shares nothing with the parser or with any other result; a parser changes only by its own WithBestEffort, a message only by its own setters, its own ComputeFromPriority or the program's own writes to it; such writes change no other message and no later result; the year of CurrentYear is the one of the time at which the parser was made.",
  "every sequence of operations on any number of parsers and messages of both packages, every input and option list, every clock, every memory, every contents of the machines' working fields, whatever the program writes into its own messages", "a result that shared memory with the parser, with the next result or with the other package would show only in particular histories, which are unbounded",
  ["rfc3164/machine.go: Parse", "rfc3164/syslog_message.go: export, minimal", "rfc3164/parser.go: NewParser, Parse, HasBestEffort, WithBestEffort", "rfc3164/options.go: WithYear, WithTimezone, WithLocaleTimezone, WithRFC3339", "rfc5424/machine.go: Parse", "rfc5424/parser.go: NewParser, Parse", "rfc5424/builder.go: set, String", "syslog.go: Base.Valid, Base.ComputeFromPriority, Base.FacilityMessage, Base.FacilityLevel, Base.SeverityMessage, Base.SeverityLevel, Base.SeverityShortLevel"])

p("C111", "Messages delivered from a stream are the program's own",
  "A program makes octet-counting parsers, each with any options, with or without a listener, gives each of them any number of readers, applies further options to them and asks them HasBestEffort at any time, and its listeners keep the messages; in between and afterwards it changes and prints those messages, and makes and uses parsers and messages of rfc5424, in any order. Executed from the source over one memory (octetcounting, syslog and the hand-written functions of rfc5424 statement by statement, the generated Parse and set block by block), every call ends without a panic, and the program sees exactly what the same operations give on values: for each stream, whatever happened before, the results of a new parser with the same options, given when it was made and later, in order (nothing if the parser has no listener by then); for maxima at least 20 below the largest int these are what the specification says of a parser that goes on after wrong messages if best effort was ever asked for, keeps incomplete messages if it was asked for when the parser was made, and has the last maximum. Every message delivered is in variables of its own: it stays as delivered, and prints the same text, whatever further messages of the same stream, further streams on the same or on other parsers, and changes to other messages follow; changing a delivered message changes no other message and no later result, and no parser is affected by another one's options or streams.",
  "every sequence of operations on any number of stream parsers, parsers and messages, every option list, given at once or later, every sequence of reads of each reader, every memory, every contents of the machines' working fields", "a delivered message that shared memory with the parser's buffer, the token it keeps or the next message would change only in particular histories, which are unbounded",
  ["octetcounting/parser.go: NewParser, Parse, run, parse, Parser.WithListener, WithBestEffort, WithMaxMessageLength", "octetcounting/scanner.go: Scan", "rfc5424/machine.go: Parse", "rfc5424/parser.go: NewParser, Parse", "rfc5424/builder.go: set, String", "syslog.go: WithListener, WithBestEffort, WithMaxMessageLength"])

p("C112", "Messages delivered from lines are the program's own",
  "A program makes parsers of non-transparent framing, each with any options, with or without a listener, gives each of them any number of readers, applies further options to them at any time, and its listeners keep the messages; in between and afterwards it changes and prints those messages, and makes and uses parsers and messages of rfc5424, in any order. Executed from the source over one memory (nontransparent, syslog and the hand-written functions of rfc5424 statement by statement, the generated Exec, Parse and set block by block), every call ends without a panic, and the program sees exactly what the same operations give on values. What the listener of one parser gets is what the specification of C73 allows for the acts on that parser alone, whatever else happens in between. Every message delivered is in variables of its own: it stays as delivered, and prints the same text, whatever further lines, streams, options and changes to other messages follow; a message held back and reported again is another copy.",
  "every sequence of operations on any number of line parsers, parsers and messages, every option list, every contents and end of each stream (less than 2^63 bytes in total), every behaviour of the external loop that the model leaves open, every memory", "a delivered message that shared memory with the text held back or with the next message, or a parser that was affected by another one's stream, would change only in particular histories, which are unbounded",
  ["nontransparent/parser.go: NewParser, Parse, OnErr, OnEOF, OnCompletion, process, WithListener, WithBestEffort, WithMaxMessageLength, HasBestEffort, Exec", "nontransparent/parser.go: WithTrailer", "rfc5424/machine.go: Parse", "rfc5424/parser.go: NewParser, Parse", "rfc5424/builder.go: set, String", "syslog.go: WithListener, WithBestEffort, WithMaxMessageLength"])

p("C113", "A non-transparent parser whose reader panics",
  "A panic of the reader leaves Parse (unless a line refused before has ended the call); a caller that recovers can use the parser again, and what it reports is fully determined for every history in which readers and listeners panic (specification). At the panic the listener has got a beginning of what it would have got if the reader had gone on, in any way: all complete messages but the last. No message that had come with its trailer is lost: the last one is the first result of the next call, whatever stream that gets; of the line that was being read nothing is reported, now or later.",
  "every sequence of calls of Parse, every stream, every point where reader or listener panic, every continuation, options applied in between, every behaviour of the external read loop (that does not recover itself)", "a message lost, repeated or mixed with the beginning of a line would show only for some points of the panic and some later streams",
  ["nontransparent/parser.go: Parse, Exec, OnErr, OnCompletion, process"])

p("C114", "The whole history of an octet-counting parser",
  "Executed statement by statement as it is written: octetcounting.NewParser with any options, then readers, further options (syslog.WithListener, WithBestEffort, WithMaxMessageLength applied to the parser that exists) and HasBestEffort, in any order. Every call ends without a panic. What a call of Parse gives the listener, if there is one by then, is what the specification says of a parser that goes on after wrong messages if best effort was asked for at any time before, keeps incomplete messages only if it was asked for when the parser was made, and has the last maximum given; nothing remains of the streams before. HasBestEffort tells whether best effort was asked for at any time. Variables that existed before the parser are not changed.",
  "every list of options, every sequence of acts on the parser, every stream and every way in which its reader delivers it, every heap (maxima 20 below the largest int)", "an option that takes effect late, half or not at all, or a stream that leaves something behind, would show only in particular histories of calls, which are unbounded",
  ["octetcounting/parser.go: NewParser, Parse, run, WithListener, WithBestEffort, WithMaxMessageLength, HasBestEffort", "octetcounting/scanner.go: NewScanner, Scan", "options.go: WithListener, WithBestEffort, WithMaxMessageLength"])

p("C115", "The exported scanner of octet counting",
  "octetcounting.NewScanner and Scan used by themselves: the tokens of any number of calls are exactly what the specification says of the bytes of the stream, however the reader delivers them, and a call has just one outcome. What the calls consume is, piece by piece, the beginning of the stream: nothing is lost or comes twice. A token EOF with text (a message cut short or longer than the buffer) comes again at every further call, for ever. A stream of frames that fit the buffer gives length, space and message of each and then EOF at every call. Other characters between the space and the message do not keep the scanner from finding the message.",
  "every stream, every way in which its reader delivers it, every maximum, every number of calls", "what a call returns depends on a state built up over unboundedly many earlier calls and on how the reader cuts the stream",
  ["octetcounting/scanner.go: NewScanner, Scan, read, unread, scanMsgLen, scanSyslogMsg", "octetcounting/tokens.go: TokenType, Token"])

p("C116", "The exported scanner of octet counting, at source level",
  "Executed statement by statement as it is written: octetcounting.NewScanner(r, max) makes a scanner; then every call of Scan, however many there are, returns a token, and its method String returns the text of the token that the specification of C115 asks for, whatever the bytes and however the reader delivers them. For every stream and every number of calls there is just one such list of tokens. No listener is called; variables that existed before and package variables are not changed.",
  "every stream, every way in which its reader delivers it, every maximum, every number of calls, every heap", "the state of a scanner is built up over unboundedly many calls",
  ["octetcounting/scanner.go: NewScanner, Scan, read, unread, scanMsgLen, scanSyslogMsg, isDigit, isNonZeroDigit", "octetcounting/tokens.go: Token.String, TokenType.String"])

p("C117", "A listener is replaced",
  "Of the listeners among the options of NewParser the last one counts. WithListener may be called on the finished parser between calls of Parse, and by a listener while Parse runs: each result goes to exactly one listener, the one that there is at that moment; the next result already goes to the one installed by whoever heard the last. What is reported, and in which order, does not depend on the listeners: each call of Parse reports what one listener gets who only listens, and returns. Both framings.",
  "every list of options, every sequence of WithListener, other options and Parse, every stream, every behaviour of the listeners that consists of installing others, every behaviour of the external read loop", "a listener kept in a local variable, or read once per call of Parse, would show only when it is replaced at particular moments of particular streams",
  ["octetcounting/parser.go: WithListener, run, NewParser", "nontransparent/parser.go: WithListener, process, OnCompletion, NewParser", "options.go: WithListener"])

p("C118", "A listener that panics, statement by statement",
  "Executed statement by statement as it is written: octetcounting.NewParser with any options, then readers, further options and HasBestEffort in any order (C114), with a listener that panics when it wants to, which it may decide from everything it has got so far; the program recovers and goes on. A call of Parse ends with a panic only if the listener panics; the listener has then got exactly what it would have got if it had not panicked, up to the result at which it did, that one included, and nothing after it: no result is passed on while the panic leaves Parse (no deferred call does so), none is lost or comes early. If the listener panics at none of the results, the call returns and has passed on all of them. In both cases the parser is as good as new: every later call gives what C114 says of it, with nothing left of the stream at which the listener panicked, and HasBestEffort answers as before; variables that existed before the parser are not changed, at a panic either.",
  "every list of options, every sequence of acts, every splitting of every stream into reads, every moment at which the listener panics", "the moment of the panic can be any of the results of any of the streams, and depend on all results before; a deferred call or a recover in the program would matter only then",
  ["octetcounting/parser.go: NewParser, Parse, run", "octetcounting/scanner.go: Scan", "options.go"])

p("C119", "A reader that panics, statement by statement",
  "Executed statement by statement as it is written: octetcounting.NewParser with any options, then readers, further options and HasBestEffort in any order (C114), where the io.Reader, and so the bufio.Reader in front of it, or any other function of another package except the listener, may panic at any call. A call of Parse then ends with that panic, and the listener has got exactly a first part of the results it would have got if the reader had gone on, whatever it would have delivered: none is lost before the panic, none is made up, out of order or passed on while the panic leaves Parse. A call without such a panic does what C114 says, and the parser goes on. No panic is swallowed: any function of any of the packages, whatever the other packages do, returns only if nothing that it called outside panicked.",
  "every list of options, every sequence of acts, every splitting of every stream into reads, every behaviour of the functions of other packages in which some calls panic, at any time", "a test has a reader that panics at one place; the panic can come at every call of every read of every stream",
  ["octetcounting/parser.go: NewParser, Parse, run", "octetcounting/scanner.go: read, Scan, scanMsgLen, scanSyslogMsg", "options.go"])

if __name__ == '__main__':
    here = os.path.dirname(os.path.abspath(__file__))
    with open(os.path.join(here, '..', 'properties.jsonl'), 'w') as f:
        for x in P: f.write(json.dumps(x, ensure_ascii=False) + '\n')
    print(len(P))
