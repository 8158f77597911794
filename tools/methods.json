{
 "C01": "descent = grammar, both directions; uniqueness of the decomposition",
 "C02": "case analysis of the descent",
 "C03": "descent, invariant of the partial output",
 "C04": "the two modes run the same steps",
 "C05": "invariant of the output over all steps",
 "C06": "`parse` equals a function that does not take the old machine state",
 "C07": "from C01",
 "C08": "from C01 + calendar",
 "C09": "from the grammar of elements",
 "C10": "from C01 + escaping specification",
 "C11": "from C01",
 "C12": "UTF-8 automaton = RFC 3629 ABNF, then as C01",
 "C13": "invariant on the position",
 "C14": "prefix lemma: the run up to the error does not look further",
 "C15": "panic is an outcome; proved unreachable from every machine state",
 "C16": "invariant over all interleavings",
 "C17": "all 256 values; names against RFC 5424/5427 tables",
 "C18": "induction",
 "C19": "induction on the positions",
 "C20": "induction on the text",
 "C21": "builder tables = grammar of each field",
 "C22": "same",
 "C23": "same, three `set` runs",
 "C24": "case analysis",
 "C25": "sorting a permutation gives the same list",
 "C26": "printer output satisfies the grammar, then C01/C12",
 "C27": "same + uniqueness",
 "C28": "exact set of texts that survive; witness",
 "C29": "C01 + printer",
 "C30": "interleavings: invariant without overlap, two witnesses with overlap",
 "C31": "descent = grammar, uniqueness",
 "C32": "exact set of silent inputs",
 "C33": "invariant",
 "C34": "readings of the MSG language",
 "C35": "comparison of two runs",
 "C36": "calendar arithmetic",
 "C37": "as C06",
 "C38": "as C13-C15",
 "C39": "frames -> prun",
 "C40": "prun depends on the delivered bytes only",
 "C41": "induction over the rounds",
 "C42": "same",
 "C43": "same",
 "C44": "same, termination by fuel never exhausted",
 "C45": "prefixes of frames",
 "C46": "actual behaviour",
 "C47": "idle states",
 "C48": "chunk by chunk, all drivers",
 "C49": "same",
 "C50": "same",
 "C51": "actual behaviour",
 "C52": "actual behaviour and positive part",
 "C53": "case analysis",
 "C54": "case analysis",
 "C55": "every shorter prefix can be completed to a message (construction)",
 "C56": "from C55/C57",
 "C57": "descent = `Broken`",
 "C58": "from C57",
 "C59": "descent = `Broken` (3164)",
 "C60": "prun = `Emits`",
 "C61": "suffix/prefix analysis of the texts",
 "C63": "induction on option lists; invariant of the run; bisimulation up to the flag",
 "C65": "heap model of slices refines the list model of C19",
 "C62": "composition of C27 with C39/C48; which texts can be framed by induction on the grammar",
 "C64": "invariant of the setters and its converse by construction of a chain",
 "C66": "partial messages of `Broken` are messages of the grammar",
 "C67": "induction on the chain",
 "C68": "loop with the unread schedule attached to each result; frame by frame",
 "C69": "chunk by chunk, stream left open; outputs only grow",
 "C70": "tokens before an error are those at the end; induction on `Emits`",
 "C71": "`prunc`, the run with a buffer of given size, refines the scanner on `bufio.Reader`; `bufSize` with wrapping addition",
 "C72": "`parseOn` leaves what `prunc` leaves (`runLoop_spec`); induction on the calls; for the other readers: the schedule is empty after the first `Read`",
 "C73": "`parse_groups`, `parse_bad_any`: a call from any machine state; every stream has one of two shapes; induction on the acts",
 "C74": "heap model of the messages; simulation of the setter automaton by the one on values; frame conditions; invariant over histories",
 "C75": "C64, C66 and the converse of C28; the forged text is the text of another message by associativity",
 "C76": "invariant over all executions with a ghost clock; the automaton commutes with assignments to the mode",
 "C77": "potential method over the automaton; abstract interpretation of the table computed by the kernel; counter semantics; explicit family for the lower bound",
 "C78": "potential method over the automaton; abstract interpretation of the table computed by the kernel; counter semantics; explicit family for the lower bound",
 "C79": "invariant of the loop with a counter",
 "C80": "from the complete specification C59 and the prefix property C38",
 "C81": "the model with the number of bits of int as a parameter; refinement and specification as for C60",
 "C82": "the functions that emit with the listener as a parameter, nesting depth as fuel (results do not depend on it); invariant over frames up to and after the call",
 "C83": "the functions that emit with the listener as a parameter, nesting depth as fuel (results do not depend on it); invariant over groups of lines up to and after the call",
 "C84": "invariant of the states a Parse call goes through; explicit family of streams for the length text (from the specification of every stream, C60)",
 "C85": "potential method: bytes left, calls left; induction on the rounds, with the bound of C77 for each message",
 "C86": "potential method: length and backslashes of the candidate; explicit family for the lower bound (C77)",
 "C87": "rule by rule equivalence of the ABNF with the grammar of C01 (induction on words); deviation from the specification of refusals (C57)",
 "C88": "from the complete specifications of both parsers (C57, C59): the byte after the priority decides",
 "C89": "from the complete specifications of both framings (C60, C49-C51)",
 "C90": "from C11, C39 and C48",
 "C91": "the run with a reader that may panic simulates the run on every continuation of the stream (induction on rounds); the parser invariant (no token put back) holds wherever a panic can leave it",
 "C92": "as C73, with an outcome for the panic: the first panicking result splits the reports of the call",
 "C93": "from the complete specification of outcomes (C57): the beginning of a message is parsed back at most one way (prefix-freeness of each field, induction on elements and parameters)",
 "C94": "from the complete specification of outcomes (C59): a proper beginning of a word of a prefix-free language fails at its end, for each field",
 "C95": "extensionality of the maps; digits of the fraction and offsets determine the time; String by C25 and C66",
 "C96": "lengths of the fields from the grammar of C01; C39 and C43",
 "C97": "loop invariant: after r rounds the loop has seen the first r groups",
 "C98": "refinement: a second model in which the buffer is an array and literals are offsets into it simulates the first; the window of waiting bytes is invariant under the copies",
 "C99": "from C31: the part after the last ]: of a text has no such part itself, which determines how the text of the relay is read",
 "C100": "simulation of the goto program by the table automaton: its blocks are compared with the table for every state and byte by functions whose soundness is proved and which the kernel evaluates, each action's statements are proved to do what the action does, then induction on the input",
 "C101": "the setters as C100 (the actions never jump, so that also panics agree); `Exec` by a direct simulation, its dispatch for all 256 bytes and kinds of trailer",
 "C102": "symbolic execution of the programs of `Verif/Gen/Mini.lean` under one semantics for all of them; loops by induction on the list they run over, tables by evaluation of the kernel for every byte",
 "C103": "symbolic execution of the programs, a relation between the heap and the model's parser that every statement preserves, the loop by induction on the rounds of the model; bufio.Reader, ParseUint, bytes.Buffer and the message parser are those of the model",
 "C104": "symbolic execution of the programs, a relation between the heap and messages; loops over map keys and sorted names by induction; the generated set is executed as its program over the same memory, by a simulation between that meaning of the program and the one of C101 (Go/Sim, Mini/SetGo); sort.Strings, fmt.Sprintf and time.Format are those of the model",
 "C105": "symbolic execution of the programs; the loop over the options by an invariant with the options already applied; sequences of calls by induction with a relation between heap and configuration; sync.Mutex and the clock are parameters with stated meaning, machine.Parse is a hypothesis in the words of the model (C100 proves it of its program), shown satisfiable by an instance",
 "C106": "symbolic execution of the programs; a relation between heap and the model's parser that every chunk, every event of the driver and every option preserves; sequences of calls by induction; composition with C73; the generated Exec is executed as its program over the same memory, the ragel driver is the stated contract with its open points as parameters, the RFC 5424 parser is a hypothesis in the words of the model (C100), shown satisfiable by an instance",
 "C107": "symbolic execution of the setters and a simulation for set (C104) that also give a frame: which variables may change, and that the map stays the same map; a message depends only on the variables it reaches; chains by induction; composition with C22 and C67",
 "C108": "the hypothesis about machine.Parse in C103, C105 and C106 is discharged by C100 (the execution of its Go body returns, and returns what the model returns); the model's answers are put in terms of the grammar by C01-C05, C12, C13 and C31-C33, C38; octet streams by C39",
 "C109": "machine.Parse executed block by block over memory is simulated by its execution on values (C100): a relation between the struct and maps under construction and the model's message, with a data-flow check that the output is allocated before it is written and that lookups into the maps succeed; export gives a message in new variables; sequences of operations by an invariant (each parser and message is represented, no two reach a common variable)",
 "C110": "rfc3164's machine.Parse executed block by block over memory is simulated by its execution on values (C100), like C109's; export gives a message in new variables without structured data; sequences of operations by an invariant (each thing is represented, no two things own a common variable; a setter, ComputeFromPriority or a write of the program touches only what its message reaches)",
 "C111": "the execution of octetcounting (C103) for any Parse of rfc5424 that meets a contract; the contract is proved for the generated Parse executed over memory (C109); a longer list of external functions keeps every execution that ends; sequences of operations by an invariant (each stream parser, parser and message is represented, no two own a common variable); the loop of the parser on events with two best effort flags (`Octet/Late.lean`)",
 "C112": "the execution of nontransparent (C106) for any Parse of rfc5424 that meets a contract relative to a memory relation; the contract is proved for the generated Parse executed over memory (C109); a longer list of external functions keeps every execution that ends; sequences of operations by an invariant (each line parser, parser and message is represented, no two own a common variable)",
 "C113": "as C92, with the loop over the chunks cut off before the end of the stream; the specification of a call interrupted so is a third relation between what is kept, the bytes, and the reports",
 "C114": "invariant over the acts: the variable of the parser holds the parser of the model, whose two best effort flags and maximum are functions of the options so far; `parse_call` and `sopt_call` as for C103, the specification as for C81",
 "C115": "invariant over the calls: the scanner of the model stands for announced length, space seen and the bytes to come (`pscan`, `scan_spec`); every step of the specification is the step of that, the specification is total",
 "C116": "`scan_call`: the statements do what the scanner of the model does, wherever in a variable the scanner is (`Slot`); induction on the calls, with C115",
 "C117": "the loops with the field `emit` as part of the state; they do what the loops of the model do, and call the listener of the moment for each result (simulation); the specification of who hears what is a recursion over what happens, its consequences by induction",
 "C118": "a general theorem about the language of the statements, by induction over the statements and the depth of the calls: an execution with an environment that panics at a call of the listener is the one without, up to that call, and ends in a state in which the listener is called (all deferred calls of the program are Unlock); the simulation of C103 with a listener of which something is known only in states that an invariant describes, which gives the state at the panic",
 "C119": "a general theorem about the language of the statements, by induction over the statements and the depth of the calls, for any way to compare two executions that goes through sequences, loops and deferred calls: once for 'the same, up to a panic', once for 'what returns here, returns there'; with C114"
}