{"id": "C01", "title": "Stacks are last-in first-out", "statement": "Starting from an empty stack, any sequence of push, push2, push3, pop, pop2, pop3, last, get and clear operations that never takes more than is there and never holds more than 255 items returns exactly the values, and reports exactly the depth, of an abstract last-in first-out list. `is_empty` is true exactly when the list is empty.", "quantifier": "every element type, every operation sequence of any length whose abstract depth stays between 0 and 255", "why_tests_cant": "the ring buffer has 256 slots with a wrapping 8-bit depth; tests push a handful of values and cannot cover every history", "anchors": ["src/core.rs:Stack::push", "src/core.rs:Stack::pop", "src/core.rs:Stack::push2", "src/core.rs:Stack::push3", "src/core.rs:Stack::pop2", "src/core.rs:Stack::pop3", "src/core.rs:Stack::last", "src/core.rs:Stack::get", "src/core.rs:Stack::clear"]}
{"id": "C02", "title": "No false stack alarm", "statement": "If since the last reset the data, float and return stacks never held fewer than 0 or more than 64 items, then the stack check after a token raises no exception, whatever values were stored.", "quantifier": "every push/pop history of any length with depth within 0..64 and every stored value", "why_tests_cant": "the check looks at two guard slots and the depth byte; a false alarm may need a particular history", "anchors": ["src/core.rs:Stack::underflow", "src/core.rs:Stack::overflow", "src/core.rs:check_stacks"]}
{"id": "C03", "title": "Stack underflow and overflow are detected", "statement": "If after some token the depth is outside 0..64 (by at most 64 past either end) the stack check raises the exception of that stack and direction; an excursion above 64 is also reported after the stack has shrunk back, provided the value written to the 65th place was not the guard value.", "quantifier": "every push/pop history since reset with depth between -127 and 128, every value", "why_tests_cant": "which slots were overwritten depends on the whole history, including excursions that ended before the check", "anchors": ["src/core.rs:Stack::underflow", "src/core.rs:Stack::overflow", "src/core.rs:check_stacks"]}
{"id": "C04", "title": "Stack words have their documented effect", "statement": "Each data-stack word (dup drop swap over nip rot pick 2dup 2drop 2swap 2over depth, 1+ 1- + - * abs negate, = < > <> 0= 0< 0> 0<> within, and or xor invert lshift rshift true false) changes the data stack exactly as its stack comment says, for operands anywhere in the 64-bit range, and changes nothing else in the machine.", "quantifier": "every machine state, every stack content of admissible depth, every operand value", "why_tests_cant": "tests try one or two operand tuples per word at depth below 6", "anchors": ["src/core.rs:swap", "src/core.rs:dup", "src/core.rs:rot", "src/core.rs:over", "src/core.rs:pick", "src/core.rs:two_swap", "src/core.rs:two_over", "src/core.rs:within", "src/core.rs:lshift"]}
{"id": "C05", "title": "Division is symmetric and exact", "statement": "For every dividend n and non-zero divisor d, `n d /mod` leaves r and q with n = q*d + r in 64-bit wrap-around arithmetic, |r| < |d|, r zero or of the sign of n, and `/` and `mod` leave the same q and r; the only quotient that does not fit (least integer divided by -1) wraps and nothing panics. A zero divisor raises the division-by-zero exception and never panics.", "quantifier": "all pairs of 64-bit operands in any machine state", "why_tests_cant": "2^128 operand pairs, with the overflow pair a single point", "anchors": ["src/core.rs:slash", "src/core.rs:modulo", "src/core.rs:slash_mod"]}
{"id": "C06", "title": "Flags are canonical", "statement": "Every comparison word leaves exactly -1 when the relation holds of the signed 64-bit operands and exactly 0 when it does not; `within` holds iff x2 <= x1 < x3 as signed numbers.", "quantifier": "all operands", "why_tests_cant": "tests compare small literals only", "anchors": ["src/core.rs:less_than", "src/core.rs:greater_than", "src/core.rs:equals", "src/core.rs:not_equals", "src/core.rs:zero_less", "src/core.rs:within"]}
{"id": "C07", "title": "Store then fetch", "statement": "After `x a !` with a in the data space, `a @` gives x, and a fetch from any cell or byte that does not overlap a..a+7 gives what it gave before; the same holds for c! and c@ with single bytes, and for f! and f@ with floats at the rounded-up address.", "quantifier": "all cell values, all valid addresses, all memory contents", "why_tests_cant": "read-back and non-interference over every pair of addresses", "anchors": ["src/core.rs:fetch", "src/core.rs:store", "src/core.rs:c_fetch", "src/core.rs:c_store", "src/float.rs:ffetch", "src/float.rs:fstore"]}
{"id": "C08", "title": "Bad addresses are rejected, never accessed", "statement": "`@ ! c@ c! f@ f! move` given any address (and length) not wholly inside the data space raise the invalid-memory-address exception, and no byte outside the data space is ever read or written.", "quantifier": "every 64-bit address and length, in checked and unchecked arithmetic builds", "why_tests_cant": "the failing addresses are the last few below 2^64, where the bounds test itself overflows", "anchors": ["src/core.rs:fetch", "src/core.rs:store", "src/core.rs:c_fetch", "src/core.rs:c_store", "src/core.rs:p_move", "src/float.rs:ffetch", "src/float.rs:fstore"]}
{"id": "C09", "title": "move copies correctly when regions overlap", "statement": "After `a1 a2 u move` with both regions inside the data space, byte a2+k equals the old byte a1+k for every k < u, and every byte outside a2..a2+u-1 is unchanged, whichever way the regions overlap.", "quantifier": "all addresses, all lengths, all contents, all overlaps", "why_tests_cant": "tests cover two fixed overlaps", "anchors": ["src/core.rs:p_move"]}
{"id": "C10", "title": "HERE never leaves the data space", "statement": "Whatever text is evaluated and whatever code is run, `here` stays between the start and the end of the data space, and the data space never moves or changes size.", "quantifier": "every program and every execution of any length", "why_tests_cant": "allot takes any signed argument and any word can be executed in any order", "anchors": ["src/core.rs:allot", "src/core.rs:align", "src/memory.rs:DataSpace::set_here", "src/memory.rs:Memory::truncate"]}
{"id": "C11", "title": "allot, comma and align", "statement": "`n allot` moves here by exactly n when the result is inside the data space and does nothing otherwise; `,` stores its argument at the old here and advances here by one cell; `align` and `falign` move here to the least multiple of 8 not below it, and `align_16bytes`, which no word uses, to the least multiple of 16; none of them changes any other byte (align zero-fill excepted where the code does so).", "quantifier": "every here, every argument, every memory content", "why_tests_cant": "boundary arguments and unaligned here", "anchors": ["src/core.rs:allot", "src/core.rs:comma", "src/core.rs:align", "src/memory.rs:compile_isize", "src/memory.rs:align", "src/float.rs:falign"]}
{"id": "C12", "title": "Alignment arithmetic", "statement": "`aligned` (and its 8 and 16 byte variants) gives the least multiple of the alignment not below its argument, is idempotent and monotone.", "quantifier": "all addresses for which rounding up does not leave the 64-bit range", "why_tests_cant": "all residues at all magnitudes", "anchors": ["src/memory.rs:aligned", "src/memory.rs:aligned_f64", "src/memory.rs:aligned_16bytes", "src/core.rs:aligned"]}
{"id": "C13", "title": "Integer literals are read by place value", "statement": "A token is accepted as an integer exactly when it is a quoted character, or an optional base prefix (% # $), an optional sign, and digits all below the base; the value pushed is the signed place-value sum modulo 2^64.", "quantifier": "every token of any length, every value of BASE", "why_tests_cant": "token space is infinite; wrap-around and digit/base boundary interplay", "anchors": ["src/core.rs:evaluate_integer", "src/parser.rs:sign", "src/parser.rs:base", "src/parser.rs:uint_in_base", "src/parser.rs:quoted_char"]}
{"id": "C14", "title": "A number token has at least one digit", "statement": "A token with no digits, such as $ or #- or %, is not accepted as a number.", "quantifier": "every token", "why_tests_cant": "the empty-digit case needs the prefix-only tokens to be thought of", "anchors": ["src/core.rs:evaluate_integer", "src/parser.rs:uint_in_base"]}
{"id": "C15", "title": "Printed numbers read back", "statement": "In each base 2, 8, 10 and 16, the text `.r` prints for an integer, without its padding, is read back by the interpreter in the same base as the same integer. The text is exactly the signed decimal numeral in base 10 and the upper-case digits of the two's complement, without leading zeros, in the other bases.", "quantifier": "all 2^64 integers, all four bases, all field widths", "why_tests_cant": "round trip over the full 64-bit range including the least integer", "anchors": ["src/output.rs:dot_r", "src/core.rs:evaluate_integer"]}
{"id": "C16", "title": "Field width of .r", "statement": "`n w .r` emits exactly max(w, length of the text) characters, blanks first, then the text.", "quantifier": "all n, all w, all supported bases", "why_tests_cant": "negative and huge widths", "anchors": ["src/output.rs:dot_r"]}
{"id": "C17", "title": "Floating literals grammar", "statement": "A token is accepted as a floating literal exactly when it is [sign] digits+ [. digits*] (E|e) [sign] digits* with integer part, fraction and exponent in range; anything else is not.", "quantifier": "every token, any float arithmetic", "why_tests_cant": "the token space is infinite and the parser is hand written with many fall-through branches", "anchors": ["src/core.rs:evaluate_float", "src/parser.rs:fraction", "src/parser.rs:uint"]}
{"id": "C18", "title": "Tokenization", "statement": "Repeated parse-word over an input line yields exactly the maximal runs of non-blank characters (blank, tab, CR, LF separate), in order, then the empty token; characters outside ASCII are handled whole.", "quantifier": "every input text, any length, any Unicode content", "why_tests_cant": "infinitely many texts; multi-byte characters and byte offsets interact", "anchors": ["src/core.rs:parse_word"]}
{"id": "C19", "title": "parse and comments stop at the delimiter", "statement": "`parse` takes the characters up to the first delimiter or the end and leaves the input position just after the delimiter; `(` skips through the first `)` and `\\` skips the rest of the line, whatever they contain.", "quantifier": "every input text and delimiter with the input position inside the text", "why_tests_cant": "every position of delimiter, missing delimiter, multi-byte text", "anchors": ["src/core.rs:parse", "src/core.rs:imm_paren", "src/core.rs:imm_backslash", "src/core.rs:_skip"]}
{"id": "C20", "title": "Name lookup finds the newest visible definition", "statement": "Looking a name up gives the most recently added word that is not hidden and whose name equals it ignoring ASCII case, or nothing if there is none, independent of how names hash.", "quantifier": "every history of definitions, hidings and markers, every name", "why_tests_cant": "hash buckets with chains: collisions and shadowing depend on the whole history", "anchors": ["src/core.rs:find", "src/core.rs:Wordlist::push", "src/core.rs:Wordlist::hash", "src/core.rs:Wordlist::truncate"]}
{"id": "C21", "title": "Hash ignores case", "statement": "Names equal up to ASCII case fall in the same bucket with the same hash.", "quantifier": "every pair of names of any length", "why_tests_cant": "infinite domain", "anchors": ["src/core.rs:Wordlist::hash"]}
{"id": "C22", "title": "A marker restores the dictionary", "statement": "Executing a marker word restores here, the number of words and every name lookup to what they were just before the marker was created, whatever was defined since.", "quantifier": "every dictionary, every sequence of definitions after the marker", "why_tests_cant": "shadowed names and bucket heads depend on everything defined in between", "anchors": ["src/core.rs:marker", "src/core.rs:unmark", "src/core.rs:Wordlist::truncate"]}
{"id": "C23", "title": "A definition is invisible until it is complete", "statement": "While a colon definition is being compiled, and after one that failed, its name still finds the previous definition (or nothing); after a successful `;` it finds the new one.", "quantifier": "every dictionary, every name and every body", "why_tests_cant": "depends on hidden flags over every failure path", "anchors": ["src/core.rs:colon", "src/core.rs:semicolon", "src/core.rs:define", "src/core.rs:find"]}
{"id": "C24", "title": "Structured code compiles to what it says", "statement": "For every nesting of IF-ELSE-THEN, BEGIN-UNTIL, BEGIN-WHILE-REPEAT, BEGIN-AGAIN, DO/?DO-LOOP/+LOOP, CASE-OF-ENDOF-ENDCASE, EXIT, literals and words in a colon definition, running the compiled code has exactly the effect of the structured program.", "quantifier": "every structured program of any size and nesting, every start state, every behaviour of the words called", "why_tests_cant": "branch targets are patched through a compile-time stack; correctness is per nesting shape, and there are infinitely many", "anchors": ["src/core.rs:imm_if", "src/core.rs:imm_else", "src/core.rs:imm_then", "src/core.rs:imm_begin", "src/core.rs:imm_while", "src/core.rs:imm_repeat", "src/core.rs:imm_until", "src/core.rs:imm_again", "src/core.rs:imm_case", "src/core.rs:imm_of", "src/core.rs:imm_endof", "src/core.rs:imm_endcase", "src/core.rs:imm_do", "src/core.rs:imm_loop", "src/core.rs:run"]}
{"id": "C25", "title": "Counted loops run the right number of times", "statement": "`limit start DO ... LOOP` runs its body (limit-start) mod 2^64 times (2^64 times when equal), with I taking start, start+1, ..., limit-1 in wrap-around order; ?DO runs it zero times when equal.", "quantifier": "all 64-bit limits and starts", "why_tests_cant": "full range of limits including wrap past the greatest integer", "anchors": ["src/core.rs:_do", "src/core.rs:_qdo", "src/core.rs:_loop", "src/core.rs:p_i"]}
{"id": "C26", "title": "+LOOP stops exactly at the boundary", "statement": "`+LOOP` with increment n leaves the loop iff adding n to the index crosses the boundary between limit-1 and limit, in either direction, in wrap-around arithmetic.", "quantifier": "all limits, indices and increments", "why_tests_cant": "2^192 combinations, including negative steps and overflow", "anchors": ["src/core.rs:_plus_loop"]}
{"id": "C27", "title": "Unbalanced control structures are rejected", "statement": "A body is accepted by `;` only if its control words are properly nested; any other arrangement raises control-structure-mismatch, and a properly nested one does not.", "quantifier": "every sequence of control words of any length (nesting depth within the control stack)", "why_tests_cant": "infinitely many arrangements", "anchors": ["src/core.rs:imm_then", "src/core.rs:imm_else", "src/core.rs:imm_repeat", "src/core.rs:imm_endcase", "src/core.rs:semicolon"]}
{"id": "C28", "title": "Labels and gotos resolve", "statement": "When `label n` is compiled, every earlier `goto n` or `call n` of the definition, however many, jumps to it; later ones do too; `;` refuses a definition with an unresolved label.", "quantifier": "any number and interleaving of labels, gotos and calls", "why_tests_cant": "forward references are threaded through memory; the chain length is unbounded", "anchors": ["src/core.rs:label", "src/core.rs:goto", "src/core.rs:call", "src/core.rs:semicolon"]}
{"id": "C29", "title": "Literals survive compilation", "statement": "An integer, float or string literal compiled into a definition gives back, when the definition runs, exactly the value, or exactly the bytes and length, that was in the source text.", "quantifier": "all cells, all floats, all strings, any here", "why_tests_cant": "all values, all alignments of here", "anchors": ["src/core.rs:compile_integer", "src/core.rs:lit", "src/core.rs:compile_float", "src/core.rs:flit", "src/core.rs:p_s_quote", "src/output.rs:s_quote", "src/memory.rs:compile_str"]}
{"id": "C30", "title": "Abort clears the stacks and reports the code", "statement": "When any word raises an exception, the data, float and control stacks of the running task are emptied, the exception's code becomes the last error, and the installed handler is executed; other tasks' stacks are untouched.", "quantifier": "every state, every exception code, every handler", "why_tests_cant": "holds on every failure path", "anchors": ["src/core.rs:abort_with", "src/core.rs:clear_stacks"]}
{"id": "C31", "title": "Evaluation stops at the first failing token", "statement": "Evaluating a line processes tokens left to right; once a token leaves an error pending no later token of the line is read or executed, and if no token fails every token is processed.", "quantifier": "every input line, every machine state, any default handler", "why_tests_cant": "which token fails and the state then are arbitrary", "anchors": ["src/core.rs:evaluate_input", "src/core.rs:interpret_token", "src/core.rs:compile_token"]}
{"id": "C32", "title": "An exception stops the running definition", "statement": "As the comment on the inner interpreter says, any exception terminates the inner loop: no later word of the running definition is executed after a word raised an exception.", "quantifier": "every definition and machine state", "why_tests_cant": "depends on what the handler does to the instruction pointer", "anchors": ["src/core.rs:run", "src/core.rs:abort_with"]}
{"id": "C33", "title": "Compile-only words are refused when interpreting", "statement": "Outside compilation a word marked compile-only is never executed; the interpreting-a-compile-only-word exception is raised instead. While compiling, a non-immediate word is never executed, and an immediate one always is.", "quantifier": "every dictionary and token", "why_tests_cant": "all words, flags and states", "anchors": ["src/core.rs:interpret_token", "src/core.rs:compile_token"]}
{"id": "C34", "title": "Cooperative round robin", "statement": "`pause` gives control to the next awake task in cyclic order; if a task stays awake it gets control after at most four other pauses; a sleeping task never gets control.", "quantifier": "every set of awake tasks, every current task, every number of pauses", "why_tests_cant": "every schedule", "anchors": ["src/core.rs:pause", "src/core.rs:suspend", "src/core.rs:resume", "src/mock_vm.rs:awake"]}
{"id": "C35", "title": "pause always returns", "statement": "`pause` terminates in every state.", "quantifier": "every set of awake tasks including none", "why_tests_cant": "the all-asleep state loops for ever, which a test cannot observe", "anchors": ["src/core.rs:pause"]}
{"id": "C36", "title": "Tasks do not disturb each other", "statement": "No word executed by one task changes the data, float or control stack, the open files or the sources of another task, and only `activate` changes another task's return stack, input or instruction pointer.", "quantifier": "every primitive word in every state, every interleaving", "why_tests_cant": "quantifies over all words and states", "anchors": ["src/core.rs:activate", "src/core.rs:pause", "src/mock_vm.rs:VM"]}
{"id": "C37", "title": "Facilities are mutually exclusive", "statement": "With `get` and `release` from core.fth, at no time do two tasks hold the same facility variable, in every interleaving of cooperating tasks, and `release` by a non-owner changes nothing.", "quantifier": "every number of get/release calls by every task in every schedule", "why_tests_cant": "schedules are unbounded", "anchors": ["core.fth:get", "core.fth:release", "src/core.rs:pause", "src/core.rs:me"]}
{"id": "C38", "title": "File identifiers are unambiguous", "statement": "A file identifier handed out by create-file or open-file is not the identifier of any file then open, and denotes that file until it is closed; operations on an identifier that is not open fail without touching any file.", "quantifier": "every sequence of file operations, every pattern of operating-system failures", "why_tests_cant": "slot reuse depends on the history", "anchors": ["src/file_access.rs:create_file", "src/file_access.rs:open_file", "src/file_access.rs:close_file", "src/loader.rs:open_source"]}
{"id": "C39", "title": "File words have one result shape", "statement": "Each file word leaves exactly the number of results in its stack comment on every path, success or failure.", "quantifier": "every operand, every failure", "why_tests_cant": "error paths are many and rarely tested", "anchors": ["src/file_access.rs:delete_file", "src/file_access.rs:read_file", "src/file_access.rs:write_file"]}
{"id": "C40", "title": "The current source is always open", "statement": "The current source identifier always denotes the terminal or an open source, so reading the input buffer cannot fault.", "quantifier": "every sequence of open-source, close-source, source-id! in every task", "why_tests_cant": "holds over all histories", "anchors": ["src/loader.rs:open_source", "src/loader.rs:close_source", "src/core.rs:set_source_id", "src/mock_vm.rs:input_buffer"]}
{"id": "C41", "title": "load-line splits a file into its lines", "statement": "Repeated load-line on a source delivers the file's lines in order, without their LF or CRLF terminators, each with its right length, then reports end of file; concatenating them with terminators gives the file back.", "quantifier": "every file content", "why_tests_cant": "infinitely many contents, last line with or without terminator", "anchors": ["src/loader.rs:load_line"]}
{"id": "C42", "title": "Buffers are never lost", "statement": "The token, input, and output buffers that words borrow are put back on every path, including failing ones, so no later word can find them missing.", "quantifier": "every word, every state, every error path", "why_tests_cant": "each word takes and returns buffers by hand", "anchors": ["src/core.rs:parse_word", "src/core.rs:parse", "src/core.rs:define", "src/output.rs:dot_r", "src/output.rs:s_quote"]}
{"id": "C43", "title": "No input text crashes the interpreter", "statement": "Evaluating any text either succeeds or reports an exception; it never panics.", "quantifier": "every input text", "why_tests_cant": "the crashing texts are particular corner cases", "anchors": ["src/output.rs:s_quote", "src/core.rs:parse", "src/memory.rs:compile_u8", "src/core.rs:p_i"]}
{"id": "C44", "title": "A failed definition does not poison later ones", "statement": "After a definition is abandoned with an error and the client resets the machine, a later correct definition compiles.", "quantifier": "every failed body and every later definition", "why_tests_cant": "state left by failures is only visible later", "anchors": ["src/core.rs:semicolon", "src/core.rs:reset", "src/core.rs:label", "src/core.rs:goto"]}
{"id": "C45", "title": "Library words of core.fth", "statement": "The words defined in Forth (max min ?dup tuck 2@ 2! +! 2, <= >= 2* 2/ fill count /string append on off spaces) have their documented stack and memory effects when their compiled code is run by the inner interpreter.", "quantifier": "all operands, all valid addresses and lengths", "why_tests_cant": "the definitions are compiled text; each loop and branch must be right for all operands", "anchors": ["core.fth"]}
{"id": "C46", "title": "save-source and restore-source are a stack", "statement": "Nested save-source and restore-source restore source identifiers and indices in last-in first-out order up to 16 levels, and abort beyond.", "quantifier": "every nesting sequence", "why_tests_cant": "offset arithmetic in a hand-made stack", "anchors": ["core.fth:save-source", "core.fth:restore-source"]}
{"id": "C47", "title": "Exception codes and messages", "statement": "The exception constants are pairwise different, the code of each is its Forth-2012 number, and each has its own description, which says what the standard reserves the code for.", "quantifier": "all exception constants", "why_tests_cant": "small finite table checked exhaustively", "anchors": ["src/exception.rs"]}
{"id": "C48", "title": "Address to word lookup and backtraces", "statement": "The word found for a code address is the one whose dictionary entry is the last to start at or below that address; none is found only for addresses before all entries. A backtrace names, the oldest first, the word each return address belongs to, then the word that raised the last error, then the word being executed, and changes nothing else.", "quantifier": "every dictionary with increasing entries, every address and every return stack", "why_tests_cant": "binary search over every size", "anchors": ["src/core.rs:Wordlist::find_xt", "src/tools.rs:dot_backtrace"]}
{"id": "C49", "title": "Counted strings", "statement": "`!token` stores the current token at an address as a counted string that `count` reads back byte for byte, or raises an exception and writes nothing when it does not fit.", "quantifier": "every token, every address", "why_tests_cant": "all lengths and boundary addresses", "anchors": ["src/core.rs:store_token", "src/memory.rs:put_cstr", "core.fth:count"]}
{"id": "C50", "title": "Execution-time statistics", "statement": "After any number of recorded executions the minimum and maximum reported for a word are the least and greatest recorded durations.", "quantifier": "every sequence of recorded durations", "why_tests_cant": "sequence length unbounded", "anchors": ["src/tools.rs:set_execution_times", "src/core.rs:Word"]}
{"id": "C51", "title": "does> words", "statement": "A word made by a defining word with does> pushes the address of its data and then runs the code after does>; words made earlier by create keep pushing only their address.", "quantifier": "every defining word, every data content", "why_tests_cant": "depends on dictionary history", "anchors": ["src/core.rs:does", "src/core.rs:_does", "src/core.rs:xdoes"]}
{"id": "C52", "title": "Early binding", "statement": "Redefining a name does not change the behaviour of definitions compiled before.", "quantifier": "every dictionary and every later definition", "why_tests_cant": "quantifies over later histories", "anchors": ["src/core.rs:compile_word", "src/core.rs:define", "src/core.rs:Wordlist::push"]}
{"id": "C53", "title": "A word changes only what it is for", "statement": "Running a word changes no part of the machine outside the footprint of that word, apart from what the words it calls (execute, immediate words, the error handler) change: stack words touch only their stack, only handler! touches the handler, only pause changes the task in control, and so on for every primitive.", "quantifier": "every primitive word and every machine state", "why_tests_cant": "a frame property: tests look at what a word is supposed to change, not at everything else", "anchors": ["src/core.rs", "src/output.rs", "src/tools.rs", "src/float.rs", "src/file_access.rs", "src/loader.rs"]}
{"id": "C54", "title": "A machine can only do what its words can do", "statement": "If none of the words given to a machine makes a certain kind of change, no program run on it, however long and whatever words it defines, makes that change; for example without handler! the handler never changes and without pause control never leaves the task.", "quantifier": "every word list, every program, every execution", "why_tests_cant": "quantifies over all programs", "anchors": ["src/core.rs:define", "src/core.rs:_does", "src/core.rs:execute_word", "src/core.rs:evaluate_input"]}
{"id": "C55", "title": "File words have their documented effects", "statement": "Each file word succeeds exactly when its operands are valid, the file is open in a suitable mode and the host does not fail, and then changes file contents, directory, positions and memory exactly as documented; on failure nothing changes. In particular bytes written at a position can be read back from it.", "quantifier": "every file word, every operand, every machine and file-system state", "why_tests_cant": "contents, positions and histories of open files are unbounded", "anchors": ["src/file_access.rs:read_file", "src/file_access.rs:write_file", "src/file_access.rs:reposition_file", "src/file_access.rs:resize_file"]}
{"id": "C56", "title": "Return-stack, float and unit words have their documented effect", "statement": "Each return-stack word (>r r> r@ 2>r 2r> 2r@ unloop), float-stack word (fdup fdrop fswap fnip fover frot fpick), float computation, comparison and conversion word and unit word changes the data, return and float stacks exactly as its stack comment says, leaves canonical flags, and changes nothing else in the machine; what goes to the return stack comes back unchanged.", "quantifier": "all stack contents within the ring of 256 slots, all float values and any float arithmetic of the host", "why_tests_cant": "three stacks with arbitrary 64-bit contents; frame condition on the rest of the machine", "anchors": ["src/core.rs:p_to_r", "src/core.rs:r_from", "src/core.rs:two_r_from", "src/float.rs:fswap", "src/float.rs:fpick", "src/float.rs:fproximate", "src/units.rs:from_deg"]}
{"id": "C57", "title": "Nothing printed is lost or reordered", "statement": "Text sent to the standard output or error stream stays there; no byte written to the output buffer disappears before it reaches a stream; without a word that sends the buffer to the error stream, what has been printed always remains the beginning of what is printed. emit, type, .( , .s, words, flush-output and flush-to-err add or send exactly the documented text: .s lists the stack in decimal so that it can be read back, and then the floats with seven digits, words lists the visible names newest first.", "quantifier": "all programs and executions of any length; all stack contents, texts and dictionaries", "why_tests_cant": "histories of unbounded length, including errors, task switches and definitions in between", "anchors": ["src/output.rs:emit", "src/output.rs:p_type", "src/output.rs:dot_paren", "src/output.rs:flush_output", "src/tools.rs:dot_s", "src/tools.rs:flush_to_err", "src/tools.rs:words", "src/tools.rs:flush_to_err"]}
{"id": "C58", "title": "Status words report and set exactly what they say", "statement": "The words that report something about the machine (max-n max-u mtime utime me compiling? token-empty? source-id source-idx here base error pi >body >name) push that value and change nothing else; the address words compute exactly; the words that set something ([ ] bye 0error 0labels 0stacks handler! source-id! source-idx! suspend resume activate reset) change exactly that, for one task only where a task is meant, and raise an error for a number of no task, word or open source; .token .error .memory .input .word .source-path .source-line and f.r print exactly the documented text, and .input does not lose the line.", "quantifier": "all machines, stack contents, task numbers, word numbers, source numbers and texts; both builds", "why_tests_cant": "exact value and frame condition over every machine state, with arbitrary 64-bit operands", "anchors": ["src/core.rs:p_compiling", "src/core.rs:p_source_id", "src/core.rs:p_set_source_id", "src/core.rs:to_body", "src/core.rs:activate", "src/core.rs:suspend", "src/core.rs:resume", "src/core.rs:reset", "src/tools.rs:dot_input", "src/tools.rs:dot_word", "src/output.rs:fdot_r", "src/env.rs", "src/facility.rs", "src/loader.rs:dot_source_path", "src/loader.rs:dot_source_line"]}
{"id": "C59", "title": "Words that quote a name take exactly that name and compile exactly what is documented", "statement": "' pushes the number of the newest visible word of the next name; ['] appends it as a literal; postpone appends it with the word that compiles it later, and that word later does to memory what naming the word in a definition does (false for immediate words: they are compiled instead of run); char and [char] take the code point of the first character of the next token; compile, appends the number on the stack; recurse appends the number of the definition being compiled; immediate and compile-only mark the newest word only. An unknown name, or none, raises the documented error after the name is taken; nothing else of the machine changes.", "quantifier": "all machines with a well formed dictionary, all texts, names, characters, stack contents and memory contents with room", "why_tests_cant": "exact result and frame over every text, dictionary and memory", "anchors": ["src/core.rs:tick", "src/core.rs:bracket_tick", "src/core.rs:postpone", "src/core.rs:_postpone", "src/core.rs:char", "src/core.rs:bracket_char", "src/core.rs:compile_comma", "src/core.rs:imm_recurse", "src/core.rs:immediate", "src/core.rs:compile_only"]}
{"id": "C60", "title": "Constants and created words keep what they were made with", "statement": "create, constant and fconstant take exactly one name, define a word that this name (in any case of letters) then finds and that no other name finds, put its data right after its name, aligned, leave memory in use alone, and report a redefinition exactly when the name was visible. The new word pushes the value, or the address, it was made with and changes nothing else; it keeps its value through any later definitions that do not store into memory.", "quantifier": "all machines with a well formed dictionary and room, all names, values and later histories", "why_tests_cant": "every dictionary content, name and value, and unbounded later histories", "anchors": ["src/core.rs:define", "src/core.rs:create", "src/core.rs:constant", "src/core.rs:p_const", "src/core.rs:p_var", "src/float.rs:fconstant", "src/float.rs:p_fconst", "src/memory.rs:compile_str"]}
{"id": "C61", "title": "The line editor edits the line one sees", "statement": "Whatever keys come, reading a line neither panics nor loses the place: the cursor is always between two characters, a typed character goes where the cursor is, backspace removes the one before it, left and right move over one character of any length in bytes, up and down choose lines of the history and bring back the unfinished line, and enter returns exactly the text seen and appends it to the history if it is not empty. Lines entered before stay as they were. The history file holds the last 32 lines and gives them back when the program starts again.", "quantifier": "all histories, all sequences of keyboard events, all characters, all widths", "why_tests_cant": "unbounded sequences of keys mixing edits and history moves over characters of one to four bytes; the editor has no tests", "anchors": ["rtf/src/term.rs:Term::new", "rtf/src/term.rs:Term::read_line", "rtf/src/term.rs:Term::drop"]}
{"id": "C62", "title": "Arguments and typed lines become the input", "statement": "The words given on the command line are read one after the other after the program's own start-up text, as the tokens of the first argument, then those of the second and so on, however they contain blanks. A line typed at the prompt replaces the input and is read from its start; only the input changes. Ctrl-D ends the program, a terminal error is printed.", "quantifier": "all argument lists, all lines, all machines", "why_tests_cant": "arbitrary texts with blanks at any place and any number of arguments", "anchors": ["rtf/src/main.rs:main", "rtf/src/main.rs:receive", "src/core.rs:set_source", "src/core.rs:parse_word"]}
{"id": "C63", "title": "An evaluation has one outcome, whatever the size of the native stack", "statement": "Executing a word, running a definition and evaluating a line give the same result on every native stack large enough for them, and however long one is ready to wait: the size of the host's stack and the time only decide whether a result is seen, never which. Two evaluations of the same line from the same state end alike unless one of them is cut short.", "quantifier": "all machines, all words, all lines, all native stack sizes, all numbers of steps", "why_tests_cant": "a test has one stack size and one time limit; and it looks at one line", "anchors": ["src/core.rs:execute_word", "src/core.rs:run", "src/core.rs:evaluate_input", "src/core.rs:abort_with"]}
{"id": "C64", "title": "The interpreter written in Forth does what the one written in Rust does", "statement": "The word evaluate-input of core.fth reads the tokens of the input and evaluates one after the other, compiling or interpreting, exactly as Rust's evaluate_input does: after a text whose tokens raise no exception both leave the same machine (same stacks, memory, words, output and input position), and the Forth version returns to its caller whatever is on the return stack. (After an exception whose handler comes back the two differ.)", "quantifier": "all texts, all effects of tokens, all stacks, all return stacks, all placements of the code", "why_tests_cant": "the agreement ranges over every text and over whatever words its tokens name, with an arbitrary nesting of callers; the unit tests only call the Rust version", "anchors": ["core.fth:evaluate-input", "src/core.rs:evaluate_input", "src/core.rs:compile_token", "src/core.rs:interpret_token", "src/core.rs:check_stacks"]}
{"id": "C65", "title": "Including a file interprets all its lines and comes back to where it was", "statement": "included opens the file named on the stack, saves the source being read, evaluates the lines of the file one after the other up to its end, each with the words it names, printing the output and counting the line after each; then it closes the file and goes on reading the former source at the former place, for any nesting of sources. A file of numbers leaves these numbers on the stack in order. If the file cannot be opened it aborts and no source, file or memory changes. (That nothing else is left behind is false: each inclusion puts a stray call of [ into memory, does not leave compilation, and forgets the line number of the outer file.)", "quantifier": "all files, all lines and effects of their words, all saved sources up to the 16 there is room for, all stacks, all placements of the code", "why_tests_cant": "files are of any length and their words do anything; nesting is arbitrary; the compiled code of included exists only at run time", "anchors": ["core.fth:load-source-file", "core.fth:included", "core.fth:save-source", "core.fth:restore-source", "src/loader.rs:load_line", "src/loader.rs:open_source", "src/loader.rs:close_source"]}
{"id": "C66", "title": "A session at the terminal survives every line, right or wrong", "statement": "quit of rtf/rtf.fth answers each line: after a line whose tokens raise no exception it prints ' ok' (unless a definition is being compiled), ends the line and is back at the prompt with the stacks the line left. When any exception is raised, wherever it is raised and however deep the return stack, the handler (abort) prints the token, the description of the error, the file, line number and text of the source being read, and the backtrace (nothing after abort), empties all stacks, leaves compilation, clears the error and is back at the prompt, reading the terminal; memory, dictionary, open files and sources are as they were. So any sequence of good and bad lines leads to the prompt again. (That an error in a file being included also closes the file and forgets the saved source is false: they pile up.)", "quantifier": "all machines with the compiled code of rtf/rtf.fth, all sequences of lines, all effects of their words, all exceptions, all return stacks with room for the handler, all sources being read", "why_tests_cant": "the loop never ends and the lines do anything; an error may be raised at any depth of calls, in any word; the unit tests have no terminal and no rtf.fth", "anchors": ["rtf/rtf.fth:quit", "rtf/rtf.fth:(abort)", "core.fth:evaluate-input", "src/core.rs:abort_with", "src/core.rs:reset", "src/core.rs:clear_stacks", "src/output.rs:p_type", "src/tools.rs:dot_backtrace"]}
{"id": "C67", "title": "A new machine has loaded all of core.fth and is ready", "statement": "VM::new registers all its built-in words and loads the text of core.fth to the end without a panic or an exception, wherever its memory lies and whatever its size, if it has room for it. The machine is then interpreting, has no error, empty data and control stacks and the decimal base. Each word of core.fth that other properties speak of (the library words, 2constant, +field, defer, get, release, save-source, restore-source, evaluate-input, load-source-file, included) is found under its name, has exactly the code its definition says, and that code calls the built-in words of those names; its variables hold their initial values.", "quantifier": "all start addresses aligned to 16, all capacities of at least 12288 bytes, all configurations and nesting limits, all amounts of fuel above some number", "why_tests_cant": "the addresses compiled into the code depend on where the memory is; a test sees one machine on one host, and only the words it happens to execute", "anchors": ["core.fth", "src/mock_vm.rs:VM::new", "src/loader.rs:load_core_fth", "src/loader.rs:load_str", "src/core.rs:evaluate_input", "src/core.rs:add_core", "src/core.rs:colon", "src/core.rs:marker", "src/output.rs:add_output"]}
{"id": "C68", "title": "The program rtf starts with core.fth and rtf.fth loaded", "statement": "The machine that rtf/src/main.rs makes registers all built-in words and receive, and loads core.fth and rtf.fth to the end without a panic or an exception, wherever its memory lies and whatever its size, if it has room. The marker -work, with which rtf.fth begins, forgets nothing that core.fth defined. The words of core.fth that other properties speak of and nod, halt, quit, (abort) and cold are found under their names and have exactly the code their definitions say; receive is the function of main.rs. The machine interprets, in the decimal base, with empty data, return and control stacks, and reads from the terminal with nothing left to read. Nothing was printed on the way, and the user was not asked for anything.", "quantifier": "all start addresses aligned to 16, all capacities of at least 12288 bytes, all configurations and nesting limits, all amounts of fuel above some number", "why_tests_cant": "the addresses compiled into the code depend on where the memory is; no test of the project makes this machine, since the program waits for a terminal", "anchors": ["rtf/src/main.rs:VM::new", "rtf/rtf.fth", "core.fth", "src/loader.rs:load_core_fth", "src/loader.rs:load_str", "src/core.rs:marker", "src/core.rs:unmark"]}
{"id": "C69", "title": "The program rtf answers every line as a calculator should, from its start to the end of input", "statement": "The whole program, from making its machine to its end: without arguments it prints its greeting, with arguments it evaluates them first; then it answers each line the user types, and ends when the input ends. For every sequence of lines of integers, words that work on the data stack, divisions, the words that print a number (`.` and `.r`), a character (`emit`), blanks (`space` and `spaces`) and a line end (`cr`), exactly this is printed: for a line without error, a blank, what the line prints and ok; for a line that comes to an unknown word, to a compile-only word or to a division by zero, what it printed before, the word, the description and a backtrace, and then the data stack is empty and the rest of the line is not evaluated; after abort nothing but the end of the line. What is on the data stack after a line is there for the next line. An error in an argument or a line never ends the program, and no line makes it answer a later line otherwise than it would have.", "quantifier": "all start addresses aligned to 16, all capacities of at least 12288 bytes, all arguments and all sequences of lines of such tokens, of any length, all configurations and nesting limits above three, all amounts of fuel above some number, all widths of fields of at least -2^62", "why_tests_cant": "the program waits for a terminal and no test runs it; a test would see one dialogue, while the claim is about every sequence of lines, with errors anywhere", "anchors": ["rtf/src/main.rs:main", "rtf/src/main.rs:repl", "rtf/src/main.rs:receive", "rtf/rtf.fth:cold", "rtf/rtf.fth:quit", "rtf/rtf.fth:(abort)", "core.fth:evaluate-input", "src/core.rs:evaluate", "src/core.rs:find", "src/output.rs", "src/output.rs:emit", "src/output.rs:dot_r", "core.fth:spaces", "core.fth:cr"]}
{"id": "C70", "title": "Words the user defines at the prompt of the program rtf do what their bodies say", "statement": "In a whole run of the program, from making its machine to its end, the user may define words: `: name ... ;` with a body of integers, words of the calculator, words defined before, if/else/then, begin/until, begin/again, begin/while/repeat and do or ?do with loop or +loop, nested in any way, with the indices i and j, leave, exit (after an unloop for each loop around it) and recurse. The definition prints nothing when the name is new; when the user or the program has a word of that name, in upper or lower case, it prints `Redefining` and the name in lower case. From then on the name, in upper or lower case, does exactly what its body does, from any line and from the bodies of later words, with any number of turns of its loops: the data stack and the output of every line are those of the body evaluated step by step. A word in a body means what it meant when the definition was typed, also when its name is defined again later. When a body divides by zero or comes to `abort`, at whatever depth of calls and structures, what it printed before is printed, the error is told with the token that was typed (nothing is told after abort), the rest of the line is not evaluated, the stacks are empty, and the dialogue goes on. Definitions stay after errors and abort. No definition changes what the program itself or an earlier word does: the loop of the prompt works on even when the words it is made of are defined again. Memory suffices as long as the definitions fit: the name with its count and padding, at most two cells for each token of the body and one for its end.", "quantifier": "all start addresses aligned to 16, all capacities of at least 12288 bytes, all arguments and all sequences of lines of such tokens and definitions that fit the memory, all names but those of the structures (`:`, `;`, `if` and so on), all bodies of any length whose structures are nested at most 64 deep, all executions of the bodies that end or come to such an error, where calls of defined words and counted loops take at most 50 places on the return stack, one for each call and three for each loop", "why_tests_cant": "a test runs one program text; the claim is about all definitions, all uses of them, loops with any number of turns, and errors in between", "anchors": ["src/core.rs:colon", "src/core.rs:semicolon", "src/core.rs:define", "src/core.rs:compile_token", "src/core.rs:imm_if", "src/core.rs:imm_else", "src/core.rs:imm_then", "src/core.rs:imm_begin", "src/core.rs:imm_until", "src/core.rs:imm_again", "src/core.rs:imm_while", "src/core.rs:imm_repeat", "src/core.rs:nest", "src/core.rs:exit", "src/core.rs:branch", "src/core.rs:zero_branch", "rtf/src/main.rs:main", "rtf/rtf.fth:quit", "src/core.rs:imm_do", "src/core.rs:imm_qdo", "src/core.rs:imm_loop", "src/core.rs:imm_plus_loop", "src/core.rs:imm_recurse", "src/core.rs:leave", "src/core.rs:unloop", "src/core.rs:p_i", "src/core.rs:p_j"]}
