{
 "claims": [
  {
   "property": "C01",
   "status": "proved",
   "theorems": [
    "Verif.C01_stack_is_lifo",
    "Verif.C01_empty"
   ],
   "note": "Refinement of the ring buffer to a list over every operation sequence; `is_empty`."
  },
  {
   "property": "C02",
   "status": "proved",
   "theorems": [
    "Verif.C02_no_false_alarm",
    "Verif.C02_check_passes",
    "Verif.C02_words_no_false_alarm"
   ],
   "note": "Per stack, for check_stacks on all four stacks, and for any sequence of numbers and stack words."
  },
  {
   "property": "C03",
   "status": "proved",
   "theorems": [
    "Verif.C03_alarms_exact",
    "Verif.C03_check_raises",
    "Verif.C03_data_stack"
   ],
   "note": "Exact characterisation of both alarms for every history with depth in -127..128; check_stacks raises the matching exception."
  },
  {
   "property": "C04",
   "status": "proved",
   "theorems": [
    "Verif.C04_stack_words"
   ],
   "note": "One theorem over the whole effect table."
  },
  {
   "property": "C05",
   "status": "proved",
   "theorems": [
    "Verif.C05_slash_mod",
    "Verif.C05_slash",
    "Verif.C05_mod",
    "Verif.C05_division_unique",
    "Verif.C05_zero_divisor"
   ],
   "note": "Truncating division laws, uniqueness of quotient and remainder, zero divisor."
  },
  {
   "property": "C06",
   "status": "proved",
   "theorems": [
    "Verif.C06_flags_binary",
    "Verif.C06_flags_unary",
    "Verif.C06_within"
   ],
   "note": "All comparison words."
  },
  {
   "property": "C07",
   "status": "proved",
   "theorems": [
    "Verif.C07_store_fetch",
    "Verif.C07_cstore_cfetch",
    "Verif.C07_fstore_ffetch"
   ],
   "note": "! @ c! c@ f! f@ with frame conditions."
  },
  {
   "property": "C08",
   "status": "partial",
   "theorems": [
    "Verif.C08_cell_words_partial",
    "Verif.C08_byte_words",
    "Verif.C08_float_words_partial",
    "Verif.C08_move_partial",
    "Verif.C08_fetch_wraps",
    "Verif.C08_ffetch_past_end"
   ],
   "note": "Full statement refuted: @ near 2^64 (C08_fetch_wraps) and f@ near the end of an odd-sized space (C08_ffetch_past_end). Proved for every address whose end does not pass 2^64; c@ and c! for every address."
  },
  {
   "property": "C09",
   "status": "proved",
   "theorems": [
    "Verif.C09_move"
   ],
   "note": "Both copy directions by induction; any overlap."
  },
  {
   "property": "C10",
   "status": "proved",
   "theorems": [
    "Verif.C10_here",
    "Verif.C10_outside"
   ],
   "note": "Over all executions (Reach: any sequence of calls of exported functions), for a data space ending below 2^63."
  },
  {
   "property": "C11",
   "status": "proved",
   "theorems": [
    "Verif.C11_allot",
    "Verif.C11_comma",
    "Verif.C11_align",
    "Verif.C11_align16"
   ],
   "note": "Including the out-of-range and overflow-checked cases, and `align_16bytes`, which no word uses."
  },
  {
   "property": "C12",
   "status": "proved",
   "theorems": [
    "Verif.C12_aligned",
    "Verif.C12_aligned_word"
   ],
   "note": "8 and 16 byte functions and the words aligned, faligned."
  },
  {
   "property": "C13",
   "status": "proved",
   "theorems": [
    "Verif.C13_integer_grammar",
    "Verif.C13_interpret_integer",
    "Verif.C13_interpret_undefined"
   ],
   "note": "Grammar equivalence in any base, and the interpreter's treatment of unknown tokens (integer pushed; neither integer nor float: error -13)."
  },
  {
   "property": "C14",
   "status": "partial",
   "theorems": [
    "Verif.C14_refuted",
    "Verif.C14_refuted_interpret",
    "Verif.C14_digit_partial"
   ],
   "note": "False of the code: a bare prefix or sign such as `$` or `#-` is accepted as 0 (C14_refuted, C14_refuted_interpret). Proved positive part: these twelve texts are the only exceptions."
  },
  {
   "property": "C15",
   "status": "proved",
   "theorems": [
    "Verif.C15_round_trip",
    "Verif.C15_text"
   ],
   "note": "`.r` text is an integer token of the printed value in bases 2, 8, 10, 16, consists of printable characters, reads back, and is exactly the numeral (C15_text). Widths within 65 of the least cell excluded (see C16)."
  },
  {
   "property": "C16",
   "status": "partial",
   "theorems": [
    "Verif.C16_width_partial",
    "Verif.C16_width_refuted"
   ],
   "note": "Holds for every width at least -2^63+65. Below that the width subtraction overflows (C16_width_refuted)."
  },
  {
   "property": "C17",
   "status": "proved",
   "theorems": [
    "Verif.C17_float_grammar",
    "Verif.C17_interpret_float",
    "Verif.C17_not_integer"
   ],
   "note": "Grammar equivalence for any host float operations; interpreter effect; floats and integers are disjoint up to base 14."
  },
  {
   "property": "C18",
   "status": "proved",
   "theorems": [
    "Verif.C18_tokens",
    "Verif.C18_tokens_unique"
   ],
   "note": "Every text has one token sequence; repeated parse-word yields exactly it, then empty tokens."
  },
  {
   "property": "C19",
   "status": "proved",
   "theorems": [
    "Verif.C19_parse",
    "Verif.C19_paren",
    "Verif.C19_backslash",
    "Verif.C19_delimited_total",
    "Verif.C19_skip_partial",
    "Verif.C19_skip_refuted"
   ],
   "note": "parse, ( and \\ for every text and delimiter. _skip (only in the anchors) holds for ASCII delimiters and is refuted for others."
  },
  {
   "property": "C20",
   "status": "proved",
   "theorems": [
    "Verif.C20_find",
    "Verif.C20_unique",
    "Verif.C20_history",
    "Verif.C20_find_history",
    "Verif.C20_boot",
    "Verif.C20_table",
    "Verif.C20_frame",
    "Verif.C20_added",
    "Verif.C20_built"
   ],
   "note": "Lookup gives the newest visible word for every dictionary in order; the machine as built is in order, and every history of runs of words, hidings and markers keeps it in order. Words that write to memory at will or move here at will are required to leave names and marker data alone (otherwise they can corrupt the dictionary by design), and an error handler that runs must not itself define words."
  },
  {
   "property": "C21",
   "status": "proved",
   "theorems": [
    "Verif.C21_hash"
   ],
   "note": "For every pair of names of any length."
  },
  {
   "property": "C22",
   "status": "proved",
   "theorems": [
    "Verif.C22_marker"
   ],
   "note": "For every dictionary in order and every orderly history between creating and running the marker, as long as the marker word itself is not turned into something else by does>."
  },
  {
   "property": "C23",
   "status": "partial",
   "theorems": [
    "Verif.C23_colon",
    "Verif.C23_stays_hidden",
    "Verif.C23_stays_shown",
    "Verif.C23_semicolon",
    "Verif.C23_semicolon_fails",
    "Verif.C23_pending_refuted"
   ],
   "note": "Holds with the default handler when no error is pending (C23_colon), what is hidden stays hidden until ; and only : hides, and a successful ; shows the word and nothing else. Missing: with an error still pending, : leaves the unfinished word visible (C23_pending_refuted)."
  },
  {
   "property": "C24",
   "status": "proved",
   "theorems": [
    "Verif.C24_compile",
    "Verif.C24_run",
    "Verif.C24_simulate"
   ],
   "note": "Source text to compiled code (C24_compile), compiled code to behaviour for any behaviour of the words called (C24_simulate) and the two joined for colon definitions that call each other and built-in words (C24_run). The semantics of structured programs is Spec/Control.lean. Comments inside a definition, recurse and labels are not part of the structured programs; labels are C28."
  },
  {
   "property": "C25",
   "status": "proved",
   "theorems": [
    "Verif.C25_do",
    "Verif.C25_turns",
    "Verif.C25_none",
    "Verif.C25_index",
    "Verif.C25_count"
   ],
   "note": "C25_turns and C25_count give the number of rounds for all limits and starts, C25_do ties it to the compiled code."
  },
  {
   "property": "C26",
   "status": "proved",
   "theorems": [
    "Verif.C26_plus_loop",
    "Verif.C26_up",
    "Verif.C26_down"
   ],
   "note": "For all limits, indices and increments, on compiled code; C26_up and C26_down restate crossing for counting towards the limit."
  },
  {
   "property": "C27",
   "status": "proved",
   "theorems": [
    "Verif.C27_reject",
    "Verif.C27_accept",
    "Verif.C27_nested"
   ],
   "note": "A definition is accepted exactly when its items are those of a structured program with every LEAVE in a counted loop; otherwise evaluation stops with a control structure mismatch and no name changes meaning. Assumes an error handler that does nothing and at most 64 open structures."
  },
  {
   "property": "C28",
   "status": "proved",
   "theorems": [
    "Verif.C28_resolve",
    "Verif.C28_goto",
    "Verif.C28_call",
    "Verif.C28_label",
    "Verif.C28_bad",
    "Verif.C28_refuse",
    "Verif.C28_accept",
    "Verif.C28_run_goto",
    "Verif.C28_run_call"
   ],
   "note": "For every interleaving of goto, call and label (and anything else that leaves their code alone) after 0labels: each jump whose label is placed holds its address, the words never fault or hang, a definition with an unplaced label is refused by ;, one with all labels placed is accepted, and running a goto or call goes to the label."
  },
  {
   "property": "C29",
   "status": "proved",
   "theorems": [
    "Verif.C29_literals"
   ],
   "note": "Any sequence of integer, float and string literals compiled from source text gives back exactly those values (strings as address and length with the bytes in memory) when the definition is run. That typed numbers mean these values is C13/C17."
  },
  {
   "property": "C30",
   "status": "proved",
   "theorems": [
    "Verif.C30_abort",
    "Verif.C30_only",
    "Verif.C30_word"
   ],
   "note": "Raising an error is a single change of the machine (stacks of the running task emptied, code recorded, handler run); no execution leaves a new error pending in any other way."
  },
  {
   "property": "C31",
   "status": "proved",
   "theorems": [
    "Verif.C31_line",
    "Verif.C31_first",
    "Verif.C31_tokens"
   ],
   "note": "Evaluation of a line is equivalent to a chain of turns that stops at the first pending error; when tokens leave the input alone the tokens processed are a prefix of the tokens of the text, all of them if none fails."
  },
  {
   "property": "C32",
   "status": "partial",
   "theorems": [
    "Verif.C32_refuted",
    "Verif.C32_bye_partial",
    "Verif.C32_handler_partial"
   ],
   "note": "False of the code: with the default handler the inner loop goes on after an exception (C32_refuted). What holds: a handler that does bye ends the loop at once; a handler that is a definition runs next, and the rest of the interrupted definition only if it returns."
  },
  {
   "property": "C33",
   "status": "proved",
   "theorems": [
    "Verif.C33_compileOnly",
    "Verif.C33_interpret",
    "Verif.C33_immediate",
    "Verif.C33_compile"
   ],
   "note": "For every dictionary in order and every token: what evaluating a token that names a word does in each of the four cases."
  },
  {
   "property": "C34",
   "status": "proved",
   "theorems": [
    "Verif.C34_pause",
    "Verif.C34_asleep",
    "Verif.C34_fair"
   ],
   "note": "pause gives control to the next awake task in cyclic order and changes nothing else; a task kept awake gets control within five pauses whatever the others do; sleeping tasks never do"
  },
  {
   "property": "C35",
   "status": "partial",
   "theorems": [
    "Verif.C35_partial",
    "Verif.C35_refuted"
   ],
   "note": "False as stated: with no task awake pause never returns (C35_refuted). It returns whenever some task is awake"
  },
  {
   "property": "C36",
   "status": "proved",
   "theorems": [
    "Verif.C36_word",
    "Verif.C36_word_thread",
    "Verif.C36_pause",
    "Verif.C36_noPause",
    "Verif.C36_asleep"
   ],
   "note": "Per word (with what it calls assumed not to pause/activate), for pause itself, and over all executions of machines without pause, or without words that wake tasks."
  },
  {
   "property": "C37",
   "status": "proved",
   "theorems": [
    "Verif.C37_exclusive",
    "Verif.C37_marked",
    "Verif.C37_kept",
    "Verif.C37_takes",
    "Verif.C37_get",
    "Verif.C37_release",
    "Verif.C37_release_other"
   ],
   "note": "In every interleaving of `get` and `release` by the five tasks with anything else that leaves the code, the facility and the inside of these words alone, at most one task holds the facility, and the cell always shows which (C37_exclusive, C37_marked, C37_kept); a free facility is obtained by the task that asks for it (C37_takes, C37_get); `release` frees one's own facility and does nothing with that of another task (C37_release, C37_release_other). The compiled code of core.fth 84-86 is followed step by step."
  },
  {
   "property": "C38",
   "status": "proved",
   "theorems": [
    "Verif.C38_open",
    "Verif.C38_closed",
    "Verif.C38_until",
    "Verif.C38_source",
    "Verif.C38_who"
   ],
   "note": "Identifiers: freshness, permanence over every execution, failure on closed identifiers. Table sizes below 2^63 and address ranges that do not wrap around are assumed."
  },
  {
   "property": "C39",
   "status": "partial",
   "theorems": [
    "Verif.C39_partial",
    "Verif.C39_refuted"
   ],
   "note": "False of delete-file with a path of more than 256 bytes, which leaves two results (C39_refuted). Proved for everything else; address ranges that wrap around are excluded, there read-file and others panic or make an invalid slice."
  },
  {
   "property": "C40",
   "status": "proved",
   "theorems": [
    "Verif.C40_open",
    "Verif.C40_read"
   ],
   "note": "Invariant over all executions, started from any state satisfying it (the initial machine does)."
  },
  {
   "property": "C41",
   "status": "proved",
   "theorems": [
    "Verif.C41_concat",
    "Verif.C41_exists",
    "Verif.C41_unique",
    "Verif.C41_lines",
    "Verif.C41_invalid",
    "Verif.C41_word"
   ],
   "note": "Every file content that is UTF-8 text, hosts that do not fail. The read-ahead of BufReader is not modelled. Invalid UTF-8 is reported as an error (C41_invalid)."
  },
  {
   "property": "C42",
   "status": "proved",
   "theorems": [
    "Verif.C42_reach",
    "Verif.C42_word",
    "Verif.C42_token",
    "Verif.C42_input"
   ],
   "note": "Every execution, every error path; words are also shown to put buffers back before calling any other word (C42_word). The condition that the word compiled for s\" has ordinary compilation semantics holds of the standard machine (checked) and is preserved."
  },
  {
   "property": "C43",
   "status": "partial",
   "theorems": [
    "Verif.C43_partial",
    "Verif.C43_refuted"
   ],
   "note": "False in full: a line that ends in s\" inside a definition panics on the machine as built (C43_refuted). Proved (C43_partial): on any machine waiting for input, with anything on its stacks, every line of numbers, unknown tokens, compile-only words and about 120 safe words (stack, arithmetic, comparison, logic, return-stack, c@, floats, units, environment, error and some output words) is evaluated to the end or to a reported exception, and the machine waits again. Missing: defining, compiling, parsing, storing and file words, whose crashes depend on room and addresses; assumes a handler that does nothing."
  },
  {
   "property": "C44",
   "status": "partial",
   "theorems": [
    "Verif.C44_reset",
    "Verif.C44_source",
    "Verif.C44_recovers",
    "Verif.C44_nesting_partial",
    "Verif.C44_unknown_partial",
    "Verif.C44_refuted"
   ],
   "note": "False in full: a pending forward label survives both the abort and reset, so a later correct definition is refused (C44_refuted, a concrete session). Proved: reset and the new line leave every machine without pending labels ready for the next definition (C44_reset, C44_source), the next correct definition then compiles (C44_recovers), and definitions that fail through ill-nesting or an unknown word leave no pending label (C44_nesting_partial, C44_unknown_partial). Missing: other ways for a body to fail, e.g. errors raised by immediate words that the program defined itself."
  },
  {
   "property": "C45",
   "status": "proved",
   "theorems": [
    "Verif.C45_stack",
    "Verif.C45_twoFetch",
    "Verif.C45_twoStore",
    "Verif.C45_plusStore",
    "Verif.C45_onOff",
    "Verif.C45_twoComma",
    "Verif.C45_cComma",
    "Verif.C45_fill",
    "Verif.C45_count",
    "Verif.C45_append",
    "Verif.C45_space",
    "Verif.C45_spaces"
   ],
   "note": "Every word of core.fth 1-36 that works on the stacks, on memory or prints has its documented effect when its compiled code runs. The code is assumed to be in memory as in the example machine, an image of the machine after booting. Assumed: room on the stacks, and that stores do not hit the library code."
  },
  {
   "property": "C46",
   "status": "proved",
   "theorems": [
    "Verif.C46_save",
    "Verif.C46_restore",
    "Verif.C46_full",
    "Verif.C46_empty",
    "Verif.C46_nesting"
   ],
   "note": "Both words as compiled from core.fth. Nesting is proved for every tree of nested levels with arbitrary other activity in between that leaves the stack of sources and the code alone. The abort cases assume that the exception handler is a noop word, which is the default. Assumed: room on the stacks."
  },
  {
   "property": "C47",
   "status": "partial",
   "theorems": [
    "Verif.C47_distinct",
    "Verif.C47_standard",
    "Verif.C47_used",
    "Verif.C47_raised",
    "Verif.C47_described",
    "Verif.C47_refuted",
    "Verif.C47_descriptions_partial"
   ],
   "note": "Codes are distinct, those of Forth-2012 table 9.1 and named after it; every exception ever reported has such a code and a description, and each description says what the standard reserves the code for. Two constants (ABORT, ABORT_QUOTE) share a description (C47_refuted); all others have their own"
  },
  {
   "property": "C48",
   "status": "proved",
   "theorems": [
    "Verif.C48_findXt",
    "Verif.C48_increasing",
    "Verif.C48_sound",
    "Verif.C48_found",
    "Verif.C48_unknown",
    "Verif.C48_own",
    "Verif.C48_trace"
   ],
   "note": "For every word list with increasing entries, which every dictionary in order has; the text of backtraces for every return stack."
  },
  {
   "property": "C49",
   "status": "partial",
   "theorems": [
    "Verif.C49_partial",
    "Verif.C49_low",
    "Verif.C49_count",
    "Verif.C49_refuted"
   ],
   "note": "False in full: a token that does not fit is not refused with an exception, !token panics (C49_refuted, for every such address that does not wrap around). Proved: where the token fits with 7 bytes to spare it is stored as a counted string and nothing else is written (C49_partial; of a token of more than 255 bytes only the first 255 are stored), the bytes read back are determined by the memory (C49_count), and below the data space an exception is raised and nothing is written (C49_low)."
  },
  {
   "property": "C50",
   "status": "partial",
   "theorems": [
    "Verif.C50_partial",
    "Verif.C50_report",
    "Verif.C50_refuted",
    "Verif.C50_clear_refuted"
   ],
   "note": "False in full: a duration of 0 microseconds makes the minimum forget what was recorded before (C50_refuted), and 0xtime then keeps the old maximum (C50_clear_refuted). Proved for histories without durations of 0, with anything in between that does not forget words: minimum and maximum are the least and greatest recorded durations since the last 0xtime (C50_partial), and .xtime prints exactly these records, newest word first (C50_report)."
  },
  {
   "property": "C51",
   "status": "partial",
   "theorems": [
    "Verif.C51_runs",
    "Verif.C51_created",
    "Verif.C51_kept",
    "Verif.C51_twoConstant",
    "Verif.C51_twoConstant_word",
    "Verif.C51_field",
    "Verif.C51_field_word",
    "Verif.C51_defer",
    "Verif.C51_defer_word",
    "Verif.C51_refuted"
   ],
   "note": "Proved: a does> word pushes the address of its data and runs the code after does> (C51_runs), create makes a word that only pushes its address (C51_created), does> changes only the newest word so earlier ones keep their action (C51_kept), and end to end 2constant, +field and defer of core.fth define words doing what they should. False as stated: when the name is missing from the input create fails, the default handler lets the defining word continue, and does> then changes the previously created word (C51_refuted). The positive theorems assume the create step succeeded and that there is room in the dictionary."
  },
  {
   "property": "C52",
   "status": "proved",
   "theorems": [
    "Verif.C52_early_binding",
    "Verif.C52_words"
   ],
   "note": "Words before the last, their names and their code stay the same over every orderly history of programs that do not write to memory below here themselves."
  },
  {
   "property": "C53",
   "status": "proved",
   "theorems": [
    "Verif.C53_footprint",
    "Verif.C53_footprint_quiet",
    "Verif.C53_footprint_default",
    "Verif.C53_footprint_calls"
   ],
   "note": "No word makes a change outside its footprint, apart from what the error handler does when the word raises an error; words that run other words are covered by C53_footprint_calls."
  },
  {
   "property": "C54",
   "status": "proved",
   "theorems": [
    "Verif.C54_confined",
    "Verif.C54_handler"
   ],
   "note": "Capability confinement over all executions, with the handler as an instance."
  },
  {
   "property": "C55",
   "status": "proved",
   "theorems": [
    "Verif.C55_files",
    "Verif.C55_readBack",
    "Verif.C55_roundTrip"
   ],
   "note": "Exact specification of all ten file words against an abstract view of the file system; the host file system itself is a model (regular files, writes that fail write nothing)."
  },
  {
   "property": "C56",
   "status": "proved",
   "theorems": [
    "Verif.C56_words",
    "Verif.C56_round_trip"
   ],
   "note": "Float arithmetic is a parameter of the model, so the theorem fixes operands, order and destination, not rounding."
  },
  {
   "property": "C57",
   "status": "proved",
   "theorems": [
    "Verif.C57_grows",
    "Verif.C57_order",
    "Verif.C57_emit",
    "Verif.C57_type",
    "Verif.C57_dot_paren",
    "Verif.C57_flush",
    "Verif.C57_flush_err",
    "Verif.C57_dot_s",
    "Verif.C57_words"
   ],
   "note": "Clients may flush at any time. type and words assume their operands (text, names) lie in the data space; emit is stated for codes below 128."
  },
  {
   "property": "C58",
   "status": "proved",
   "theorems": [
    "Verif.C58_reports",
    "Verif.C58_addresses",
    "Verif.C58_settings",
    "Verif.C58_takers",
    "Verif.C58_texts",
    "Verif.C58_pi",
    "Verif.C58_clear",
    "Verif.C58_input",
    "Verif.C58_word",
    "Verif.C58_fdot",
    "Verif.C58_fields",
    "Verif.C58_no_fields",
    "Verif.C58_source",
    "Verif.C58_no_source",
    "Verif.C58_source_texts",
    "Verif.C58_no_source_texts",
    "Verif.C58_awake",
    "Verif.C58_no_task",
    "Verif.C58_reset",
    "Verif.C58_activate"
   ],
   "note": ""
  },
  {
   "property": "C59",
   "status": "partial",
   "theorems": [
    "Verif.C59_tick",
    "Verif.C59_bracketTick",
    "Verif.C59_postpone",
    "Verif.C59_unknown",
    "Verif.C59_missing",
    "Verif.C59_char",
    "Verif.C59_bracketChar",
    "Verif.C59_comma",
    "Verif.C59_postponed_partial",
    "Verif.C59_immediate",
    "Verif.C59_compileOnly",
    "Verif.C59_recurse",
    "Verif.C59_postponed_immediate",
    "Verif.C59_postponed_refuted"
   ],
   "note": "The claim that the word postpone leaves behind does what naming the word does is false for immediate words (C59_postponed_refuted); C59_postponed_partial proves it for all others compiled in the usual way, and everything else is proved in full."
  },
  {
   "property": "C60",
   "status": "proved",
   "theorems": [
    "Verif.C60_create",
    "Verif.C60_constant",
    "Verif.C60_constant_word",
    "Verif.C60_create_word",
    "Verif.C60_fconstant",
    "Verif.C60_fconstant_word",
    "Verif.C60_kept",
    "Verif.C60_unnamed"
   ],
   "note": ""
  },
  {
   "property": "C61",
   "status": "partial",
   "theorems": [
    "Verif.C61_line",
    "Verif.C61_eof",
    "Verif.C61_failed",
    "Verif.C61_waiting",
    "Verif.C61_total",
    "Verif.C61_typing",
    "Verif.C61_typed",
    "Verif.C61_backspace",
    "Verif.C61_move",
    "Verif.C61_recall",
    "Verif.C61_up_down",
    "Verif.C61_older_partial",
    "Verif.C61_count",
    "Verif.C61_older_refuted",
    "Verif.C61_new",
    "Verif.C61_new_count",
    "Verif.C61_saved",
    "Verif.C61_kept",
    "Verif.C61_quit",
    "Verif.C61_quit_refuted"
   ],
   "note": "Whatever keys come, the editor is exactly a line with a cursor between characters and a history around it; it never panics; typed text is returned and kept; the history file gives back the last 32 lines. Refuted in full: an older line that was changed and then left with up or down stays changed (C61_older_refuted); Ctrl-D keeps only 31 lines (C61_quit, C61_quit_refuted)."
  },
  {
   "property": "C62",
   "status": "proved",
   "theorems": [
    "Verif.C62_join",
    "Verif.C62_tokens",
    "Verif.C62_args",
    "Verif.C62_typed",
    "Verif.C62_end"
   ],
   "note": "Arguments and lines as input texts, for all texts."
  },
  {
   "property": "C63",
   "status": "proved",
   "theorems": [
    "Verif.C63_word",
    "Verif.C63_run",
    "Verif.C63_line",
    "Verif.C63_outcome",
    "Verif.C63_word_outcome",
    "Verif.C63_processed",
    "Verif.C63_turns"
   ],
   "note": "The depth and the fuel of the model are bounds only: a larger one never changes a result, so results do not depend on them."
  },
  {
   "property": "C64",
   "status": "proved",
   "theorems": [
    "Verif.C64_forth",
    "Verif.C64_rust",
    "Verif.C64_agree",
    "Verif.C64_word",
    "Verif.C64_effect",
    "Verif.C64_compile",
    "Verif.C64_integer",
    "Verif.C64_exception_differs"
   ],
   "note": "Both interpreters are shown to follow the same sequence of tokens; the C64 token theorems say what single tokens do. C64_exception_differs shows why exceptions are excluded."
  },
  {
   "property": "C65",
   "status": "partial",
   "theorems": [
    "Verif.C65_load",
    "Verif.C65_text",
    "Verif.C65_included_partial",
    "Verif.C65_back",
    "Verif.C65_missing",
    "Verif.C65_empty_file",
    "Verif.C65_numbers",
    "Verif.C65_clean_refuted"
   ],
   "note": "The full statement, that nothing else is left behind, is refuted (C65_clean_refuted, with C65_empty_file telling exactly what is left). Proved: load-source-file evaluates line after line (C65_load, C65_text), included loads the file and comes back to the source (C65_included_partial, C65_back), a file of numbers (C65_numbers), a missing file (C65_missing)."
  },
  {
   "property": "C66",
   "status": "partial",
   "theorems": [
    "Verif.C66_error",
    "Verif.C66_line",
    "Verif.C66_bad_line",
    "Verif.C66_session",
    "Verif.C66_kept",
    "Verif.C66_unknown",
    "Verif.C66_compile_only",
    "Verif.C66_word",
    "Verif.C66_abort",
    "Verif.C66_typo",
    "Verif.C66_saved",
    "Verif.C66_unwound_refuted"
   ],
   "note": "Proved in full for the session: C66_error (any exception leads through (abort) to the prompt, with the exact message), C66_line, C66_bad_line, C66_session (any sequence of good and bad lines), C66_kept, and which tokens raise what (C66_unknown, C66_compile_only, C66_word, C66_abort, C66_typo). Refuted of the code: that an error in an included file closes the file and forgets the saved source (C66_unwound_refuted, C66_saved). Effects of the words named in a line are hypotheses."
  },
  {
   "property": "C67",
   "status": "proved",
   "theorems": [
    "Verif.C67_new"
   ],
   "note": "For every aligned place and every sufficient size of the memory. The outline of the text is computed by the kernel; that the machine follows it is proved for all machines."
  },
  {
   "property": "C68",
   "status": "proved",
   "theorems": [
    "Verif.C68_start"
   ],
   "note": "For every aligned place and every sufficient size of the memory. Uses that a marker executed later restores the dictionary and memory it was made with."
  },
  {
   "property": "C69",
   "status": "proved",
   "theorems": [
    "Verif.C69_program",
    "Verif.C69_conversation",
    "Verif.C69_receive",
    "Verif.C69_end",
    "Verif.C69_find",
    "Verif.C69_args",
    "Verif.C69_bad_args",
    "Verif.C69_run"
   ],
   "note": "The lines are those of a calculator: integers, stack words, library words on the data stack, divisions, `.`, and three kinds of errors and abort. There are always four free places on the data stack. What is in a backtrace is not specified here (see C66). Options -h and -v are not modelled."
  },
  {
   "property": "C70",
   "status": "proved",
   "theorems": [
    "Verif.C70_program",
    "Verif.C70_conversation"
   ],
   "note": "A name may be defined again, only the words a definition is written with (such as : ; if do) may not. Bodies have no case, strings, floats or >r; calls of defined words and counted loops take at most 50 places on the return stack, structures are nested at most 64 deep. What a token of a body does is as in C69. Of errors inside bodies, division by zero and abort are covered."
  }
 ]
}