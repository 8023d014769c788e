# A machine-checked model of rtforth in Lean 4

`/repo` (chengchangwu/rtforth, a Forth virtual machine in Rust) is read as text.
It is not built or run here. The model is in `lean/Verif/`, in four layers:

| directory | content |
|---|---|
| `Verif/Model/` | the code, function by function, each definition citing file and lines |
| `Verif/Spec/` | small specifications written without reference to the model's helpers |
| `Verif/Lemmas/` | helper lemmas |
| `Verif/Props/` | one theorem group per property `Cnn`, with non-vacuity examples beside it |

## How the code is modelled

* **Machine state.** One record `VM` (`src/mock_vm.rs`, the same fields as
  `examples/vm.rs` and `rtf/src/main.rs`): five tasks, each with its four ring-buffer
  stacks, inner-interpreter state, input buffer, files, sources and lines; plus the shared
  data space, word list, exception handler, last error, token / output / hold buffers,
  labels and the two label bit sets.
* **Cells** are `BitVec 64`. `isize`/`usize` are 64-bit, little endian. `f64` is a 64-bit
  pattern; float arithmetic is an arbitrary parameter (`FloatOps`), so no theorem depends on
  IEEE rounding.
* **Words** carry an enumeration value `Prim` in place of the Rust function pointer; `action`
  maps it to the modelled function.
* **Effects.** A Rust method on `&mut self` is `VM → Except Fault (α × VM)`. `Fault` is one of
  `panic` (index out of range, failed `expect`, arithmetic overflow in checked builds),
  `ub` (raw memory access outside the data space), `hang` (a native loop that never ends),
  `nativeOverflow` (native recursion deeper than the parameter `depth`), `outOfFuel` (the
  iteration bound given to a loop that may run forever is used up; theorems quantify over the bound).
* **Arithmetic that Rust leaves to the build profile** (`+`, `-`, `*` without `wrapping_`) takes
  a parameter `overflowChecks`: panic when on, wrap when off. Theorems quantify over it
  unless they name one.
* **Function-pointer recursion** (`execute_word` → action → `abort_with` → `execute_word`) is
  open recursion closed by fuel `depth`; running out is `nativeOverflow`. A larger depth or more fuel never
  changes a result (C63). The inner interpreter loop
  `run` is iteration of a one-step function; theorems speak of any number of steps.
* **Input text** is a list of Unicode characters; positions are byte offsets as in Rust, and
  slicing at a non-boundary is a panic. Memory is a map from address to byte, with a
  start address, capacity and length.
* **Host files** are modelled as a directory of byte strings with handles; every host call can
  be made to fail by a parameter. All files are regular files, a write that fails writes nothing, and
  the read-ahead of `BufReader` is not modelled.
* **Executions.** `Reach` (`Spec/Reach.lean`) is any sequence of calls of the functions a client can
  call: executing words, single steps, runs, tokens, lines, scripts, resets, raising errors, flushing,
  while the clock changes at will. Invariants are proved over it.
* **The library.** `core.fth` is in the model as text (`Model/CoreFth.lean`). The theorems about its words (C37, C45,
  C46, C51, C64, C65, C66) take their code in memory as a hypothesis. C67 proves that the machine as `VM::new` makes it
  meets that hypothesis, at every address: an *outline* of the machine (`Lemmas/Outline.lean`: names, word numbers,
  offsets, programs) is carried through the text, and the machine is shown to follow the outline token by token
  (`Lemmas/Stand*.lean`); the outline itself is computed by the kernel. The examples beside the other theorems use a dump
  of memory (`Lemmas/Image.lean`) that was obtained by evaluating the model. For the examples of C66 the code of `quit` and
  `(abort)` (`Lemmas/ReplImage.lean`) was assembled by hand; C68 proves that loading rtf/rtf.fth gives that code.
* **The program `rtf`.** Its line editor (`rtf/src/term.rs`) takes a list of keyboard events and yields what is
  drawn; the width of characters is a parameter. Of `rtf/src/main.rs`, the treatment of arguments, the making of the
  machine (`Model/Rtf.lean`, with the text of `rtf/rtf.fth`), `repl`, `receive` and `main` (`Model/Main.lean`, without the
  options -h and -v) are modelled; what the line editor answers to the `n`-th
  call is a parameter (`Cfg.answers`).
* **Not modelled.** The option parser, the escape sequences sent to
  the terminal, the place of the history file, the examples and benches, real I/O devices, wall-clock time (a field
  set from outside), float formatting, misaligned-access traps (the platform is
  assumed to allow unaligned cells, as x86-64 does), allocation failure of host vectors.

## Trusted base

* Lean 4.33.0's kernel, and the standard axioms `propext`, `Classical.choice` and `Quot.sound`.
  Of the theorems in `MANIFEST.json`, `C03_check_raises` and `C47_distinct` depend on no axiom;
  `C01_empty`, `C16_width_refuted`, `C20_unique`, `C38_who`, `C40_read`, `C41_concat`, `C61_typing`, `C61_backspace` and `C62_join` on
  `propext` only;
  `C01_stack_is_lifo`, `C18_tokens`, `C18_tokens_unique`, `C19_delimited_total`, `C25_turns`, `C27_nested`, `C30_abort`, `C44_reset`, `C44_source`, `C47_used`,
  `C47_refuted`, `C47_descriptions_partial`, `C48_findXt`, `C48_increasing`, `C48_sound`, `C48_found`, `C48_unknown`, `C49_low`, `C49_count`,
  `C49_refuted`, `C55_readBack`, `C61_line`, `C61_eof`, `C61_failed`, `C61_waiting`, `C61_total`,
  `C61_typed`, `C61_move`, `C61_up_down`, `C61_older_partial`, `C61_count`, `C61_older_refuted`,
  `C62_tokens` and `C62_args` on `propext` and `Quot.sound`; all others on the three.
  No axiom is added; no `sorry`, `admit`, `native_decide` or `bv_decide` is used.
* The faithfulness of the model to the Rust text, which was read and not run. As evidence, the 116 unit
  tests in the Rust sources were looked at: 59 can be translated to the model. 58 of them give the
  expected result when the model is evaluated; the one that differs (`core::test_pick`) differs by the
  way it was translated.
* The assumptions above on platform and host.

## Plan per property

| id | modelled | proof |
|---|---|---|
| C01 | `Stack` ring buffer | refinement to `List`, induction over operation sequences |
| C02, C03 | `underflow`, `overflow`, `check_stacks` | invariant on guard slots over operation sequences |
| C04, C06 | stack/arith/compare words | effect table as specification, one refinement theorem over the table |
| C05 | `/ mod /mod` | signed division laws on `BitVec` via `Int.tdiv` |
| C07, C08 | byte memory, guarded words | read-over-write lemmas; fault freedom; the unguarded overflow is refuted with a witness |
| C09 | `p_move` | induction on the copy loop, both directions |
| C10 | every primitive | invariant over all primitives, native recursion and all steps |
| C11, C12 | `allot , align aligned` | direct, with `omega` |
| C13, C14, C15, C16 | `parser.rs`, `evaluate_integer`, `.r` | grammar as separate spec; place-value induction; round trip and exact text; C14 refuted with witness |
| C17 | `evaluate_float` | grammar equivalence for arbitrary float operations |
| C18, C19 | `parse_word`, `parse`, comments | list-splitting specification, induction on the text |
| C20, C21, C22, C23, C52 | `Wordlist`, `find`, `define`, `marker` | chain invariant; newest-match specification |
| C24, C25, C26, C29 | compiler words and inner interpreter | code-layout predicate from compilation; forward simulation from a structured big-step semantics |
| C27 | control stack | equivalence with a nesting grammar |
| C28 | labels | chain invariant through memory |
| C30–C33 | `abort_with`, `evaluate_input`, token words | direct and by induction on tokens; C32 refuted with witness |
| C34, C35, C36, C37 | tasks | cyclic-order lemmas; frame relation over all primitives; interleaving invariant |
| C38, C39 | file table | invariant over operation sequences; C39 refuted for `delete-file` |
| C40, C42 | sources and buffers | invariants over all primitives |
| C41 | `load_line` | induction on content |
| C43, C44 | parsing and labels | refuted with witness, partial positive theorem |
| C45, C46 | `core.fth` words | via C24's simulation |
| C47 | exception table | exhaustive over the finite table |
| C48 | `find_xt`, `.backtrace` | binary search correctness; the printed text is read off the return stack with an independent notion of the word an address belongs to |
| C49, C50, C51 | `!token`, statistics, `does>` | direct |
| C53, C54 | every primitive | a table of kinds of change per word, checked against every word; invariants over chains of changes |
| C55 | file words | exact specification over an abstract directory and file table |
| C56 | return-stack, float and unit words | effect table over three stacks |
| C57 | output words, streams | chains of changes, prefix order |
| C58 | words that report, set and print the state | tables of exact effects |
| C59 | words that quote names and compile | exact effect; refutation for immediate words |
| C60 | constants and created words | exact effect, then invariance over histories |
| C61 | line editor | refinement to a text with a cursor and a history around it; round trip of the history file |
| C62 | arguments, typed lines | tokens of joined texts |
| C63 | `execute_word`, `run`, `evaluate_input` | monotonicity in depth and fuel, function by function |
| C64 | `evaluate-input` of core.fth, `evaluate_input` | both follow the same sequence of tokens; induction over it |
| C65 | `load-source-file`, `included`, `load_line`, `open-source`, `close-source` | exact effect of the compiled code, induction over lines; refutation of a clean return |
| C66 | `quit` and `(abort)` of rtf/rtf.fth, `abort_with`, `reset` | exact effect of the compiled code up to a raised error; induction over the lines of a session; refutation that an error closes what is open |
| C67 | `VM::new`, the text of core.fth | refinement of the machine by an outline of it that the kernel can compute; lemmas for every word that is interpreted while loading |
| C68 | `VM::new` of rtf/src/main.rs, the texts of core.fth and rtf/rtf.fth | as C67; the outline goes back when a marker is executed |
| C69 | `main` and `receive` of rtf/src/main.rs, `cold`, `quit` and `(abort)` of rtf/rtf.fth | C68, then exact effect of `cold`; a dialogue is specified as an inductive relation (`Spec/Dialogue.lean`) and followed line by line with C66 and the effects of C03, C04, C05, C45 and C64 |
| C70 | `:` and `;`, the words for structures, `nest` and `exit` of src/core.rs, in a dialogue as in C69 | bodies are a small language (`Recipe` in `Spec/Teaching.lean`) with its own evaluation relation `Runs`; the code generation of C24 turns a body into code, its structured execution runs it, and an invariant (`Kit` in `Lemmas/Calculator.lean`) carries all words defined so far from line to line; C69 is the case without definitions |

Every property can be expressed in the model; those that the code does not have are stated
in full, refuted with a concrete witness, and accompanied by the strongest positive part found.

## What the hypotheses of the theorems leave out

* C10, C20, C22 and others: the data space ends below 2^63 (`InSpace`).
* C15, C16: widths within 65 of the least cell are excluded; there C16 is refuted.
* C20, C22, C52: histories are *orderly*: programs do not overwrite names, links or marker data.
* C24: comments `( … )` and `recurse` inside a definition are not part of the statement language; a
  program that loops forever without calling anything has no outcome in the big-step semantics; stores
  must stay outside the code.
* C27, C28 (refusal), C43, C44, C46 (aborts): the handler is a word that does nothing, as on the machine
  as built. C27: at most 64 nested structures.
* C28: at the level of the compiling words, not of source text.
* C67, C68: the memory begins at a multiple of 16 other than 0, ends below 2^63 and has at least 12288 bytes; names and code of
  words that no other theorem is about are loaded but not mentioned in the conclusion.
* C69: lines of calculator tokens only (`Calculates` and `Trouble` in `Spec/Dialogue.lean`); when a token is read there are
  four free places on the data stack; fields of `.r` have a width of at least -2^62; the text of backtraces is not specified.
* C70: as C69. A new name must not be one of the words a definition is written with (`grammar` in `Spec/Teaching.lean`). Bodies have no
  `case`, strings, floats or `>r`; `unloop` is only used before `exit`; calls and counted loops take at most 50 places on the return stack; the errors inside the body of a word that are covered are division by zero and `abort` (`Refuses` in
  `Spec/Teaching.lean`); an execution that does not end is not covered.
* C31: `C31_tokens` assumes that tokens leave the input alone (no `parse`, comments, `s"`).
* C32: the positive part covers errors raised as the last act of a word.
* C37: tasks do not tamper with a task inside `get` or `release`, with the facility cell, or the code.
* C42: no word whose compilation semantics were set to those of `s"` other than `s"` itself.
* C43: the positive part covers the words listed in `Spec/Safe.lean`.
* C44: the positive part covers ill-nested definitions and unknown words.
* C45: room on the stacks; stores outside the library code.
* C50: durations are not 0.
* C51: a name follows in the input, `create` succeeds and there is room; deferred words are colon,
  create, constant, does>, fconstant words or `noop`.
* C66: the effects of the words named in a line are hypotheses (as in C64), and so is that of `receive`; the base is one that
  numbers can be printed in; headers are in rising order; there are two cells free on the return stack when an error is raised.
* C61: the history file holds what was written to it; lines with a line feed, or a carriage return at the end,
  are not given back as they were.
* C55: address ranges do not wrap around; fewer than 2^63 files and 250 stack items.

## Findings

Defects and surprises of the code that the proofs brought to light. Those with a theorem are proved
of the model; the others are readings of the code noted while modelling.

### Properties that fail

| property | witness | what happens |
|---|---|---|
| C08 | `C08_fetch_wraps`, `C08_ffetch_past_end` | `@` and `!` compute `a + 8` with overflow: near 2^64 the check passes and memory outside the space is read; `f@` and `f!` check only the first byte |
| C14 | `C14_refuted` | `$`, `%`, `#-`, `+` … are accepted as the number 0 |
| C16 | `C16_width_refuted` | `.r` with a width near the least cell panics, or writes 2^63 - 1 blanks |
| C19 | `C19_skip_refuted` | `_skip` counts characters, not bytes; with a non-ASCII delimiter a later `parse` panics |
| C23 | `C23_pending_refuted` | `:` with an old error pending defines the word but neither hides it nor starts compiling |
| C32 | `C32_refuted` | after an exception the inner loop goes on in the definition that failed |
| C35 | `C35_refuted` | `pause` with no task awake never returns |
| C39 | `C39_refuted` | `delete-file` with more than 256 bytes of path leaves two results |
| C43 | `C43_refuted` | a line that ends in `s"` panics |
| C44 | `C44_refuted` | pending forward labels survive abort and reset; every later `;` is refused until `0labels` |
| C47 | `C47_refuted` | `ABORT` and `ABORT"` share a description |
| C49 | `C49_refuted` | `!token` panics when the token does not fit |
| C50 | `C50_refuted`, `C50_clear_refuted` | a duration of 0 µs erases the recorded minimum; `0xtime` then keeps the old maximum |
| C51 | `C51_refuted` | `_does` changes the newest word even if the `create` before it failed: an older word silently becomes a does> word |
| C59 | `C59_postponed_refuted` | `postpone` of an immediate word compiles it instead of running it |
| C61 | `C61_older_refuted` | a line of the history that is changed and then left with up or down stays changed, though it was never entered so |
| C61 | `C61_quit_refuted` | Ctrl-D leaves the empty prompt line in the history, so only 31 of the 32 lines are saved |

### Other observations

* Stacks: rings of 256 slots. `dup`, `over`, `pick`, `swap`, `r@` with too few items read guard
  values, and the underflow may go unnoticed. `(`, `\` and `.(` push the delimiter, so with 64 items on
  the stack a comment reports an overflow.
* Errors: `abort_with` empties the data, float and control stacks but not the return stack, keeps
  compilation state and instruction pointer. An invalid handler token recurses natively without end.
  Tokens that are found do not clear a pending error, so a line evaluated with one pending runs one
  token and stops. `reset` resets neither the instruction pointer nor the labels.
* Definitions: `postpone` of an immediate word compiles the word instead of running it (`_postpone` does not
  look at the immediate flag); `[char]` with an error pending leaves the character on the stack. `constant` with an
  error pending defines a word without a value. `marker` and `fconstant` go on when defining fails. Word 0
  (`noop`) can never be found by name. `_does` compiles a cell nobody reads. After a failed definition a lone `;` completes it. `WHILE`
  does not check for a `BEGIN`. `call` compiles its first cell before checking the label number. `ENDCASE`
  keeps looping after an underflow.
* Input: `parse` without input buffer (background tasks) panics. An unterminated `s"` leaves the input
  position one past the end; a following `parse` panics. Tokens of more than 255 bytes are truncated by `!token`.
  `load-line` on invalid UTF-8 has already advanced the position when it reports the error.
* Memory: `@ ! c! move` exclude the first byte of the space, `c@` does not. `allot` and `align` out of range
  are silently ignored; `allot` can move `here` below the system variables. Compiling words panic when the
  space is full. `type` and `open-source` read memory unguarded. `align` does not clear the gap.
* Numbers: `2/` truncates toward zero. From base 15 on `1E2` is an integer. `within` compares signed, half open.
* Unchecked indices: `_postpone`, `(xtime)` and `.backtrace` index the word list unguarded; `(xtime)` subtracts
  plainly and panics or wraps when the start is in the future; `i` and `j` compute with plain `u8`
  subtraction; `unmark` of a marker with number 0 gives a last word of 2^64 - 1.
* Files: `read-file` with wrapping ranges passes its check in release builds; `write-file` reports an
  I/O error for bad addresses; `open-source` takes the file out of the file table.
* Tasks: `activate` of the running task resets the return stack it is about to pop. With a handler that pauses,
  code after an abort continues in another task.
* `evaluate-input` of core.fth goes on with the next token after an exception whose handler comes back, and a number
  after it clears the error; `evaluate_input` of Rust stops (`C64_exception_differs`).
* `included` of core.fth says `postpone [`. As `[` is immediate, this compiles code that appends a call of `[` to memory when
  `included` runs. So every inclusion leaves one stray cell in the dictionary (in the middle of a definition, if one is being
  compiled) and does not leave compilation (`C65_clean_refuted`, `C65_empty_file`). `load-line#` is neither saved nor restored, so
  after a nested file the line numbers in messages are wrong.
* `(abort)` of rtf/rtf.fth neither closes the sources being included nor empties `src-stack`. So each error in a file leaves a file open
  and an entry in use (`C66_unwound_refuted`, `C66_saved`); after 16 such errors `included` does nothing but abort (`C46_full`).
* After `save-source` aborts at 16 entries its code continues (default handler).

## Testing the theorems

`seeded/LOG.jsonl` records edits of the model that imitate realistic bugs, with the theorems that failed
to prove; where an edit survived, the theorem that was tightened is named.
