import Verif.Model.Rtf
import Verif.Spec.Core
import Verif.Spec.Session

/-!
# The program rtf

rtf/src/main.rs makes a machine, loads core.fth and rtf/rtf.fth and executes `cold`.
-/

namespace Verif.Spec
open Verif

/-- `nod` and `halt` (core.fth 80-81). -/
def taskCode (ix : String → Nat) : List (String × Stmt) := [
  ("nod", code ix [Stmt.againLoop (code ix ["pause"])]),
  ("halt", code ix ["activate", "nod"])]

/-- The code of `cold` (rtf/rtf.fth 22-25). -/
def coldBody (ix : String → Nat) : Stmt :=
  code ix [2, "halt", 3, "halt", 4, "halt", 5, "halt", Stmt.lit (BitVec.ofNat 64 (ix "(abort)")), "handler!", "evaluate-input", "quit"]

/-- `cold` (rtf/rtf.fth 22-25). -/
def coldCode (ix : String → Nat) : List (String × Stmt) := [("cold", coldBody ix)]

/-- The names of the words that the theorems about rtf speak of, apart from those of core.fth. -/
def rtfNames : List String := replUses ++ ["activate", "pause", "handler!", "receive", "nod", "halt", "quit", "(abort)", "cold"]

/-- The built-in words. -/
def bootWords : List String := [
  "noop", "exit", "lit", "flit", "_s\"", "branch", "0branch", "_do", "_qdo", "_loop", "_+loop", "unloop", "leave", "i", "j",
  ">r", "r>", "r@", "2>r", "2r>", "2r@", "compile,", "_postpone", "_does", "execute", "dup", "drop", "swap", "over", "nip",
  "depth", "?stacks", "0<", "=", "<", "invert", "and", "or", "xor", "lshift", "rshift", "1+", "1-", "-", "+", "*", "/mod",
  "cell+", "cells", "@", "!", "char+", "here", "allot", "aligned", "align", "c@", "c!", "move", "base", "immediate",
  "compile-only", "(", "\\", "[", "[']", "[char]", ";", "if", "else", "then", "case", "of", "endof", "endcase", "begin",
  "while", "repeat", "until", "again", "0labels", "label", "goto", "call", "recurse", "do", "?do", "loop", "+loop", "postpone",
  "does>", "true", "false", "not", "0=", "0>", "0<>", ">", "<>", "within", "rot", "-rot", "pick", "2dup", "2drop", "2swap",
  "2over", "/", "mod", "abs", "negate", "parse-word", "char", "_skip", "parse", ":", "constant", "create", "'", ">body",
  ">name", "]", ",", "marker", "handler!", "error", ".error", "0error", "0stacks", "reset", "abort", "compiling?",
  "token-empty?", ".token", "!token", "compile-token", "interpret-token", "source-id", "source-id!", "source-idx",
  "source-idx!", "bye", "pause", "activate", "me", "suspend", "resume", "emit", "type", "s\"", ".\"", ".(", ".r", "f.r",
  "flush-output", "words", ".word", ".backtrace", ".s", ".memory", "(xtime)", ".xtime", "0xtime", ".input", "flush-to-err",
  "max-n", "max-u", "mtime", "utime", "fconstant", "float+", "floats", "faligned", "falign", "pi", "f!", "f@", "fabs", "fsin",
  "fcos", "ftan", "fsincos", "fasin", "facos", "fatan", "fatan2", "fsqrt", "fdrop", "fdup", "fswap", "fnip", "fover", "frot",
  "fpick", "s>f", "f>s", "f+", "f-", "f*", "f/", "f**", "f~", "f0<", "f0=", "f<", "fmin", "fmax", "floor", "fround", "fceil",
  "fnegate", "meter", "mm", "um", "deg", "rad", "hr", "minute", "sec", "msec", "usec", "mm/min", "mm/sec", "um/msec", "rpm",
  "hz", "1/sec", "file-size", "file-position", "close-file", "create-file", "delete-file", "open-file", "read-file",
  "write-file", "resize-file", "reposition-file", "open-source", "close-source", ".source-path", "load-line", ".source-line"]

/-- The words that core.fth defines. -/
def coreWords : List String := [
  "2*", "2/", "bl", "space", "spaces", ".", "f.", "?", "decimal", "hex", "h.", "h.r", "<=", ">=", "f>", "?dup", "tuck", "cr",
  "f,", "2@", "2!", "+!", "2,", "max", "min", "chars", "c,", "fill", "count", "/string", "append", "variable", "on", "off",
  "literal", "2literal", "fliteral", "2constant", "2variable", "fvariable", "+field", "defer", "defer@", "defer!", "#tib",
  "tib", "source", ">in", "pad", "bounds", ">char", "_type", "_dump", "dump", "word", "xtime", "operator", "nod", "halt",
  "stop", "get", "release", "ms", "r/o", "w/o", "r/w", "bin", "_save-input", "_restore-input", "save-input", "restore-input",
  "src-stack", "save-source", "restore-source", "evaluate-input", "load-line#", "load-source-file", "included", "include",
  "\\\\"]

/-- All words of the program rtf when it starts. -/
def rtfWords : List String :=
  bootWords ++ ["receive"] ++ coreWords ++ ["quit", "(abort)", "cold", "-work"]

/-- The words that are for compiling only. -/
def compileOnlyWords : List String := [
  "exit", "lit", "flit", "_s\"", "branch", "0branch", "_do", "_qdo", "_loop", "_+loop", "unloop", "leave", "i", "j", ">r",
  "r>", "r@", "2>r", "2r>", "2r@", "compile,", "_postpone", "_does", "[']", "[char]", ";", "if", "else", "then", "case", "of",
  "endof", "endcase", "begin", "while", "repeat", "until", "again", "label", "goto", "call", "recurse", "do", "?do", "loop",
  "+loop", "postpone", "does>", "pause", "activate", "s\"", ".\"", "literal", "2literal", "fliteral"]

/-- The words on the data stack that core.fth or the machine has, and other words for which rtf is used as a calculator. -/
def calcWords : List String := effects.map (·.1) ++ libraryEffects.map (·.1) ++ ["/", "mod", ".", "abort", "emit", ".r", "space", "spaces", "cr"]

/-- `.` (core.fth 6). -/
def dotCode (ix : String → Nat) : List (String × Stmt) := [(".", code ix [0, ".r", "space"])]

/-- The words that end definitions and give them their structure. -/
def structureWords : List (String × CorePrim) := [
  (";", .semicolon), ("if", .immIf), ("else", .immElse), ("then", .immThen), ("begin", .immBegin), ("until", .immUntil),
  ("again", .immAgain), ("while", .immWhile), ("repeat", .immRepeat), ("do", .immDo), ("?do", .immQdo), ("loop", .immLoop), ("+loop", .immPlusLoop),
  ("recurse", .immRecurse)]

/-- The words for leaving definitions and loops, and the indices of loops. -/
def loopWords : List String := ["exit", "leave", "unloop", "i", "j"]

/-- What is needed for definitions: there is memory, the compiler's words are in order, and the words of a calculator can be
compiled. -/
structure Workshop (b : Nat) (ix : String → Nat) (s : VM) : Prop where
  lower : b + 11496 ≤ s.ds.here
  upper : s.ds.here ≤ b + 12288
  count : s.wl.words.length ≤ 1000
  compiler : Compiler s.refs (ix "leave") s.wl
  float : s.refs.flit ≠ 0
  calls : ∀ n, n ∈ calcWords → ∃ w, s.wl.words[ix n]? = some w ∧ w.compSem = .word ∧ w.isImmediate = false
  structures : ∀ e, e ∈ structureWords → ∃ i w, Newest s (ascii e.1) (some i) ∧ s.wl.words[i]? = some w ∧ w.isImmediate = true ∧
    w.action = .core e.2
  exit : ix "exit" = s.refs.exit
  loops : ∀ n, n ∈ loopWords → Newest s (ascii n) (some (ix n)) ∧ Builtin s.wl (ix n) n ∧
    ∃ w, s.wl.words[ix n]? = some w ∧ w.isImmediate = false ∧ (n ≠ "leave" → w.compSem = .word)
  colon : ∃ i w, Newest s (ascii ":") (some i) ∧ s.wl.words[i]? = some w ∧ w.isCompileOnly = false ∧ w.action = .core .colon

/-- core.fth and rtf.fth have been loaded into the memory that begins at `b`, and the first task is about to read `text` from
its line. -/
structure RtfLoaded (b : Nat) (ix : String → Nat) (text : List Char) (s : VM) : Prop where
  core : CoreLoaded (b + 16) ix s
  names : ∀ n, n ∈ rtfNames → Newest s (ascii n) (some (ix n))
  repl : HasRepl (ix "leave") (b + 4176, b + 7048) (b + 9976, b + 10136) (b + 10696, b + 11496) (b + 10136) ix s
  uses : ∀ n, n ∈ ["activate", "pause", "handler!"] → Builtin s.wl (ix n) n
  receive : ∃ w, s.wl.words[ix "receive"]? = some w ∧ w.action = .receive
  place : Region s.ds (b + 8392) (b + 8464)
  tasks : Coded s.refs (ix "leave") s.wl (b + 8392) (b + 8464) s.ds ix (taskCode ix)
  cold : Coded s.refs (ix "leave") s.wl (b + 10696) (b + 11496) s.ds ix (coldCode ix)
  words : ∀ n, n ∈ rtfWords → ∃ i, Newest s (ascii n) (some i)
  others : ∀ nm, (∀ n, n ∈ rtfWords → ¬SameName nm (ascii n)) → Newest s nm none
  calcs : ∀ n, n ∈ calcWords → Newest s (ascii n) (some (ix n)) ∧ ∃ w, s.wl.words[ix n]? = some w ∧ w.isCompileOnly = false
  basic : ∀ n, n ∈ effects.map (·.1) ++ ["/", "mod", "abort"] → Builtin s.wl (ix n) n
  dot : Coded s.refs (ix "leave") s.wl (b + 4176) (b + 7048) s.ds ix (dotCode ix)
  only : ∀ n, n ∈ compileOnlyWords → ∃ i w, Newest s (ascii n) (some i) ∧ s.wl.words[i]? = some w ∧ w.isCompileOnly = true
  first : s.cur = 0
  output : s.outbuf = some []
  terminal : s.task.st.sourceId = 0
  input : ∃ pre, Reading s.task pre text
  ret : ret s = []
  workshop : Workshop b ix s

/-- The other tasks have been made to rest, with `pause` at `a`, and errors are handled by word `h`. -/
def roused (s : VM) (h a : Nat) : VM :=
  { s with
    tasks := fun i => if i = s.cur then s.tasks i else activated (s.tasks i) a
    lastError := none
    handler := h }

/-- The task begins again with an empty line and an empty return stack. -/
def afresh (s : VM) : VM := { s.setTask (fresh s.task) with lastError := none }

/-- The machine after the user typed `text`. -/
def typed (s : VM) (text : List Char) : VM :=
  { s.setTask { s.task with inbuf := some text, st := { s.task.st with sourceIndex := 0 } } with
    host := { s.host with calls := s.host.calls + 1 } }

end Verif.Spec
