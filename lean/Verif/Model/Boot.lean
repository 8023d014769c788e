import Verif.Model.Exec
import Verif.Model.CoreFth

/-!
# Building a virtual machine (src/core.rs 544-760, src/mock_vm.rs 80-122)
-/

namespace Verif

/-- One call of `add_primitive`, `add_immediate`, `add_compile_only` or
`add_immediate_and_compile_only`. -/
structure Entry where
  name : String
  action : Prim
  imm : Bool
  co : Bool

/-- src/core.rs 546-686: the words added before the references are looked up. -/
def coreTable1 : List Entry := [
  ⟨"", .core .noop, false, false⟩,
  ⟨"noop", .core .noop, false, false⟩,
  ⟨"exit", .core .exit, false, true⟩,
  ⟨"lit", .core .lit, false, true⟩,
  ⟨"flit", .core .flit, false, true⟩,
  ⟨"_s\"", .core .sQuoteRt, false, true⟩,
  ⟨"branch", .core .branch, false, true⟩,
  ⟨"0branch", .core .zeroBranch, false, true⟩,
  ⟨"_do", .core .doRt, false, true⟩,
  ⟨"_qdo", .core .qdoRt, false, true⟩,
  ⟨"_loop", .core .loopRt, false, true⟩,
  ⟨"_+loop", .core .plusLoopRt, false, true⟩,
  ⟨"unloop", .core .unloop, false, true⟩,
  ⟨"leave", .core .leave, false, true⟩,
  ⟨"i", .core .i, false, true⟩,
  ⟨"j", .core .j, false, true⟩,
  ⟨">r", .core .toR, false, true⟩,
  ⟨"r>", .core .rFrom, false, true⟩,
  ⟨"r@", .core .rFetch, false, true⟩,
  ⟨"2>r", .core .twoToR, false, true⟩,
  ⟨"2r>", .core .twoRFrom, false, true⟩,
  ⟨"2r@", .core .twoRFetch, false, true⟩,
  ⟨"compile,", .core .compileComma, false, true⟩,
  ⟨"_postpone", .core .postponeRt, false, true⟩,
  ⟨"_does", .core .doesRt, false, true⟩,
  ⟨"execute", .core .execute, false, false⟩,
  ⟨"dup", .core .dup, false, false⟩,
  ⟨"drop", .core .drop, false, false⟩,
  ⟨"swap", .core .swap, false, false⟩,
  ⟨"over", .core .over, false, false⟩,
  ⟨"nip", .core .nip, false, false⟩,
  ⟨"depth", .core .depth, false, false⟩,
  ⟨"?stacks", .core .checkStacks, false, false⟩,
  ⟨"0<", .core .zeroLess, false, false⟩,
  ⟨"=", .core .equals, false, false⟩,
  ⟨"<", .core .lessThan, false, false⟩,
  ⟨"invert", .core .invert, false, false⟩,
  ⟨"and", .core .and, false, false⟩,
  ⟨"or", .core .or, false, false⟩,
  ⟨"xor", .core .xor, false, false⟩,
  ⟨"lshift", .core .lshift, false, false⟩,
  ⟨"rshift", .core .rshift, false, false⟩,
  ⟨"1+", .core .onePlus, false, false⟩,
  ⟨"1-", .core .oneMinus, false, false⟩,
  ⟨"-", .core .minus, false, false⟩,
  ⟨"+", .core .plus, false, false⟩,
  ⟨"*", .core .star, false, false⟩,
  ⟨"/mod", .core .slashMod, false, false⟩,
  ⟨"cell+", .core .cellPlus, false, false⟩,
  ⟨"cells", .core .cells, false, false⟩,
  ⟨"@", .core .fetch, false, false⟩,
  ⟨"!", .core .store, false, false⟩,
  ⟨"char+", .core .charPlus, false, false⟩,
  ⟨"here", .core .here, false, false⟩,
  ⟨"allot", .core .allot, false, false⟩,
  ⟨"aligned", .core .aligned, false, false⟩,
  ⟨"align", .core .align, false, false⟩,
  ⟨"c@", .core .cFetch, false, false⟩,
  ⟨"c!", .core .cStore, false, false⟩,
  ⟨"move", .core .move, false, false⟩,
  ⟨"base", .core .base, false, false⟩,
  ⟨"immediate", .core .immediate, false, false⟩,
  ⟨"compile-only", .core .compileOnly, false, false⟩,
  ⟨"(", .core .paren, true, false⟩,
  ⟨"\\", .core .backslash, true, false⟩,
  ⟨"[", .core .leftBracket, true, false⟩,
  ⟨"[']", .core .bracketTick, true, true⟩,
  ⟨"[char]", .core .bracketChar, true, true⟩,
  ⟨";", .core .semicolon, true, true⟩,
  ⟨"if", .core .immIf, true, true⟩,
  ⟨"else", .core .immElse, true, true⟩,
  ⟨"then", .core .immThen, true, true⟩,
  ⟨"case", .core .immCase, true, true⟩,
  ⟨"of", .core .immOf, true, true⟩,
  ⟨"endof", .core .immEndof, true, true⟩,
  ⟨"endcase", .core .immEndcase, true, true⟩,
  ⟨"begin", .core .immBegin, true, true⟩,
  ⟨"while", .core .immWhile, true, true⟩,
  ⟨"repeat", .core .immRepeat, true, true⟩,
  ⟨"until", .core .immUntil, true, true⟩,
  ⟨"again", .core .immAgain, true, true⟩,
  ⟨"0labels", .core .clearLabels, true, false⟩,
  ⟨"label", .core .immLabel, true, true⟩,
  ⟨"goto", .core .immGoto, true, true⟩,
  ⟨"call", .core .immCall, true, true⟩,
  ⟨"recurse", .core .immRecurse, true, true⟩,
  ⟨"do", .core .immDo, true, true⟩,
  ⟨"?do", .core .immQdo, true, true⟩,
  ⟨"loop", .core .immLoop, true, true⟩,
  ⟨"+loop", .core .immPlusLoop, true, true⟩,
  ⟨"postpone", .core .postpone, true, true⟩,
  ⟨"does>", .core .does, true, true⟩,
  ⟨"true", .core .pTrue, false, false⟩,
  ⟨"false", .core .pFalse, false, false⟩,
  ⟨"not", .core .zeroEquals, false, false⟩,
  ⟨"0=", .core .zeroEquals, false, false⟩,
  ⟨"0>", .core .zeroGreater, false, false⟩,
  ⟨"0<>", .core .zeroNotEquals, false, false⟩,
  ⟨">", .core .greaterThan, false, false⟩,
  ⟨"<>", .core .notEquals, false, false⟩,
  ⟨"within", .core .within, false, false⟩,
  ⟨"rot", .core .rot, false, false⟩,
  ⟨"-rot", .core .minusRot, false, false⟩,
  ⟨"pick", .core .pick, false, false⟩,
  ⟨"2dup", .core .twoDup, false, false⟩,
  ⟨"2drop", .core .twoDrop, false, false⟩,
  ⟨"2swap", .core .twoSwap, false, false⟩,
  ⟨"2over", .core .twoOver, false, false⟩,
  ⟨"/", .core .slash, false, false⟩,
  ⟨"mod", .core .mod, false, false⟩,
  ⟨"abs", .core .abs, false, false⟩,
  ⟨"negate", .core .negate, false, false⟩,
  ⟨"parse-word", .core .parseWord, false, false⟩,
  ⟨"char", .core .char, false, false⟩,
  ⟨"_skip", .core .skip, false, false⟩,
  ⟨"parse", .core .parse, false, false⟩,
  ⟨":", .core .colon, false, false⟩,
  ⟨"constant", .core .constant, false, false⟩,
  ⟨"create", .core .create, false, false⟩,
  ⟨"'", .core .tick, false, false⟩,
  ⟨">body", .core .toBody, false, false⟩,
  ⟨">name", .core .toName, false, false⟩,
  ⟨"]", .core .rightBracket, false, false⟩,
  ⟨",", .core .comma, false, false⟩,
  ⟨"marker", .core .marker, false, false⟩,
  ⟨"handler!", .core .handlerStore, false, false⟩,
  ⟨"error", .core .error, false, false⟩,
  ⟨".error", .core .dotError, false, false⟩,
  ⟨"0error", .core .clearError, false, false⟩,
  ⟨"0stacks", .core .clearStacks, false, false⟩,
  ⟨"reset", .core .reset, false, false⟩,
  ⟨"abort", .core .abort, false, false⟩,
  ⟨"compiling?", .core .compiling, false, false⟩,
  ⟨"token-empty?", .core .tokenEmpty, false, false⟩,
  ⟨".token", .core .dotToken, false, false⟩,
  ⟨"!token", .core .storeToken, false, false⟩,
  ⟨"compile-token", .core .compileToken, false, false⟩,
  ⟨"interpret-token", .core .interpretToken, false, false⟩,
  ⟨"source-id", .core .sourceId, false, false⟩,
  ⟨"source-id!", .core .setSourceId, false, false⟩,
  ⟨"source-idx", .core .sourceIdx, false, false⟩,
  ⟨"source-idx!", .core .setSourceIdx, false, false⟩,
  ⟨"bye", .core .bye, false, false⟩]

/-- src/core.rs 711-715: the multitasker words. -/
def coreTable2 : List Entry := [
  ⟨"pause", .core .pause, false, true⟩,
  ⟨"activate", .core .activate, false, true⟩,
  ⟨"me", .core .me, false, false⟩,
  ⟨"suspend", .core .suspend, false, false⟩,
  ⟨"resume", .core .resume, false, false⟩]

/-- src/output.rs 12-19. -/
def outputTable : List Entry := [
  ⟨"emit", .out .emit, false, false⟩,
  ⟨"type", .out .type, false, false⟩,
  ⟨"s\"", .out .sQuote, true, true⟩,
  ⟨".\"", .out .dotQuote, true, true⟩,
  ⟨".(", .out .dotParen, true, false⟩,
  ⟨".r", .out .dotR, false, false⟩,
  ⟨"f.r", .out .fdotR, false, false⟩,
  ⟨"flush-output", .out .flushOutput, false, false⟩]

/-- src/tools.rs 10-19. -/
def toolsTable : List Entry := [
  ⟨"words", .tool .words, false, false⟩,
  ⟨".word", .tool .dotWord, false, false⟩,
  ⟨".backtrace", .tool .dotBacktrace, false, false⟩,
  ⟨".s", .tool .dotS, false, false⟩,
  ⟨".memory", .tool .dotMemory, false, false⟩,
  ⟨"(xtime)", .tool .setXtime, false, false⟩,
  ⟨".xtime", .tool .dotXtime, false, false⟩,
  ⟨"0xtime", .tool .clearXtime, false, false⟩,
  ⟨".input", .tool .dotInput, false, false⟩,
  ⟨"flush-to-err", .tool .flushToErr, false, false⟩]

/-- src/env.rs 7-8. -/
def envTable : List Entry := [
  ⟨"max-n", .env .maxN, false, false⟩,
  ⟨"max-u", .env .maxU, false, false⟩]

/-- src/facility.rs 7-8. -/
def facilityTable : List Entry := [
  ⟨"mtime", .env .mtime, false, false⟩,
  ⟨"utime", .env .utime, false, false⟩]

/-- src/float.rs 12-53. -/
def floatTable : List Entry := [
  ⟨"fconstant", .flt .fconstant, false, false⟩,
  ⟨"float+", .flt .floatPlus, false, false⟩,
  ⟨"floats", .flt .floats, false, false⟩,
  ⟨"faligned", .flt .faligned, false, false⟩,
  ⟨"falign", .flt .falign, false, false⟩,
  ⟨"pi", .flt .pi, false, false⟩,
  ⟨"f!", .flt .fstore, false, false⟩,
  ⟨"f@", .flt .ffetch, false, false⟩,
  ⟨"fabs", .flt .fabs, false, false⟩,
  ⟨"fsin", .flt .fsin, false, false⟩,
  ⟨"fcos", .flt .fcos, false, false⟩,
  ⟨"ftan", .flt .ftan, false, false⟩,
  ⟨"fsincos", .flt .fsincos, false, false⟩,
  ⟨"fasin", .flt .fasin, false, false⟩,
  ⟨"facos", .flt .facos, false, false⟩,
  ⟨"fatan", .flt .fatan, false, false⟩,
  ⟨"fatan2", .flt .fatan2, false, false⟩,
  ⟨"fsqrt", .flt .fsqrt, false, false⟩,
  ⟨"fdrop", .flt .fdrop, false, false⟩,
  ⟨"fdup", .flt .fdup, false, false⟩,
  ⟨"fswap", .flt .fswap, false, false⟩,
  ⟨"fnip", .flt .fnip, false, false⟩,
  ⟨"fover", .flt .fover, false, false⟩,
  ⟨"frot", .flt .frot, false, false⟩,
  ⟨"fpick", .flt .fpick, false, false⟩,
  ⟨"s>f", .flt .sToF, false, false⟩,
  ⟨"f>s", .flt .fToS, false, false⟩,
  ⟨"f+", .flt .fplus, false, false⟩,
  ⟨"f-", .flt .fminus, false, false⟩,
  ⟨"f*", .flt .fstar, false, false⟩,
  ⟨"f/", .flt .fslash, false, false⟩,
  ⟨"f**", .flt .fpowf, false, false⟩,
  ⟨"f~", .flt .fproximate, false, false⟩,
  ⟨"f0<", .flt .fZeroLess, false, false⟩,
  ⟨"f0=", .flt .fZeroEquals, false, false⟩,
  ⟨"f<", .flt .fLess, false, false⟩,
  ⟨"fmin", .flt .fmin, false, false⟩,
  ⟨"fmax", .flt .fmax, false, false⟩,
  ⟨"floor", .flt .floor, false, false⟩,
  ⟨"fround", .flt .fround, false, false⟩,
  ⟨"fceil", .flt .fceil, false, false⟩,
  ⟨"fnegate", .flt .fnegate, false, false⟩]

/-- src/units.rs 19-38. -/
def unitsTable : List Entry := [
  ⟨"meter", .unit .meter, false, false⟩,
  ⟨"mm", .unit .mm, false, false⟩,
  ⟨"um", .unit .um, false, false⟩,
  ⟨"deg", .unit .deg, false, false⟩,
  ⟨"rad", .unit .rad, false, false⟩,
  ⟨"hr", .unit .hr, false, false⟩,
  ⟨"minute", .unit .minute, false, false⟩,
  ⟨"sec", .unit .sec, false, false⟩,
  ⟨"msec", .unit .msec, false, false⟩,
  ⟨"usec", .unit .usec, false, false⟩,
  ⟨"mm/min", .unit .mmPerMin, false, false⟩,
  ⟨"mm/sec", .unit .mmPerSec, false, false⟩,
  ⟨"um/msec", .unit .umPerMsec, false, false⟩,
  ⟨"rpm", .unit .rpm, false, false⟩,
  ⟨"hz", .unit .hertz, false, false⟩,
  ⟨"1/sec", .unit .hertz, false, false⟩]

/-- src/file_access.rs 15-24. -/
def fileTable : List Entry := [
  ⟨"file-size", .file .fileSize, false, false⟩,
  ⟨"file-position", .file .filePosition, false, false⟩,
  ⟨"close-file", .file .closeFile, false, false⟩,
  ⟨"create-file", .file .createFile, false, false⟩,
  ⟨"delete-file", .file .deleteFile, false, false⟩,
  ⟨"open-file", .file .openFile, false, false⟩,
  ⟨"read-file", .file .readFile, false, false⟩,
  ⟨"write-file", .file .writeFile, false, false⟩,
  ⟨"resize-file", .file .resizeFile, false, false⟩,
  ⟨"reposition-file", .file .repositionFile, false, false⟩]

/-- src/loader.rs 18-22. -/
def loaderTable : List Entry := [
  ⟨"open-source", .load .openSource, false, false⟩,
  ⟨"close-source", .load .closeSource, false, false⟩,
  ⟨".source-path", .load .dotSourcePath, false, false⟩,
  ⟨"load-line", .load .loadLine, false, false⟩,
  ⟨".source-line", .load .dotSourceLine, false, false⟩]

/-- src/core.rs 724-729 `add_primitive`. -/
def addPrimitive (c : Ctx) (name : List Byte) (a : Prim) : M Unit := do
  let nfa ← compileStrM c name
  dsOp fun d => d.align c.oc
  let dfa ← getHere
  wlPush name (Word.new a .word nfa dfa)

/-- src/core.rs 724-760: `add_primitive`, then `immediate` and `compile_only` as asked. -/
def addEntry (c : Ctx) (e : Entry) : M Unit := do
  addPrimitive c (ascii e.name) e.action
  (if e.imm then immediate else pure ())
  (if e.co then compileOnly else pure ())

/-- The calls in a table, in order. -/
def addTable (c : Ctx) : List Entry → M Unit
  | [] => pure ()
  | e :: es => do
    addEntry c e
    addTable c es

/-- `self.find(name).expect(..)`. -/
def findE (c : Ctx) (name : String) : M Nat := do
  let f ← find c (ascii name)
  match f with
  | some i => pure i
  | none => fault .panic

/-- src/core.rs 690-706: the references. -/
def coreRefs (c : Ctx) : M Unit := do
  let lit ← findE c "lit"
  let flit ← findE c "flit"
  let exit ← findE c "exit"
  let zb ← findE c "0branch"
  let br ← findE c "branch"
  let dr ← findE c "_do"
  let qd ← findE c "_qdo"
  let lp ← findE c "_loop"
  let pl ← findE c "_+loop"
  let ov ← findE c "over"
  let eq ← findE c "="
  let dp ← findE c "drop"
  let pp ← findE c "_postpone"
  let tr ← findE c ">r"
  let ds ← findE c "_does"
  modVM fun s => { s with refs := { s.refs with
    lit := lit, flit := flit, exit := exit, zeroBranch := zb, branch := br, doRt := dr, qdoRt := qd,
    loopRt := lp, plusLoopRt := pl, over := ov, equal := eq, drop := dp, postponeRt := pp, toR := tr,
    doesRt := ds } }

/-- src/core.rs 908-911 `patch_compilation_semanticses`. -/
def patchCompSem (c : Ctx) : M Unit := do
  let i ← findE c "leave"
  modWord i fun w => { w with compSem := .leave }

/-- src/core.rs 544-721 `add_core`. -/
def addCore (c : Ctx) : M Unit := do
  addTable c coreTable1
  coreRefs c
  patchCompSem c
  addTable c coreTable2
  setAwake 0 true

/-- src/output.rs 11-22 `add_output`. -/
def addOutput (c : Ctx) : M Unit := do
  addTable c outputTable
  let q ← findE c "_s\""
  let t ← findE c "type"
  modVM fun s => { s with refs := { s.refs with sQuote := q, type := t } }

/-- src/mock_vm.rs 82-108: the machine before any word is added. -/
def VM.blank (start cap : Nat) : VM :=
  { cur := 0
    tasks := fun i => if i = 0 then Task.newTerminal else Task.newBackground
    lastError := none, handler := 0, wl := Wordlist.empty
    ds := DataSpace.withCapacity start cap
    tkn := some [], outbuf := some [], hldbuf := [], refs := {}, now := 0
    forward := [], resolved := [], labels := List.replicate 1000 0
    host := { dir := fun _ => none, content := fun _ => [], nextIno := 0, calls := 0 }
    stdout := [], stderr := [] }

/-- src/mock_vm.rs 109-117: add all words. -/
def addAll (c : Ctx) : M Unit := do
  addCore c
  addOutput c
  addTable c toolsTable
  addTable c envTable
  addTable c facilityTable
  addTable c floatTable
  addTable c unitsTable
  addTable c fileTable
  addTable c loaderTable

/-- src/loader.rs 188-195 `load_str`. -/
def loadStr (cfg : Cfg) (depth fuel : Nat) (script : List Char) : M Unit := do
  let _ ← takeInputE
  modSt fun st => { st with sourceIndex := 0 }
  putInput script
  evaluateInput cfg depth fuel

/-- src/mock_vm.rs 82-122 `VM::new`, with src/loader.rs 197-207 `load_core_fth`. -/
def VM.new (cfg : Cfg) (depth fuel start cap : Nat) : Except Fault VM :=
  match (do
    addAll (ctx cfg depth)
    loadStr cfg depth fuel coreFth.toList
    let e ← getError
    match e with
    | some _ => fault .panic
    | none => pure ()) (VM.blank start cap) with
  | .ok (_, s) => .ok s
  | .error e => .error e

end Verif
