import Verif.Model.Inner
import Verif.Model.Parser

/-!
# Text input, numbers, the outer interpreter's token words, defining words

src/core.rs 1670-2062, 2064-2249, 2272-2402, 2881-2969.
-/

namespace Verif

/-- `self.input_buffer()` read (src/mock_vm.rs 161-168): the line of the current source when
`source_id > 0` (indexing panics when there is no such line), else the task's own buffer. -/
def inputBuffer (t : Task) : Except Fault (Option (List Char)) :=
  if 0 < t.st.sourceId.toInt then
    match t.lines[t.st.sourceId.toNat - 1]? with
    | some l => .ok l
    | none => .error .panic
  else .ok t.inbuf

/-- Assignment to `*self.input_buffer()` (src/mock_vm.rs 161-172). -/
def setInputBuffer (t : Task) (b : Option (List Char)) : Except Fault Task :=
  if 0 < t.st.sourceId.toInt then
    if t.st.sourceId.toNat - 1 < t.lines.length then
      .ok { t with lines := t.lines.set (t.st.sourceId.toNat - 1) b }
    else .error .panic
  else .ok { t with inbuf := b }

/-- `self.input_buffer().take()`. -/
def takeInput : M (Option (List Char)) := fun s =>
  match inputBuffer s.task, setInputBuffer s.task none with
  | .ok b, .ok t => .ok (b, s.setTask t)
  | _, _ => .error .panic

/-- `self.set_input_buffer(b)`. -/
def putInput (b : List Char) : M Unit := fun s =>
  match setInputBuffer s.task (some b) with
  | .ok t => .ok ((), s.setTask t)
  | .error e => .error e

/-- `self.last_token().take().expect(..)`. -/
def takeToken : M (List Char) := fun s =>
  match s.tkn with
  | some t => .ok (t, { s with tkn := none })
  | none => .error .panic

/-- `self.set_last_token(t)`. -/
def putToken (t : List Char) : M Unit := modVM fun s => { s with tkn := some t }

/-- `take().expect("input buffer")`. -/
def takeInputE : M (List Char) := do
  let b ← takeInput
  match b with
  | some b => pure b
  | none => fault .panic

/-- `&input_buffer[self.state().source_index..]`. -/
def sourceFrom (buf : List Char) (idx : Nat) : M (List Char) :=
  match splitAtByte buf idx with
  | some (_, r) => pure r
  | none => fault .panic

/-- Write text to the output buffer if there is one (`output_buffer().as_mut()`). -/
def outBytes (bs : List Byte) : M Unit := modVM fun s => { s with outbuf := s.outbuf.map (· ++ bs) }

/-- src/core.rs 1670-1672 `left_bracket`. -/
def leftBracket : M Unit := modSt fun st => { st with isCompiling := false }

/-- src/core.rs 1674-1676 `right_bracket`. -/
def rightBracket : M Unit := modSt fun st => { st with isCompiling := true }

/-- src/core.rs 1679-1685 `set_source`. -/
def setSource (text : List Char) : M Unit := do
  let _ ← takeInputE
  modSt fun st => { st with sourceIndex := 0 }
  putInput text

/-- src/core.rs 1688-1692 `push_source`. -/
def pushSource (text : List Char) : M Unit := do
  let b ← takeInputE
  putInput (b ++ text)

/-- The delimiters of src/core.rs 1710. -/
def isSpace (ch : Char) : Bool := ch == '\t' || ch == '\n' || ch == '\r' || ch == ' '

/-- The loop of src/core.rs 1706-1722: `tok` is the token so far, `idx` the byte offset of the next
character; returns the token and `cnt`, the offset of the delimiter after the token or of the end. -/
def scanWord : List Char → Nat → List Char → List Char × Nat
  | [], idx, tok => (tok, idx)
  | ch :: cs, idx, tok =>
    if isSpace ch then
      if tok.isEmpty then scanWord cs (idx + ch.utf8Size) tok
      else (tok, idx)
    else scanWord cs (idx + ch.utf8Size) (tok ++ [ch])

/-- src/core.rs 1697-1728 `parse_word`. -/
def parseWord : M Unit := do
  let _ ← takeToken
  let b ← takeInput
  match b with
  | some buf => do
    let st ← getSt
    if st.sourceIndex < byteLen buf then do
      let src ← sourceFrom buf st.sourceIndex
      let r := scanWord src 0 []
      modSt fun st => { st with sourceIndex := st.sourceIndex + r.2 }
      putInput buf
      putToken r.1
    else do
      putInput buf
      putToken []
  | none => putToken []

/-- src/core.rs 1734-1747 `char`. -/
def pChar (c : Ctx) : M Unit := do
  parseWord
  let tok ← takeToken
  match tok with
  | ch :: _ => do
    putToken tok
    sPush (BitVec.ofNat 64 ch.toNat)
  | [] => do
    putToken tok
    abortWith c .unexpectedEOF

/-- src/core.rs 1757-1764 `bracket_char`. -/
def bracketChar (c : Ctx) : M Unit := do
  pChar c
  let e ← getError
  match e with
  | some _ => pure ()
  | none => do
    let ch ← sPop
    compileInteger c ch

/-- The loop of src/core.rs 1778-1797: characters up to the delimiter `v`; `cnt` is the offset just
after the delimiter, or of the end. -/
def scanTo (v : Cell) : List Char → Nat → List Char → List Char × Nat
  | [], idx, tok => (tok, idx)
  | ch :: cs, idx, tok =>
    if BitVec.ofNat 64 ch.toNat = v then (tok, idx + ch.utf8Size)
    else scanTo v cs (idx + ch.utf8Size) (tok ++ [ch])

/-- src/core.rs 1769-1802 `parse`. -/
def parse (c : Ctx) : M Unit := do
  let buf ← takeInputE
  let v ← sPop
  let _ ← takeToken
  let st ← getSt
  let src ← sourceFrom buf st.sourceIndex
  let r := scanTo v src 0 []
  let p ← liftE (uadd c.oc st.sourceIndex r.2)
  modSt fun st => { st with sourceIndex := p }
  putToken r.1
  putInput buf

/-- The loop of src/core.rs 1815-1828: how many leading characters equal the delimiter (counting
characters, not bytes). -/
def countSkip (v : Cell) : List Char → Nat
  | [] => 0
  | ch :: cs => if BitVec.ofNat 64 ch.toNat = v then countSkip v cs + 1 else 0

/-- src/core.rs 1807-1831 `_skip`. -/
def skip (c : Ctx) : M Unit := do
  let buf ← takeInputE
  let v ← sPop
  let st ← getSt
  let src ← sourceFrom buf st.sourceIndex
  let p ← liftE (uadd c.oc st.sourceIndex (countSkip v src))
  modSt fun st => { st with sourceIndex := p }
  putInput buf

/-- src/core.rs 1833-1836 `imm_paren`. -/
def paren (c : Ctx) : M Unit := do
  sPush 41
  parse c

/-- src/core.rs 1839-1842 `imm_backslash`. -/
def backslash (c : Ctx) : M Unit := do
  sPush 10
  parse c

/-- src/core.rs 1858-1878 `postpone`. -/
def postpone (c : Ctx) : M Unit := do
  parseWord
  let tok ← takeToken
  if tok.isEmpty then do
    putToken tok
    abortWith c .unexpectedEOF
  else do
    let f ← find c (utf8 tok)
    match f with
    | some xt => do
      putToken tok
      compileInteger c (toCell xt)
      let refs ← getRefs
      compileWord c refs.postponeRt
    | none => do
      putToken tok
      abortWith c .undefinedWord

/-- src/core.rs 1885-1896 `_postpone`: the index is not checked, so a bad one panics. -/
def postponeRt (c : Ctx) : M Unit := do
  let xt ← sPop
  let w ← wordAt xt.toNat
  compSemRun c w.compSem xt.toNat

/-- What src/core.rs 2069-2109 `evaluate_integer` decides about a token in base `base`. -/
def integerValue (base : Cell) (tok : List Byte) : Option Cell :=
  match Parser.quotedChar tok with
  | some v => some v
  | none =>
    let (bytes, b) := Parser.base tok base
    let (bytes, sg) := Parser.sign bytes
    match Parser.uintInBase b bytes 0 with
    | some v => some (sg * v)
    | none => none

/-- src/core.rs 2069-2109 `evaluate_integer`. On failure only the error is set (no abort); the
error code of every failing path is `RESULT_OUT_OF_RANGE`. -/
def evaluateInteger (c : Ctx) (tok : List Byte) : M Unit := do
  let base ← dsRd fun d => d.getCell d.baseAddr
  match integerValue base tok with
  | some v => do
    let st ← getSt
    if st.isCompiling then compileInteger c v else sPush v
  | none => setError (some .resultOutOfRange)

/-- The exponent part of src/core.rs 2143-2200: after `E` or `e`, an optional sign and digits.
Result: rest, sign, digits value. -/
def exponent (bytes : List Byte) : Option (List Byte × Cell × Nat) :=
  let (b, sg) := Parser.sign bytes
  match Parser.uint b 0 with
  | none => none
  | some (rest, v) => some (rest, sg, v)

/-- What src/core.rs 2112-2243 `evaluate_float` decides about a token: the value, or the error. -/
def floatValue (f : FloatOps) (tok : List Byte) : Except Exn F64 :=
  let (bytes, sg) := Parser.sign tok
  match Parser.uint bytes 0 with
  | none => .error .resultOutOfRange
  | some (rest, ip) =>
    if rest.length = bytes.length then .error .unsupportedOperation
    else
      match Parser.fraction f rest with
      | none => .error .resultOutOfRange
      | some (rest, fp) =>
        let (b1, isE) := Parser.ascii rest 69
        let (b2, ise) := Parser.ascii rest 101
        let r := if isE then exponent b1 else if ise then exponent b2 else some (rest, 0, 0)
        match r with
        | none => .error .resultOutOfRange
        | some (rest', es, ev) =>
          if rest'.length = rest.length then .error .unsupportedOperation
          else if rest'.length ≠ 0 then .error .unsupportedOperation
          else
            .ok (f.mul (f.mul (f.ofInt sg.toInt) (f.add (f.ofInt ip) fp))
              (f.pow10 ((es * BitVec.ofNat 64 ev).setWidth 32).toInt))

/-- src/core.rs 2112-2243 `evaluate_float`. -/
def evaluateFloat (c : Ctx) (tok : List Byte) : M Unit := do
  match floatValue c.cfg.fops tok with
  | .error e => setError (some e)
  | .ok v => do
    let refs ← getRefs
    if refs.flit = 0 then setError (some .unsupportedOperation)
    else do
      let st ← getSt
      if st.isCompiling then compileFloat c v else fPush v

/-- The part common to src/core.rs 1910-1930 and 1946-1966: a token that is not a word. -/
def evaluateNumber (c : Ctx) (tok : List Char) : M Unit := do
  setError none
  evaluateInteger c (utf8 tok)
  let e ← getError
  match e with
  | none => putToken tok
  | some _ => do
    setError none
    evaluateFloat c (utf8 tok)
    let e ← getError
    match e with
    | none => putToken tok
    | some _ => do
      putToken tok
      abortWith c .undefinedWord

/-- src/core.rs 1898-1932 `compile_token`. -/
def compileToken (c : Ctx) : M Unit := do
  let tok ← takeToken
  let f ← find c (utf8 tok)
  match f with
  | some i => do
    putToken tok
    let w ← wordAt i
    if w.isImmediate then c.ex i else compSemRun c w.compSem i
  | none => evaluateNumber c tok

/-- src/core.rs 1934-1967 `interpret_token`. -/
def interpretToken (c : Ctx) : M Unit := do
  let tok ← takeToken
  let f ← find c (utf8 tok)
  match f with
  | some i => do
    putToken tok
    let w ← wordAt i
    if w.isCompileOnly then abortWith c .interpretingCompileOnly else c.ex i
  | none => evaluateNumber c tok

/-- Rust `TRUE`/`FALSE` (src/lib.rs 33-34). -/
def flag (b : Bool) : Cell := if b then -1 else 0

/-- src/core.rs 1969-1976 `p_compiling`. -/
def compiling : M Unit := do
  let st ← getSt
  sPush (flag st.isCompiling)

/-- src/core.rs 1979-1991 `token_empty`. -/
def tokenEmpty : M Unit := do
  let s ← getVM
  sPush (flag (match s.tkn with
    | some t => t.isEmpty
    | none => true))

/-- src/core.rs 1994-2007 `dot_token`. -/
def dotToken : M Unit := do
  let s ← getVM
  match s.tkn with
  | some t => outBytes (utf8 t)
  | none => pure ()

/-- src/core.rs 2012-2032 `store_token`. -/
def storeToken (c : Ctx) : M Unit := do
  let a ← sPop
  let s ← getVM
  if s.ds.start ≤ a.toNat then
    match s.tkn with
    | some t => do
      dsOp fun d => d.putCstr c.oc (utf8 t) a.toNat
      putToken []
    | none =>
      if a.toNat < s.ds.limit then dsOp fun d => d.putU8 0 a.toNat
      else fault .panic
  else abortWith c .invalidMemoryAddress

/-- src/core.rs 2064-2067 `base`. -/
def pBase : M Unit := do
  let d ← getDs
  sPush (toCell d.baseAddr)

/-- `wordlist_mut().push(name, word)` (src/core.rs 144). -/
def wlPush (name : List Byte) (w : Word) : M Unit := modVM fun s => { s with wl := s.wl.push name w }

/-- `compile_str` through the state, returning the name address. -/
def compileStrM (c : Ctx) (bs : List Byte) : M Nat := fun s =>
  match s.ds.compileStr c.oc bs with
  | .ok (a, d) => .ok (a, { s with ds := d })
  | .error e => .error e

/-- src/core.rs 2276-2283: the message when the name is already defined. -/
def redefining (found : Bool) (tok : List Char) : M Unit :=
  if found then outBytes (ascii "Redefining " ++ utf8 tok) else pure ()

/-- src/core.rs 2272-2294 `define`. All compilation semantics passed by the callers are
`compile_word` in disguise (835-857). -/
def define (c : Ctx) (action : Prim) : M Unit := do
  parseWord
  let tok0 ← takeToken
  let tok := tok0.map lowerChar
  let f ← find c (utf8 tok)
  redefining f.isSome tok
  if tok.isEmpty then do
    putToken tok
    abortWith c .unexpectedEOF
  else do
    let nfa ← compileStrM c (utf8 tok)
    dsOp fun d => d.align c.oc
    let dfa ← getHere
    wlPush (utf8 tok) (Word.new action .word nfa dfa)
    putToken tok

/-- src/core.rs 2296-2304 `colon`. -/
def colon (c : Ctx) : M Unit := do
  define c (.core .nest)
  let e ← getError
  match e with
  | none => do
    let wl ← getWl
    modWord wl.last fun w => { w with hidden := true }
    rightBracket
  | some _ => pure ()

/-- src/core.rs 2307-2317, the body of `semicolon`; `forward_bitset().layer3() != 0` is "some label
is forward". -/
def semicolonBody (c : Ctx) : M Unit := do
  let s ← getVM
  if s.task.c.len ≠ 0 then abortWith c .controlStructureMismatch
  else if s.forward ≠ [] then abortWith c .controlStructureMismatch
  else do
    let w ← wordAt s.refs.exit
    compSemRun c w.compSem s.refs.exit
    let wl ← getWl
    modWord wl.last fun w => { w with hidden := false }

/-- src/core.rs 2306-2319 `semicolon`. -/
def semicolon (c : Ctx) : M Unit := do
  semicolonBody c
  leftBracket

/-- src/core.rs 2321-2323 `create`. -/
def create (c : Ctx) : M Unit := define c (.core .pVar)

/-- src/core.rs 2325-2331 `constant`. -/
def constant (c : Ctx) : M Unit := do
  let v ← sPop
  define c (.core .pConst)
  let e ← getError
  match e with
  | none => compileCell c v
  | some _ => pure ()

/-- The bucket loop of src/core.rs 2341-2345: read `n` saved buckets after `dfa`. -/
def unmarkLoop (c : Ctx) : Nat → Nat → Fin 64 → M Unit
  | 0, _, _ => pure ()
  | n + 1, dfa, i => do
    let dfa ← liftE (uadd c.oc dfa 8)
    let x ← dsRd fun d => d.getCell dfa
    modVM fun s =>
      { s with wl := { s.wl with buckets := fun j => if j = i then x.toNat else s.wl.buckets j } }
    unmarkLoop c n dfa (i + 1)

/-- src/core.rs 2333-2348 `unmark`; 154-157 `truncate` of the word list panics when nothing would
remain in a checked build (`len() - 1`). -/
def unmark (c : Ctx) : M Unit := do
  let st ← getSt
  let w ← wordAt st.wp
  let x ← dsRd fun d => d.getCell w.dfa
  modVM fun s => { s with wl := { s.wl with last := x.toNat } }
  unmarkLoop c 64 w.dfa 0
  dsOp fun d => .ok (d.truncate w.nfa)
  let wl ← getWl
  let words := wl.words.take st.wp
  let last ← liftE (usub c.oc words.length 1)
  modVM fun s => { s with wl := { s.wl with words := words, last := last } }

/-- The loop of src/core.rs 2364-2367. -/
def markerLoop (c : Ctx) : List (Fin 64) → M Unit
  | [] => pure ()
  | i :: is => do
    let wl ← getWl
    compileCell c (toCell (wl.tempBuckets i))
    markerLoop c is

/-- src/core.rs 2359-2368 `marker`. -/
def marker (c : Ctx) : M Unit := do
  let wl ← getWl
  let x := wl.last
  modVM fun s => { s with wl := { s.wl with tempBuckets := s.wl.buckets } }
  define c (.core .unmark)
  compileCell c (toCell x)
  markerLoop c (List.finRange 64)

/-- src/core.rs 2963-2968 `compile_comma`. -/
def compileComma (c : Ctx) : M Unit := do
  let v ← sPop
  compileCell c v

/-- src/core.rs 2881-2900 `tick`. -/
def tick (c : Ctx) : M Unit := do
  parseWord
  let tok ← takeToken
  if tok.isEmpty then do
    putToken tok
    abortWith c .unexpectedEOF
  else do
    let f ← find c (utf8 tok)
    match f with
    | some xt => do
      sPush (toCell xt)
      putToken tok
    | none => do
      putToken tok
      abortWith c .undefinedWord

/-- src/core.rs 2939-2958 `bracket_tick`. -/
def bracketTick (c : Ctx) : M Unit := do
  parseWord
  let tok ← takeToken
  if tok.isEmpty then do
    putToken tok
    abortWith c .unexpectedEOF
  else do
    let f ← find c (utf8 tok)
    match f with
    | some xt => do
      compileInteger c (toCell xt)
      putToken tok
    | none => do
      putToken tok
      abortWith c .undefinedWord

/-- src/core.rs 2904-2912 `to_body`. -/
def toBody (c : Ctx) : M Unit := do
  let t ← sPop
  let wl ← getWl
  match wl.words[t.toNat]? with
  | some w => sPush (toCell w.dfa)
  | none => abortWith c .invalidNumericArgument

/-- src/core.rs 2916-2924 `to_name`. -/
def toName (c : Ctx) : M Unit := do
  let t ← sPop
  let wl ← getWl
  match wl.words[t.toNat]? with
  | some w => sPush (toCell w.nfa)
  | none => abortWith c .invalidNumericArgument

/-- src/core.rs 2930-2933 `execute`. -/
def execute (c : Ctx) : M Unit := do
  let t ← sPop
  c.ex t.toNat

/-- src/core.rs 2401-2408 `does`. -/
def does (c : Ctx) : M Unit := do
  let refs ← getRefs
  sPush (toCell refs.doesRt)
  compileComma c
  let refs ← getRefs
  sPush (toCell refs.exit)
  compileComma c

/-- src/core.rs 732-735 `immediate`. -/
def immediate : M Unit := do
  let wl ← getWl
  modWord wl.last fun w => { w with isImmediate := true }

/-- src/core.rs 744-747 `compile_only`. -/
def compileOnly : M Unit := do
  let wl ← getWl
  modWord wl.last fun w => { w with isCompileOnly := true }

end Verif
