import Verif.Model.Control

/-!
# Output and tools (src/output.rs, src/tools.rs)

The code takes the output buffer out of its slot and puts it back; between the two nothing reads
the slot, except that a fault in between loses the state anyway, so the model appends in place.
-/

namespace Verif

/-- Digits of `n` in base `b`, most significant first; `0` is one digit. Rust `{:b}`, `{:o}`, `{}`,
`{:X}` on unsigned values. -/
def digitsLoop (b : Nat) : Nat → Nat → List Byte → List Byte
  | 0, _, acc => acc
  | fuel + 1, n, acc =>
    let d := n % b
    let ch : Byte := if d < 10 then BitVec.ofNat 8 (48 + d) else BitVec.ofNat 8 (55 + d)
    if n / b = 0 then ch :: acc else digitsLoop b fuel (n / b) (ch :: acc)

/-- Rust number formatting in base `b`, upper-case digits. -/
def digits (b n : Nat) : List Byte := digitsLoop b (n + 1) n []

/-- Rust `{}` on an `isize`. -/
def fmtDec (v : Cell) : List Byte :=
  if v.toInt < 0 then 45 :: digits 10 v.toInt.natAbs else digits 10 v.toNat

/-- The text of `n1` in src/output.rs 138-153: `{:b}`, `{:o}` and `{:X}` print the two's complement
bits, `{}` prints a sign. -/
def fmtBase (base : Cell) (v : Cell) : Option (List Byte) :=
  if base = 2 then some (digits 2 v.toNat)
  else if base = 8 then some (digits 8 v.toNat)
  else if base = 10 then some (fmtDec v)
  else if base = 16 then some (digits 16 v.toNat)
  else none

/-- The padding loop `for _ in 0..(n - len)` (src/output.rs 155, 199); the subtraction is plain
`isize` arithmetic. -/
def padding (oc : Bool) (n : Cell) (len : Nat) : Except Fault (List Byte) := do
  let k ← isub oc n (toCell len)
  .ok (List.replicate k.toInt.toNat 32)

/-- src/output.rs 36-45 `emit`: `ch as u8 as char`, so codes 128..255 are two bytes of UTF-8. -/
def emit : M Unit := do
  let ch ← sPop
  outBytes (utf8Char (Char.ofNat (ch.toNat % 256)))

/-- src/output.rs 50-71 `p_type`. -/
def pType (c : Ctx) : M Unit := do
  let (addr, len) ← sPop2
  let s ← getVM
  if s.task.s.underflow then abortWith c .stackUnderflow
  else
    match s.outbuf with
    | some _ => do
      let bs ← dsRd fun d => d.getBytes addr.toNat len.toNat
      outBytes bs
    | none => pure ()

/-- `str::find('"')`: the text before the first quote, all of it when there is none
(src/output.rs 86-91). -/
def untilQuote : List Char → List Char
  | [] => []
  | ch :: cs => if ch = '"' then [] else ch :: untilQuote cs

/-- `&buf[a..b]`. -/
def sliceM (buf : List Char) (a b : Nat) : M (List Char) :=
  match sliceBytes buf a b with
  | some x => pure x
  | none => fault .panic

/-- src/output.rs 82-103 `s_quote`. -/
def sQuote (c : Ctx) : M Unit := do
  let buf ← takeInputE
  let st ← getSt
  let a ← liftE (uadd c.oc st.sourceIndex 1)
  let source ← sliceM buf a (byteLen buf)
  let txt := untilQuote source
  let refs ← getRefs
  let w ← wordAt refs.sQuote
  compSemRun c w.compSem refs.sQuote
  let _ ← compileStrM c (utf8 txt)
  dsOp fun d => d.align c.oc
  modSt fun st => { st with sourceIndex := st.sourceIndex + 1 + byteLen txt + 1 }
  putInput buf

/-- src/output.rs 113-117 `dot_quote`. -/
def dotQuote (c : Ctx) : M Unit := do
  sQuote c
  let refs ← getRefs
  compileWord c refs.type

/-- src/output.rs 122-130 `dot_paren`. -/
def dotParen (c : Ctx) : M Unit := do
  sPush 41
  parse c
  let tok ← takeToken
  outBytes (utf8 tok)
  putToken tok

/-- src/output.rs 135-168 `dot_r`. -/
def dotR (c : Ctx) : M Unit := do
  let base ← dsRd fun d => d.getCell d.baseAddr
  let (n1, n2) ← sPop2
  let s ← getVM
  match s.outbuf with
  | none => pure ()
  | some _ =>
    match fmtBase base n1 with
    | some txt => do
      modVM fun s => { s with hldbuf := txt }
      let pad ← liftE (padding c.oc n2 txt.length)
      outBytes (pad ++ txt)
    | none => do
      modVM fun s => { s with hldbuf := [] }
      abortWith c .unsupportedOperation

/-- src/output.rs 176-206 `fdot_r`: `n2` in `0..=16` is the precision, anything else is 17. -/
def fdotR (c : Ctx) : M Unit := do
  let r ← fPop
  let (n1, n2) ← sPop2
  let s ← getVM
  match s.outbuf with
  | none => pure ()
  | some _ => do
    let txt := c.cfg.fops.fmt (if n2.toNat ≤ 16 then n2.toNat else 17) r
    modVM fun s => { s with hldbuf := txt }
    let pad ← liftE (padding c.oc n1 txt.length)
    outBytes (pad ++ txt)

/-- src/output.rs 208-219 `flush_output`. -/
def flushOutput : M Unit := modVM fun s =>
  match s.outbuf with
  | some buf =>
    if buf.length > 0 then { s with stdout := s.stdout ++ buf ++ [10], outbuf := some [] } else s
  | none => s

/-- src/core.rs 329-345 `Debug for Stack<isize>`. -/
def showCells (l : List Cell) : List Byte := l.flatMap fun v => fmtDec v ++ [32]

/-- src/core.rs 347-363 `Debug for Stack<f64>`: seven digits after the point. -/
def showFloats (f : FloatOps) (l : List F64) : List Byte := l.flatMap fun v => f.fmt 7 v ++ [32]

/-- src/tools.rs 28-44 `dot_s`. -/
def dotS (c : Ctx) : M Unit := do
  let t ← getTask
  outBytes (showCells t.s.asList ++
    (if t.f.len ≠ 0 then
      (if t.s.len ≠ 0 then [32] else []) ++ ascii "F: " ++ showFloats c.cfg.fops t.f.asList
    else []))

/-- The name of a word: `get_str(self.wordlist()[w].nfa())`. -/
def nameOf (oc : Bool) (d : DataSpace) (w : Word) : Except Fault (List Byte) := d.getStr oc w.nfa

/-- The loop of src/tools.rs 51-57, newest first, word 0 left out (`ws` is reversed and without
it). -/
def wordsLoop (oc : Bool) (d : DataSpace) : List Word → Except Fault (List Byte)
  | [] => .ok []
  | w :: ws =>
    if w.hidden then wordsLoop oc d ws
    else do
      let n ← nameOf oc d w
      let rest ← wordsLoop oc d ws
      .ok (n ++ [32] ++ rest)

/-- src/tools.rs 49-60 `words`. -/
def wordsWord (c : Ctx) : M Unit := do
  let s ← getVM
  match s.outbuf with
  | none => pure ()
  | some _ => do
    let txt ← liftE (wordsLoop c.oc s.ds (s.wl.words.drop 1).reverse)
    outBytes txt

/-- src/tools.rs 65-77 `dot_word`: the token is popped only when there is an output buffer. -/
def dotWord (c : Ctx) : M Unit := do
  let s ← getVM
  match s.outbuf with
  | none => pure ()
  | some _ => do
    let xt ← sPop
    match s.wl.words[xt.toNat]? with
    | some w => do
      let n ← liftE (nameOf c.oc s.ds w)
      outBytes (n ++ [32])
    | none => outBytes (ascii "unknown ")

/-- One entry of the backtrace, src/tools.rs 87-98 and 108-117. -/
def btEntry (oc : Bool) (s : VM) (ip : Nat) : Except Fault (List Byte) :=
  match s.wl.findXt ip with
  | some xt =>
    match s.wl.words[xt]? with
    | some w => do
      let n ← nameOf oc s.ds w
      .ok (n ++ [32])
    | none => .error .panic
  | none => .ok (ascii "unknown(" ++ digits 16 ip ++ ascii ") ")

/-- The loop of src/tools.rs 85-99. -/
def btLoop (oc : Bool) (s : VM) : List Cell → Except Fault (List Byte)
  | [] => .ok []
  | v :: vs => do
    let a ← btEntry oc s v.toNat
    let b ← btLoop oc s vs
    .ok (a ++ b)

/-- src/tools.rs 101-106: the word that aborted. -/
def btAborted (oc : Bool) (s : VM) : Except Fault (List Byte) :=
  if s.task.st.abortedWp = 0 then .ok []
  else
    match s.wl.words[s.task.st.abortedWp]? with
    | some w => do
      let n ← nameOf oc s.ds w
      .ok (n ++ [32])
    | none => .error .panic

/-- src/tools.rs 82-121 `dot_backtrace`. -/
def dotBacktrace (c : Ctx) : M Unit := do
  let s ← getVM
  match s.outbuf with
  | none => pure ()
  | some _ => do
    let a ← liftE (btLoop c.oc s s.task.r.asList)
    let b ← liftE (btAborted c.oc s)
    let e ← liftE (btEntry c.oc s s.task.st.ip)
    outBytes (ascii "backtrace: " ++ a ++ b ++ e)

/-- src/tools.rs 126-143 `dot_memory`. -/
def dotMemory : M Unit := do
  let d ← getDs
  outBytes (ascii "data space capacity: " ++ digits 10 d.cap ++ ascii ", used: " ++ digits 10 d.len ++
    ascii ", start: 0x" ++ digits 16 d.start ++ ascii ", limit: 0x" ++ digits 16 d.limit ++
    ascii ", here: 0x" ++ digits 16 d.here ++ [10])

/-- The update of src/tools.rs 161-167. -/
def Word.addTime (w : Word) (t : Nat) : Word :=
  { w with
    minTime := if w.minTime ≠ 0 then min w.minTime t else t
    maxTime := max w.maxTime t }

/-- src/tools.rs 157-168 `set_execution_times`: plain subtraction, unchecked index. -/
def setXtime (c : Ctx) : M Unit := do
  let (t0, xt) ← sPop2
  let s ← getVM
  let t ← liftE (usub c.oc (s.now / 1000) t0.toNat)
  modWord xt.toNat fun w => w.addTime t

/-- The loop of src/tools.rs 174-187; `first` is `counter = 0`. -/
def xtimeLoop (oc : Bool) (d : DataSpace) : List Word → Bool → Except Fault (List Byte)
  | [], _ => .ok []
  | w :: ws, first =>
    if w.minTime > 0 then do
      let n ← nameOf oc d w
      let rest ← xtimeLoop oc d ws false
      .ok ((if first then [] else [124]) ++ n ++ [124] ++ digits 10 w.minTime ++ [44] ++
        digits 10 w.maxTime ++ rest)
    else xtimeLoop oc d ws first

/-- src/tools.rs 171-190 `dot_xtime`. -/
def dotXtime (c : Ctx) : M Unit := do
  let s ← getVM
  match s.outbuf with
  | none => pure ()
  | some _ => do
    let txt ← liftE (xtimeLoop c.oc s.ds (s.wl.words.drop 1).reverse true)
    outBytes txt

/-- src/tools.rs 193-200 `clear_xtime`. -/
def clearXtime : M Unit := modVM fun s =>
  { s with wl := { s.wl with
      words := s.wl.words.take 1 ++ (s.wl.words.drop 1).map fun w =>
        if w.minTime > 0 then { w with minTime := 0, maxTime := 0 } else w } }

/-- src/tools.rs 203-216 `dot_input`. -/
def dotInput : M Unit := do
  let b ← takeInput
  match b with
  | some txt => do
    outBytes (utf8 txt)
    putInput txt
  | none => pure ()

/-- src/tools.rs 219-227 `flush_to_err`. -/
def flushToErr : M Unit := modVM fun s =>
  match s.outbuf with
  | some buf => { s with stderr := s.stderr ++ buf ++ [10], outbuf := some [] }
  | none => s

/-- src/env.rs 12-14 `max_n`. -/
def maxN : M Unit := sPush 0x7fffffffffffffff

/-- src/env.rs 16-18 `max_u`. -/
def maxU : M Unit := sPush (-1)

/-- src/facility.rs 11-14 `mtime`. -/
def mtime : M Unit := do
  let s ← getVM
  sPush (toCell (s.now / 1000000))

/-- src/facility.rs 16-19 `utime`. -/
def utime : M Unit := do
  let s ← getVM
  sPush (toCell (s.now / 1000))

end Verif
