import Verif.Model.Files

/-!
# Executing words: `execute_word`, the inner interpreter, the outer interpreter

src/core.rs 761-830, 2034-2062.
-/

namespace Verif

/-- The functions of src/core.rs behind the words of the table 546-718, and behind defined words. -/
def coreAction (c : Ctx) : CorePrim → M Unit
  | .noop => pure ()                       -- core.rs 2438-2440
  | .exit => exit
  | .lit => lit c
  | .flit => flit c
  | .sQuoteRt => sQuoteRt c
  | .branch => branch
  | .zeroBranch => zeroBranch c
  | .doRt => doRt c
  | .qdoRt => qdoRt c
  | .loopRt => loopRt c
  | .plusLoopRt => plusLoopRt c
  | .unloop => unloop
  | .leave => leave c
  | .i => pI c
  | .j => pJ c
  | .toR => toR
  | .rFrom => rFrom
  | .rFetch => rFetch
  | .twoToR => twoToR
  | .twoRFrom => twoRFrom
  | .twoRFetch => twoRFetch
  | .compileComma => compileComma c
  | .postponeRt => postponeRt c
  | .doesRt => doesRt c
  | .execute => execute c
  | .dup => modS Stack.dup
  | .drop => modS Stack.drop
  | .swap => modS Stack.swap
  | .over => modS Stack.over
  | .nip => modS Stack.nip
  | .depth => depth
  | .checkStacks => checkStacks c
  | .zeroLess => pop1Push fun t => flag (decide (t.toInt < 0))
  | .equals => pop2Push fun n t => flag (decide (t = n))
  | .lessThan => pop2Push fun n t => flag (decide (n.toInt < t.toInt))
  | .invert => pop1Push fun t => ~~~t
  | .and => pop2Push fun n t => t &&& n
  | .or => pop2Push fun n t => t ||| n
  | .xor => pop2Push fun n t => t ^^^ n
  | .lshift => pop2Push shl
  | .rshift => pop2Push shr
  | .onePlus => modS fun st => st.unop (· + 1)
  | .oneMinus => modS fun st => st.unop (· - 1)
  | .minus => modS fun st => st.binop (· - ·)
  | .plus => modS fun st => st.binop (· + ·)
  | .star => modS fun st => st.binop (· * ·)
  | .slashMod => slashMod c
  | .cellPlus => cellPlus c
  | .cells => cells c
  | .fetch => fetch c
  | .store => store c
  | .charPlus => charPlus c
  | .here => here
  | .allot => allot c
  | .aligned => aligned c
  | .align => align c
  | .cFetch => cFetch c
  | .cStore => cStore c
  | .move => pMove c
  | .base => pBase
  | .immediate => immediate
  | .compileOnly => compileOnly
  | .paren => paren c
  | .backslash => backslash c
  | .leftBracket => leftBracket
  | .bracketTick => bracketTick c
  | .bracketChar => bracketChar c
  | .semicolon => semicolon c
  | .immIf => immIf c
  | .immElse => immElse c
  | .immThen => immThen c
  | .immCase => immCase
  | .immOf => immOf c
  | .immEndof => immEndof c
  | .immEndcase => immEndcase c
  | .immBegin => immBegin
  | .immWhile => immWhile c
  | .immRepeat => immRepeat c
  | .immUntil => immUntil c
  | .immAgain => immAgain c
  | .clearLabels => clearLabels
  | .immLabel => immLabel c
  | .immGoto => immGoto c
  | .immCall => immCall c
  | .immRecurse => immRecurse c
  | .immDo => immDo c
  | .immQdo => immQdo c
  | .immLoop => immLoop c
  | .immPlusLoop => immPlusLoop c
  | .postpone => postpone c
  | .does => does c
  | .pTrue => sPush (-1)                   -- core.rs 2447-2449
  | .pFalse => sPush 0                     -- core.rs 2454-2456
  | .zeroEquals => pop1Push fun t => flag (decide (t = 0))
  | .zeroGreater => pop1Push fun t => flag (decide (0 < t.toInt))
  | .zeroNotEquals => pop1Push fun t => flag (decide (t ≠ 0))
  | .greaterThan => pop2Push fun n t => flag (decide (t.toInt < n.toInt))
  | .notEquals => pop2Push fun n t => flag (decide (n ≠ t))
  | .within => within
  | .rot => modS Stack.rot
  | .minusRot => modS Stack.minusRot
  | .pick => modS Stack.pick
  | .twoDup => modS Stack.twoDup
  | .twoDrop => modS Stack.twoDrop
  | .twoSwap => modS Stack.twoSwap
  | .twoOver => modS Stack.twoOver
  | .slash => divOp c BitVec.sdiv
  | .mod => divOp c BitVec.srem
  | .abs => pop1Push cellAbs
  | .negate => pop1Push fun t => -t
  | .parseWord => parseWord
  | .char => pChar c
  | .skip => skip c
  | .parse => parse c
  | .colon => colon c
  | .constant => constant c
  | .create => create c
  | .tick => tick c
  | .toBody => toBody c
  | .toName => toName c
  | .rightBracket => rightBracket
  | .comma => comma c
  | .marker => marker c
  | .handlerStore => handlerStore
  | .error => pError
  | .dotError => dotError
  | .clearError => setError none           -- core.rs 3104-3106
  | .clearStacks => clearStacks
  | .reset => reset c
  | .abort => abortWith c .abort           -- core.rs 3204-3206
  | .compiling => compiling
  | .tokenEmpty => tokenEmpty
  | .dotToken => dotToken
  | .storeToken => storeToken c
  | .compileToken => compileToken c
  | .interpretToken => interpretToken c
  | .sourceId => pSourceId
  | .setSourceId => pSetSourceId c
  | .sourceIdx => pSourceIdx
  | .setSourceIdx => pSetSourceIdx
  | .bye => bye
  | .pause => pause
  | .activate => activate c
  | .me => me
  | .suspend => setAwakeWord c false
  | .resume => setAwakeWord c true
  | .nest => nest
  | .pVar => pVar
  | .pConst => pConst
  | .unmark => unmark c
  | .doesAction => xdoes

/-- The functions of src/output.rs. -/
def outAction (c : Ctx) : OutPrim → M Unit
  | .emit => emit
  | .type => pType c
  | .sQuote => sQuote c
  | .dotQuote => dotQuote c
  | .dotParen => dotParen c
  | .dotR => dotR c
  | .fdotR => fdotR c
  | .flushOutput => flushOutput

/-- The functions of src/tools.rs. -/
def toolAction (c : Ctx) : ToolPrim → M Unit
  | .words => wordsWord c
  | .dotWord => dotWord c
  | .dotBacktrace => dotBacktrace c
  | .dotS => dotS c
  | .dotMemory => dotMemory
  | .setXtime => setXtime c
  | .dotXtime => dotXtime c
  | .clearXtime => clearXtime
  | .dotInput => dotInput
  | .flushToErr => flushToErr

/-- The functions of src/env.rs and src/facility.rs. -/
def envAction : EnvPrim → M Unit
  | .maxN => maxN
  | .maxU => maxU
  | .mtime => mtime
  | .utime => utime

/-- rtf/src/main.rs 343-354: what `receive` does with the answer. -/
def hear : Answer → M Unit
  | .line text => setSource text
  | .eof => bye
  | .failed => outBytes (ascii "Other")

/-- rtf/src/main.rs 341: the next answer of the user. -/
def nextAnswer (c : Ctx) : M Answer := fun s =>
  .ok (c.cfg.answers s.host.calls, { s with host := { s.host with calls := s.host.calls + 1 } })

/-- rtf/src/main.rs 340-355 `receive`, the word of the program rtf. The program waits until there is an answer. -/
def pReceive (c : Ctx) : M Unit := do
  let a ← nextAnswer c
  hear a

/-- Calling a word's function pointer `action()` (src/core.rs 766). -/
def action (c : Ctx) : Prim → M Unit
  | .core p => coreAction c p
  | .out p => outAction c p
  | .tool p => toolAction c p
  | .env p => envAction p
  | .flt p => floatAction c p
  | .unit p => unitAction c p
  | .file p => fileAction c p
  | .load p => loadAction c p
  | .receive => pReceive c

/-- src/core.rs 763-770 `execute_word`. The first argument is how deep native recursion may still
go (`execute`, immediate words and `abort_with` call `execute_word` again). -/
def execWord (cfg : Cfg) : Nat → Nat → M Unit
  | 0, _ => fault .nativeOverflow
  | depth + 1, i => do
    modSt fun st => { st with wp := i }
    let wl ← getWl
    match wl.words[i]? with
    | some w => action { cfg := cfg, ex := execWord cfg depth } w.action
    | none => abortWith { cfg := cfg, ex := execWord cfg depth } .unsupportedOperation

/-- The environment of functions called from outside any word, with native recursion depth
`depth`. -/
def ctx (cfg : Cfg) (depth : Nat) : Ctx := { cfg := cfg, ex := execWord cfg depth }

/-- The test of src/core.rs 803 and 818: `start <= ip && ip + 8 <= limit`. -/
def ipOk (oc : Bool) (d : DataSpace) (ip : Nat) : Except Fault Bool := rangeOk oc d ip 8

/-- src/core.rs 816-830 `forth`, one step of the inner interpreter: false when it stops. -/
def step (cfg : Cfg) (depth : Nat) : M Bool := do
  let st ← getSt
  let ok ← dsRd fun d => ipOk cfg.overflowChecks d st.ip
  if ok then do
    let w ← dsRd fun d => d.getCell st.ip
    let p ← liftE (uadd cfg.overflowChecks st.ip 8)
    setIp p
    execWord cfg depth w.toNat
    pure true
  else pure false

/-- src/core.rs 801-811 `run`: step until it stops. -/
def run (cfg : Cfg) (depth : Nat) : Nat → M Unit
  | 0 => fault .outOfFuel
  | fuel + 1 => do
    let more ← step cfg depth
    if more then run cfg depth fuel else pure ()

/-- src/core.rs 2044-2054: compile or interpret the token according to the state. -/
def evalToken (c : Ctx) : M Unit := do
  let st ← getSt
  if st.isCompiling then compileToken c else interpretToken c

/-- src/core.rs 2034-2062 `evaluate_input`. -/
def evaluateInput (cfg : Cfg) (depth : Nat) : Nat → M Unit
  | 0 => fault .outOfFuel
  | fuel + 1 => do
    parseWord
    let s ← getVM
    if s.tkn = some [] then pure ()
    else do
      evalToken (ctx cfg depth)
      let e ← getError
      if e.isSome then pure ()
      else do
        run cfg depth fuel
        checkStacks (ctx cfg depth)
        let e ← getError
        if e.isSome then pure () else evaluateInput cfg depth fuel

end Verif
