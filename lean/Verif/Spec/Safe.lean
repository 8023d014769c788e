import Verif.Spec.Source
import Verif.Spec.Errors

/-!
# Words that cannot crash
-/

namespace Verif.Spec
open Verif

/-- Words that cannot crash the interpreter, whatever is on the stacks: stack, arithmetic, comparison, logic and
return-stack words, fetching a byte, floats, units, asking the machine, some output, and raising errors. -/
def safe : Prim → Bool
  | .core p =>
    match p with
    | .noop | .unloop | .toR | .rFrom | .rFetch | .twoToR | .twoRFrom | .twoRFetch
    | .dup | .drop | .swap | .over | .nip | .depth | .checkStacks
    | .zeroLess | .equals | .lessThan | .invert | .and | .or | .xor | .lshift | .rshift
    | .onePlus | .oneMinus | .minus | .plus | .star | .slashMod | .here | .cFetch | .base
    | .pTrue | .pFalse | .zeroEquals | .zeroGreater | .zeroNotEquals | .greaterThan | .notEquals
    | .within | .rot | .minusRot | .pick | .twoDup | .twoDrop | .twoSwap | .twoOver | .slash | .mod
    | .abs | .negate | .toBody | .toName | .error | .dotError | .clearError | .clearStacks | .abort
    | .compiling | .dotToken | .sourceId | .sourceIdx | .me => true
    | _ => false
  | .out .emit | .out .flushOutput | .tool .dotS => true
  | .env _ | .unit _ => true
  | .flt p =>
    match p with
    | .fconstant | .floatPlus | .floats | .faligned | .falign | .fstore | .ffetch | .pFconst => false
    | _ => true
  | _ => false

/-- `t` differs from `s` at most in the stacks, the pending error, what has been printed, and which word is executed. -/
structure Beside (s t : VM) : Prop where
  wl : t.wl = s.wl
  ds : t.ds = s.ds
  handler : t.handler = s.handler
  tkn : t.tkn = s.tkn
  refs : t.refs = s.refs
  cur : t.cur = s.cur
  mode : t.task.st.isCompiling = s.task.st.isCompiling
  ip : t.task.st.ip = s.task.st.ip
  sourceIndex : t.task.st.sourceIndex = s.task.st.sourceIndex
  sourceId : t.task.st.sourceId = s.task.st.sourceId
  inbuf : t.task.inbuf = s.task.inbuf
  lines : t.task.lines = s.task.lines

/-- A machine waiting for input, with anything on its stacks, and an error handler that does nothing. -/
structure Waiting (s : VM) : Prop where
  interpreting : s.task.st.isCompiling = false
  token : s.tkn.isSome = true
  idle : Idle s
  dict : Dict s
  space : SoundSpace s.ds
  handler : ∃ w, s.wl.words[s.handler]? = some w ∧ w.action = .core .noop

/-- Every token that is the name of a word is the name of a safe one. -/
def AllSafe (s : VM) (toks : List (List Char)) : Prop :=
  ∀ tok ∈ toks, ∀ i w, Newest s (utf8 tok) (some i) → s.wl.words[i]? = some w → safe w.action = true

end Verif.Spec
