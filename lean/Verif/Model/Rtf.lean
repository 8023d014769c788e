import Verif.Model.Boot
import Verif.Model.RtfFth

/-!
# The program rtf (rtf/src/main.rs)
-/

namespace Verif

/-- rtf/src/main.rs 137-140, src/loader.rs 200-206: the program panics if loading a text ended with an exception. -/
def mustLoad (cfg : Cfg) (depth fuel : Nat) (script : List Char) : M Unit := do
  loadStr cfg depth fuel script
  let e ← getError
  match e with
  | some _ => fault .panic
  | none => pure ()

/-- rtf/src/main.rs 95-146 `VM::new`: as src/mock_vm.rs 82-122 does it, with one word more, and a second text. -/
def VM.rtf (cfg : Cfg) (depth fuel start cap : Nat) : Except Fault VM :=
  match (do
    addAll (ctx cfg depth)
    addPrimitive (ctx cfg depth) (ascii "receive") .receive
    mustLoad cfg depth fuel coreFth.toList
    mustLoad cfg depth fuel rtfFth.toList
    flushOutput) (VM.blank start cap) with
  | .ok (_, s) => .ok s
  | .error e => .error e

/-- rtf/src/main.rs 358-363 `repl`. -/
def repl (cfg : Cfg) (depth fuel : Nat) : M Unit := do
  let cold ← findE (ctx cfg depth) "COLD"
  execWord cfg depth cold
  run cfg depth fuel
  flushOutput

end Verif
