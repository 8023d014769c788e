import Verif.Model.Memory
import Verif.Model.Stack
import Verif.Model.Exception
import Verif.Model.Word

/-!
# Machine state and the effect monad

src/core.rs 365-472, src/mock_vm.rs (the same shape as rtf/src/main.rs).
-/

namespace Verif

/-- src/core.rs 437-448 `Control`. -/
inductive Control where
  | default
  | canary
  | if_ (a : Nat)
  | else_ (a : Nat)
  | begin_ (a : Nat)
  | while_ (a : Nat)
  | do_ (a b : Nat)
  | case_
  | of_ (a : Nat)
  | endof (a : Nat)
  deriving DecidableEq, Repr

/-- src/core.rs 366-384 `ForwardReferences`. -/
structure Refs where
  lit : Nat := 0
  flit : Nat := 0
  exit : Nat := 0
  zeroBranch : Nat := 0
  branch : Nat := 0
  doRt : Nat := 0
  qdoRt : Nat := 0
  loopRt : Nat := 0
  plusLoopRt : Nat := 0
  sQuote : Nat := 0
  type : Nat := 0
  over : Nat := 0
  equal : Nat := 0
  drop : Nat := 0
  postponeRt : Nat := 0
  toR : Nat := 0
  doesRt : Nat := 0
  deriving DecidableEq, Repr

/-- src/core.rs 410-417 `State` (per task). -/
structure St where
  isCompiling : Bool := false
  ip : Nat := 0
  wp : Nat := 0
  abortedWp : Nat := 0
  sourceIndex : Nat := 0
  sourceId : Cell := 0
  deriving DecidableEq, Repr

/-- An open host file (`std::fs::File`): which file, the position, and the access mode. -/
structure Handle where
  ino : Nat
  pos : Nat
  rd : Bool
  wr : Bool
  deriving DecidableEq, Repr

/-- src/loader.rs 11-14 `Source`. The `BufReader` is modelled without its read-ahead: a line is read
from the file at the handle's position. -/
structure Source where
  file : Handle
  path : List Byte
  deriving DecidableEq, Repr

/-- src/mock_vm.rs 24-35 `Task`. -/
structure Task where
  awake : Bool
  st : St
  s : Stack Cell
  r : Stack Cell
  c : Stack Control
  f : Stack F64
  inbuf : Option (List Char)
  files : List (Option Handle)
  sources : List (Option Source)
  lines : List (Option (List Char))

/-- The guard value of the data and return stacks, src/mock_vm.rs 43-44. -/
def cellCanary : Cell := 0x12345678

/-- The guard value of the float stack: the bits of `1.234567890`, src/mock_vm.rs 46. -/
def f64Canary : F64 := 0x3FF3C0CA4283DE1B

/-- src/mock_vm.rs 39-52 `new_background`. -/
def Task.newBackground : Task :=
  { awake := false, st := {}, s := Stack.new cellCanary, r := Stack.new cellCanary,
    c := Stack.new .canary, f := Stack.new f64Canary, inbuf := none, files := [], sources := [],
    lines := [] }

/-- src/mock_vm.rs 55-59 `new_terminal`. -/
def Task.newTerminal : Task := { Task.newBackground with inbuf := some [] }

/-- Host file system: a directory from path to file number, and file contents. -/
structure Host where
  dir : List Byte → Option Nat
  content : Nat → List Byte
  nextIno : Nat
  /-- number of host calls made so far, the argument of `Cfg.ioFails` -/
  calls : Nat

/-- src/mock_vm.rs 63-78 `VM`, plus the host file system and what has been printed on standard
output and standard error. Output buffers hold bytes. The two bit sets are lists of members. -/
structure VM where
  cur : Fin 5
  tasks : Fin 5 → Task
  lastError : Option Exn
  handler : Nat
  wl : Wordlist
  ds : DataSpace
  tkn : Option (List Char)
  outbuf : Option (List Byte)
  hldbuf : List Byte
  refs : Refs
  now : Nat
  forward : List Nat
  resolved : List Nat
  labels : List Nat
  host : Host
  stdout : List Byte
  stderr : List Byte

namespace VM

/-- `self.tasks[self.current_task]` (src/mock_vm.rs 158-217). -/
def task (s : VM) : Task := s.tasks s.cur

/-- Replace the current task. -/
def setTask (s : VM) (t : Task) : VM :=
  { s with tasks := fun i => if i = s.cur then t else s.tasks i }

/-- Replace any task. -/
def setTaskAt (s : VM) (k : Fin 5) (t : Task) : VM :=
  { s with tasks := fun i => if i = k then t else s.tasks i }

end VM

/-- A Rust method on `&mut self`: a new state and a result, or a fault. -/
def M (α : Type) := VM → Except Fault (α × VM)

namespace M

/-- Return a value. -/
protected def pure {α : Type} (a : α) : M α := fun s => .ok (a, s)

/-- Sequencing. -/
protected def bind {α β : Type} (m : M α) (k : α → M β) : M β := fun s =>
  match m s with
  | .ok (a, s') => k a s'
  | .error e => .error e

instance : Monad M where
  pure := M.pure
  bind := M.bind

end M

/-- The current state. -/
def getVM : M VM := fun s => .ok (s, s)

/-- Change the state. -/
def modVM (f : VM → VM) : M Unit := fun s => .ok ((), f s)

/-- Stop with a fault. -/
def fault {α : Type} (e : Fault) : M α := fun _ => .error e

/-- A computation that may fault but does not touch the state. -/
def liftE {α : Type} (x : Except Fault α) : M α := fun s =>
  match x with
  | .ok a => .ok (a, s)
  | .error e => .error e

/-- The current task. -/
def getTask : M Task := fun s => .ok (s.task, s)

/-- Change the current task. -/
def modTask (f : Task → Task) : M Unit := modVM fun s => s.setTask (f s.task)

/-- `self.state()` (src/mock_vm.rs 215). -/
def getSt : M St := fun s => .ok (s.task.st, s)

/-- Assignment to a field of `self.state()`. -/
def modSt (f : St → St) : M Unit := modTask fun t => { t with st := f t.st }

/-- `self.data_space()` as a value. -/
def getDs : M DataSpace := fun s => .ok (s.ds, s)

/-- A data-space operation that may fault. -/
def dsOp (f : DataSpace → Except Fault DataSpace) : M Unit := fun s =>
  match f s.ds with
  | .ok d => .ok ((), { s with ds := d })
  | .error e => .error e

/-- A read from the data space. -/
def dsRd {α : Type} (f : DataSpace → Except Fault α) : M α := fun s =>
  match f s.ds with
  | .ok a => .ok (a, s)
  | .error e => .error e

/-- `self.s_stack().push(v)`. -/
def sPush (v : Cell) : M Unit := modTask fun t => { t with s := t.s.push v }
/-- `self.s_stack().push2(a, b)`. -/
def sPush2 (a b : Cell) : M Unit := modTask fun t => { t with s := t.s.push2 a b }
/-- `self.s_stack().push3(a, b, c)`. -/
def sPush3 (a b c : Cell) : M Unit := modTask fun t => { t with s := t.s.push3 a b c }
/-- `self.s_stack().pop()`. -/
def sPop : M Cell := fun s =>
  .ok (s.task.s.pop.1, s.setTask { s.task with s := s.task.s.pop.2 })
/-- `self.s_stack().pop2()`. -/
def sPop2 : M (Cell × Cell) := fun s =>
  .ok (s.task.s.pop2.1, s.setTask { s.task with s := s.task.s.pop2.2 })
/-- `self.s_stack().pop3()`. -/
def sPop3 : M (Cell × Cell × Cell) := fun s =>
  .ok (s.task.s.pop3.1, s.setTask { s.task with s := s.task.s.pop3.2 })
/-- `self.r_stack().push(v)`. -/
def rPush (v : Cell) : M Unit := modTask fun t => { t with r := t.r.push v }
/-- `self.r_stack().push2(a, b)`. -/
def rPush2 (a b : Cell) : M Unit := modTask fun t => { t with r := t.r.push2 a b }
/-- `self.r_stack().push3(a, b, c)`. -/
def rPush3 (a b c : Cell) : M Unit := modTask fun t => { t with r := t.r.push3 a b c }
/-- `self.r_stack().pop()`. -/
def rPop : M Cell := fun s =>
  .ok (s.task.r.pop.1, s.setTask { s.task with r := s.task.r.pop.2 })
/-- `self.r_stack().pop2()`. -/
def rPop2 : M (Cell × Cell) := fun s =>
  .ok (s.task.r.pop2.1, s.setTask { s.task with r := s.task.r.pop2.2 })
/-- `self.r_stack().pop3()`. -/
def rPop3 : M (Cell × Cell × Cell) := fun s =>
  .ok (s.task.r.pop3.1, s.setTask { s.task with r := s.task.r.pop3.2 })
/-- `self.c_stack().push(v)`. -/
def cPush (v : Control) : M Unit := modTask fun t => { t with c := t.c.push v }
/-- `self.c_stack().pop()`. -/
def cPop : M Control := fun s =>
  .ok (s.task.c.pop.1, s.setTask { s.task with c := s.task.c.pop.2 })
/-- `self.f_stack().push(v)`. -/
def fPush (v : F64) : M Unit := modTask fun t => { t with f := t.f.push v }
/-- `self.f_stack().push2(a, b)`. -/
def fPush2 (a b : F64) : M Unit := modTask fun t => { t with f := t.f.push2 a b }
/-- `self.f_stack().push3(a, b, c)`. -/
def fPush3 (a b c : F64) : M Unit := modTask fun t => { t with f := t.f.push3 a b c }
/-- `self.f_stack().pop()`. -/
def fPop : M F64 := fun s =>
  .ok (s.task.f.pop.1, s.setTask { s.task with f := s.task.f.pop.2 })
/-- `self.f_stack().pop2()`. -/
def fPop2 : M (F64 × F64) := fun s =>
  .ok (s.task.f.pop2.1, s.setTask { s.task with f := s.task.f.pop2.2 })
/-- `self.f_stack().pop3()`. -/
def fPop3 : M (F64 × F64 × F64) := fun s =>
  .ok (s.task.f.pop3.1, s.setTask { s.task with f := s.task.f.pop3.2 })

/-- `self.wordlist()[i]`: panics when out of range (src/core.rs 175-180). -/
def wordAt (i : Nat) : M Word := fun s =>
  match s.wl.words[i]? with
  | some w => .ok (w, s)
  | none => .error .panic

/-- Assignment through `self.wordlist_mut()[i]` (src/core.rs 183-188). -/
def modWord (i : Nat) (f : Word → Word) : M Unit := fun s =>
  match s.wl.words[i]? with
  | some w => .ok ((), { s with wl := { s.wl with words := s.wl.words.set i (f w) } })
  | none => .error .panic

/-- `self.wordlist()` as a value. -/
def getWl : M Wordlist := fun s => .ok (s.wl, s)

/-- `self.references()` as a value. -/
def getRefs : M Refs := fun s => .ok (s.refs, s)

/-- What a primitive needs besides the state: the build parameters and `execute_word`
(src/core.rs 763), supplied by `Verif.Model.Exec` as open recursion. -/
structure Ctx where
  cfg : Cfg
  ex : Nat → M Unit

/-- Whether plain arithmetic is overflow-checked. -/
abbrev Ctx.oc (c : Ctx) : Bool := c.cfg.overflowChecks

/-- `self.set_error(e)` (src/mock_vm.rs 134). -/
def setError (e : Option Exn) : M Unit := modVM fun s => { s with lastError := e }

/-- `self.last_error()` (src/mock_vm.rs 131). -/
def getError : M (Option Exn) := fun s => .ok (s.lastError, s)

/-- src/core.rs 3123-3127 `clear_stacks`: data, float and control stacks; not the return stack. -/
def clearStacks : M Unit := modTask fun t => { t with s := t.s.reset, f := t.f.reset, c := t.c.reset }

/-- src/core.rs 3195-3202 `abort_with`. -/
def abortWith (c : Ctx) (e : Exn) : M Unit := do
  clearStacks
  setError (some e)
  modSt fun st => { st with abortedWp := st.wp }
  let s ← getVM
  c.ex s.handler

end Verif
