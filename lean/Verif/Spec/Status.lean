import Verif.Spec.Words
import Verif.Spec.Printing

/-!
# Specification of the words that report or set the state of the machine

Nothing here refers to the modelled implementation of the words.
-/

namespace Verif.Spec
open Verif

/-- The words that push one number, and the number. Times come from a clock in nanoseconds. -/
def reports : List (String × (VM → Int)) := [
  ("max-n", fun _ => 2 ^ 63 - 1),
  ("max-u", fun _ => 2 ^ 64 - 1),
  ("mtime", fun s => (s.now / 10 ^ 6 : Nat)),
  ("utime", fun s => (s.now / 10 ^ 3 : Nat)),
  ("me", fun s => s.cur.val + 1),
  ("compiling?", fun s => if s.task.st.isCompiling then -1 else 0),
  ("token-empty?", fun s => if s.tkn.getD [] = [] then -1 else 0),
  ("source-id", fun s => s.task.st.sourceId.toInt),
  ("source-idx", fun s => s.task.st.sourceIndex),
  ("here", fun s => s.ds.start + s.ds.len),
  ("base", fun s => s.ds.start + 8),
  ("error", fun s => match s.lastError with | some e => e.code | none => 0)]

/-- The words that compute an address or a size from one, in exact arithmetic. -/
def addresses : List (String × (Int → Int)) := [
  ("char+", (· + 1)), ("cell+", (· + 8)), ("cells", (· * 8)), ("float+", (· + 8)), ("floats", (· * 8))]

/-- The words without operands that set something, and what they do to the machine. -/
def settings : List (String × (VM → VM)) := [
  ("[", fun s => s.setTask { s.task with st := { s.task.st with isCompiling := false } }),
  ("]", fun s => s.setTask { s.task with st := { s.task.st with isCompiling := true } }),
  ("bye", fun s => s.setTask { s.task with st := { s.task.st with ip := 0 } }),
  ("0error", fun s => { s with lastError := none }),
  ("0labels", fun s => { s with forward := [], resolved := [] })]

/-- The words that take a number, and what they do with it to the machine after it is taken. -/
def takers : List (String × (Cell → VM → VM)) := [
  ("handler!", fun v s => { s with handler := v.toNat }),
  ("source-idx!", fun v s => s.setTask { s.task with st := { s.task.st with sourceIndex := v.toNat } })]

/-- The source of a number is there: the terminal, or an open source. -/
def SourceThere (s : VM) (v : Cell) : Prop :=
  v = 0 ∨ 0 < v.toInt ∧ (∃ x, s.task.sources[v.toNat - 1]? = some (some x)) ∧
    ∃ y, s.task.lines[v.toNat - 1]? = some (some y)

/-- The words that only print, and the text. -/
def texts : List (String × (VM → List Byte)) := [
  (".token", fun s => utf8 (s.tkn.getD [])),
  (".error", fun s => match s.lastError with | some e => ascii (description e) | none => []),
  (".memory", fun s => ascii "data space capacity: " ++ digits 10 s.ds.cap ++ ascii ", used: " ++
    digits 10 s.ds.len ++ ascii ", start: 0x" ++ digits 16 s.ds.start ++ ascii ", limit: 0x" ++
    digits 16 s.ds.limit ++ ascii ", here: 0x" ++ digits 16 (s.ds.start + s.ds.len) ++ [10])]

/-- A task as `activate` and `reset` leave it: no return addresses, reading its own empty line from the
start, interpreting. -/
def fresh (t : Task) : Task :=
  { t with r := t.r.reset, inbuf := t.inbuf.map fun _ => [],
           st := { t.st with sourceId := 0, sourceIndex := 0, abortedWp := 0, isCompiling := false } }

end Verif.Spec
