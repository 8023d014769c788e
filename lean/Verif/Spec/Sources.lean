import Verif.Spec.Library

/-!
# The stack of saved input sources

core.fth keeps it at `src-stack`: the capacity 16, the number of entries and the entries, an index and a source
each.
-/

namespace Verif.Spec
open Verif

/-- The definitions of core.fth 105-122. -/
def sourceCode (ix : String → Nat) : List (String × Stmt) := [
  ("save-source", code ix ["source-id", "source-idx", "src-stack", "2@", "over", ">", Stmt.ifElse
    (code ix ["1+", "dup", "src-stack", "cell+", "!", "2*", "cells", "src-stack", "+", "2!"])
    (code ix ["abort"])]),
  ("restore-source", code ix ["src-stack", "2@", "drop", "dup", 0, ">", Stmt.ifElse
    (code ix ["dup", "1-", "src-stack", "cell+", "!", "2*", "cells", "src-stack", "+", "2@", "source-idx!", "source-id!"])
    (code ix ["abort"])])]

/-- The built-in words they use. -/
def sourceUses : List String :=
  ["source-id", "source-idx", "source-idx!", "source-id!", "over", ">", "1+", "1-", "dup", "drop", "cell+", "!",
   "cells", "+", "abort"]

/-- The machine has these words, with their code in `[lo, hi)`, and the stack of saved sources at `A`, apart from all
code. -/
structure SavesSources (lv lo1 hi1 lo hi A : Nat) (ix : String → Nat) (s : VM) : Prop where
  equipped : Equipped lv lo1 hi1 ix s
  region : Region s.ds lo hi
  uses : ∀ name, name ∈ sourceUses → Builtin s.wl (ix name) name
  coded : Coded s.refs lv s.wl lo hi s.ds ix (sourceCode ix)
  place : ∃ w, s.wl.words[ix "src-stack"]? = some w ∧ w.action = .core .pVar ∧ w.dfa = A
  lower : s.ds.start < A
  upper : A + 272 ≤ s.ds.limit
  apart1 : A + 272 ≤ lo1 ∨ hi1 ≤ A
  apart2 : A + 272 ≤ lo ∨ hi ≤ A

/-- The memory holds the saved sources `l` at `A`, the last one first. -/
structure Saved (m : DataSpace) (A : Nat) (l : List (Cell × Cell)) : Prop where
  room : l.length ≤ 16
  capacity : m.cellAt A = 16
  count : m.cellAt (A + 8) = BitVec.ofNat 64 l.length
  entry : ∀ i e, l.reverse[i]? = some e → m.cellAt (A + 16 * (i + 1)) = e.2 ∧ m.cellAt (A + 16 * (i + 1) + 8) = e.1

/-- The source the running task reads, and where in it. -/
def source (s : VM) : Cell × Cell := (s.task.st.sourceId, BitVec.ofNat 64 s.task.st.sourceIndex)

/-- The machine reading another source. -/
def reading (s : VM) (e : Cell × Cell) : VM :=
  s.setTask { s.task with st := { s.task.st with sourceId := e.1, sourceIndex := e.2.toNat } }

/-- Memory after saving a source, the `c`-th one. -/
def withEntry (m : DataSpace) (A c : Nat) (x y : Cell) : DataSpace :=
  ((m.setCell (A + 8) (BitVec.ofNat 64 c)).setCell (A + 16 * c) y).setCell (A + 16 * c + 8) x

/-- The source can be read: it is the console, or a file that is open. -/
def Readable (s : VM) (id : Cell) : Prop :=
  id = 0 ∨ 0 < id.toInt ∧ (∃ f, s.task.sources[id.toNat - 1]? = some (some f)) ∧ ∃ b, s.task.lines[id.toNat - 1]? = some (some b)

/-- What is done with input sources: anything else, one thing after the other, or something between saving the source
and restoring it. -/
inductive Nest where
  | other (f : VM → VM)
  | seq (p q : Nest)
  | level (p : Nest)

/-- How deep the levels are. -/
def Nest.depth : Nest → Nat
  | .other _ => 0
  | .seq p q => max p.depth q.depth
  | .level p => p.depth + 1

/-- It leads from `s` to `t`. -/
def Nest.Performs (cfg : Cfg) (n : Nat) (ix : String → Nat) : Nest → VM → VM → Prop
  | .other f, s, t => t = f s
  | .seq p q, s, u => ∃ t, p.Performs cfg n ix s t ∧ q.Performs cfg n ix t u
  | .level p, s, v => ∃ t u, Acts cfg n (ix "save-source") s t ∧ p.Performs cfg n ix t u ∧ Acts cfg n (ix "restore-source") u v

/-- The machine has saved the sources `l`, reads a source that is open and has room on its stacks. -/
structure Ordered (lv lo1 hi1 lo hi A : Nat) (ix : String → Nat) (s : VM) (l : List (Cell × Cell)) : Prop where
  saves : SavesSources lv lo1 hi1 lo hi A ix s
  saved : Saved s.ds A l
  opened : Readable s (source s).1
  room : (data s).length + 7 ≤ capacity
  space : (ret s).length + 3 ≤ capacity

/-- The other things leave the code and the saved sources alone and close no source. -/
def Nest.Polite (lv lo1 hi1 lo hi A : Nat) (ix : String → Nat) : Nest → Prop
  | .other f => ∀ s l, Ordered lv lo1 hi1 lo hi A ix s l → Ordered lv lo1 hi1 lo hi A ix (f s) l ∧ ∀ x, Readable s x → Readable (f s) x
  | .seq p q => p.Polite lv lo1 hi1 lo hi A ix ∧ q.Polite lv lo1 hi1 lo hi A ix
  | .level p => p.Polite lv lo1 hi1 lo hi A ix

end Verif.Spec
