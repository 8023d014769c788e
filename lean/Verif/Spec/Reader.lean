import Verif.Spec.Library
import Verif.Spec.Source
import Verif.Spec.Quoting

/-!
# The interpreter of core.fth

core.fth 119-125 defines `evaluate-input`, which does in Forth what `evaluate_input` (src/core.rs 2034-2062) does
in Rust.
-/

namespace Verif.Spec
open Verif

/-- The definition of core.fth 119-125. -/
def readerCode (ix : String → Nat) : List (String × Stmt) := [
  ("evaluate-input", code ix [Stmt.whileLoop (code ix ["parse-word", "token-empty?", "not"])
    (code ix ["compiling?", Stmt.ifElse (code ix ["compile-token", "?stacks"]) (code ix ["interpret-token", "?stacks"])])])]

/-- The built-in words it uses. -/
def readerUses : List String :=
  ["parse-word", "token-empty?", "not", "compiling?", "compile-token", "interpret-token", "?stacks"]

/-- The machine has this word, with its code in `[lo, hi)`. -/
structure HasReader (lv lo hi : Nat) (ix : String → Nat) (s : VM) : Prop where
  words : Runtime s.refs lv s.wl
  region : Region s.ds lo hi
  uses : ∀ name, name ∈ readerUses → Builtin s.wl (ix name) name
  coded : Coded s.refs lv s.wl lo hi s.ds ix (readerCode ix)

/-- Evaluating the current token on any machine like `a` leads, without an exception and after some steps, to a
machine like `b` with the instruction pointer where it was. -/
def TokenActs (cfg : Cfg) (depth : Nat) (a b : VM) : Prop :=
  ∀ s1, Like s1 a → pc s1 < 2 ^ 64 → ∃ s2 t1, evalToken (ctx cfg depth) s1 = .ok ((), s2) ∧
    s2.lastError = s1.lastError ∧ Steps cfg depth s2 t1 ∧ Like t1 b ∧ pc t1 = pc s1

/-- Evaluating the current token leads from `a` to `b` whatever is on the return stack, if it has room for `room` more
items, and leaves the stacks in order. -/
structure Evaluates (cfg : Cfg) (depth room : Nat) (a b : VM) : Prop where
  acts : ∀ r : List Cell, r.length + room ≤ capacity → TokenActs cfg depth (setRet a r) (setRet b r)
  error : b.lastError = a.lastError
  room : (data b).length < capacity
  calm : Calm b.task.s ∧ Calm b.task.r ∧ Calm b.task.c ∧ Calm b.task.f

/-- The tokens of the input are `toks`; evaluating one after the other leads from `s` to `t`. `L` holds between tokens. -/
inductive Works (cfg : Cfg) (depth room : Nat) (L : VM → Prop) : List (List Char) → VM → VM → Prop
  | done {s : VM} {pre bs more : List Char} : Next s pre bs [] more → Works cfg depth room L [] s (took s pre bs [])
  | token {s b t : VM} {pre bs tok more : List Char} {toks : List (List Char)} : Next s pre bs tok more → tok ≠ [] →
      Evaluates cfg depth room (took s pre bs tok) b → L b → Works cfg depth room L toks b t →
      Works cfg depth room L (tok :: toks) s t

/-- The memory with one more cell in use. -/
def appended (d : DataSpace) (v : Cell) : DataSpace := { d.setCell d.here v with len := d.len + 8 }

end Verif.Spec
