import Verif.Model.Stack

/-!
# Specification of a stack: a last-in first-out list
-/

namespace Verif

/-- The content of a stack as a list, top first: the reverse of what the API's `as_slice` shows. -/
def Stack.items {α : Type} (st : Stack α) : List α := st.asList.reverse

/-- Calls of the stack API. -/
inductive StackOp (α : Type) where
  | push (a : α)
  | push2 (a b : α)
  | push3 (a b c : α)
  | pop
  | pop2
  | pop3
  | last
  | get (i : Nat)
  | len
  | reset

/-- What a call returns. -/
inductive StackOut (α : Type) where
  | unit
  | val (a : α)
  | val2 (a b : α)
  | val3 (a b c : α)
  | num (n : Nat)
  deriving DecidableEq

/-- The abstract stack: a list with the top at the head. `none` when the call takes more than is
there. `get i` counts from the bottom. A pair or triple is given deepest first. -/
def specStack {α : Type} : List α → StackOp α → Option (List α × StackOut α)
  | l, .push a => some (a :: l, .unit)
  | l, .push2 a b => some (b :: a :: l, .unit)
  | l, .push3 a b c => some (c :: b :: a :: l, .unit)
  | a :: l, .pop => some (l, .val a)
  | b :: a :: l, .pop2 => some (l, .val2 a b)
  | c :: b :: a :: l, .pop3 => some (l, .val3 a b c)
  | a :: l, .last => some (a :: l, .val a)
  | l, .get i => match l.reverse[i]? with
    | some a => some (l, .val a)
    | none => none
  | l, .len => some (l, .num l.length)
  | _, .reset => some ([], .unit)
  | _, _ => none

/-- A sequence of calls on the abstract stack, all allowed, never holding more than `cap`. -/
def specStackRun {α : Type} (cap : Nat) :
    List α → List (StackOp α) → Option (List α × List (StackOut α))
  | l, [] => some (l, [])
  | l, op :: ops =>
    match specStack l op with
    | none => none
    | some (l', o) =>
      if l'.length ≤ cap then
        match specStackRun cap l' ops with
        | some (l'', os) => some (l'', o :: os)
        | none => none
      else none

/-- The same calls on the modelled ring buffer. -/
def Stack.call {α : Type} (st : Stack α) : StackOp α → Stack α × StackOut α
  | .push a => (st.push a, .unit)
  | .push2 a b => (st.push2 a b, .unit)
  | .push3 a b c => (st.push3 a b c, .unit)
  | .pop => (st.pop.2, .val st.pop.1)
  | .pop2 => (st.pop2.2, .val2 st.pop2.1.1 st.pop2.1.2)
  | .pop3 => (st.pop3.2, .val3 st.pop3.1.1 st.pop3.1.2.1 st.pop3.1.2.2)
  | .last => (st, .val st.last)
  | .get i => (st, .val (st.get (BitVec.ofNat 8 i)))
  | .len => (st, .num st.len.toNat)
  | .reset => (st.reset, .unit)

/-- A sequence of calls on the modelled ring buffer. -/
def Stack.calls {α : Type} (st : Stack α) : List (StackOp α) → Stack α × List (StackOut α)
  | [] => (st, [])
  | op :: ops =>
    let r := st.call op
    let r' := Stack.calls r.1 ops
    (r'.1, r.2 :: r'.2)

end Verif

namespace Verif.Spec
open Verif

/-- An unbounded stack that may also be popped below its bottom: a tape of cells indexed by
integers and a depth. `tape i = some v` means `v` was the last value written at place `i` (place 0 is
the bottom, place 64 is the 65th item). -/
structure Tape (α : Type) where
  tape : Int → Option α
  depth : Int

namespace Tape
variable {α : Type}

/-- Nothing written, depth 0. -/
def empty : Tape α := ⟨fun _ => none, 0⟩

/-- Write at the current place and go up. -/
def push (t : Tape α) (a : α) : Tape α :=
  ⟨fun i => if i = t.depth then some a else t.tape i, t.depth + 1⟩

/-- One call. -/
def step (t : Tape α) : StackOp α → Tape α
  | .push a => t.push a
  | .push2 a b => (t.push a).push b
  | .push3 a b c => ((t.push a).push b).push c
  | .pop => { t with depth := t.depth - 1 }
  | .pop2 => { t with depth := t.depth - 2 }
  | .pop3 => { t with depth := t.depth - 3 }
  | .last => t
  | .get _ => t
  | .len => t
  | .reset => empty

/-- A history of calls. -/
def run (t : Tape α) : List (StackOp α) → Tape α
  | [] => t
  | op :: ops => (t.step op).run ops

/-- After every call of the history the depth is between `lo` and `hi`. -/
def Within (lo hi : Int) (t : Tape α) : List (StackOp α) → Prop
  | [] => lo ≤ t.depth ∧ t.depth ≤ hi
  | op :: ops => lo ≤ t.depth ∧ t.depth ≤ hi ∧ Within lo hi (t.step op) ops

/-- Some value other than `g` is (still) written at place `i`. -/
def Marked (t : Tape α) (g : α) (i : Int) : Prop := ∃ v, t.tape i = some v ∧ v ≠ g

end Tape
end Verif.Spec
