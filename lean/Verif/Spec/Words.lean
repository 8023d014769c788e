import Verif.Model.Boot
import Verif.Spec.Stack

/-!
# Specification of the stack words

Stack comments as functions on lists of cells, top first. `none` means the operands are not there.
Nothing here refers to the modelled implementation; `primOf` only looks a name up in the table of
words that the machine is built from.
-/

namespace Verif.Spec
open Verif

/-- A mathematical integer as a 64-bit cell, wrapping around. -/
def wrap (i : Int) : Cell := BitVec.ofInt 64 i

/-- Forth truth values. -/
def truth (p : Prop) [Decidable p] : Cell := if p then wrap (-1) else wrap 0

/-- A stack effect. -/
abbrev Effect := List Cell → Option (List Cell)

/-- `( n1 -- n2 )` -/
def unary (f : Cell → Cell) : Effect
  | a :: l => some (f a :: l)
  | _ => none

/-- `( n1 n2 -- n3 )` -/
def binary (f : Cell → Cell → Cell) : Effect
  | b :: a :: l => some (f a b :: l)
  | _ => none

/-- The documented stack effects. -/
def effects : List (String × Effect) := [
  ("noop", fun l => some l),
  ("dup", fun | a :: l => some (a :: a :: l) | _ => none),
  ("drop", fun | _ :: l => some l | _ => none),
  ("swap", fun | b :: a :: l => some (a :: b :: l) | _ => none),
  ("over", fun | b :: a :: l => some (a :: b :: a :: l) | _ => none),
  ("nip", fun | b :: _ :: l => some (b :: l) | _ => none),
  ("rot", fun | c :: b :: a :: l => some (a :: c :: b :: l) | _ => none),
  ("-rot", fun | c :: b :: a :: l => some (b :: a :: c :: l) | _ => none),
  ("pick", fun | n :: l => (l[n.toNat]?).map (· :: l) | _ => none),
  ("2dup", fun | b :: a :: l => some (b :: a :: b :: a :: l) | _ => none),
  ("2drop", fun | _ :: _ :: l => some l | _ => none),
  ("2swap", fun | d :: c :: b :: a :: l => some (b :: a :: d :: c :: l) | _ => none),
  ("2over", fun | d :: c :: b :: a :: l => some (b :: a :: d :: c :: b :: a :: l) | _ => none),
  ("depth", fun l => some (wrap l.length :: l)),
  ("true", fun l => some (wrap (-1) :: l)),
  ("false", fun l => some (wrap 0 :: l)),
  ("1+", unary fun a => wrap (a.toInt + 1)),
  ("1-", unary fun a => wrap (a.toInt - 1)),
  ("+", binary fun a b => wrap (a.toInt + b.toInt)),
  ("-", binary fun a b => wrap (a.toInt - b.toInt)),
  ("*", binary fun a b => wrap (a.toInt * b.toInt)),
  ("abs", unary fun a => wrap a.toInt.natAbs),
  ("negate", unary fun a => wrap (-a.toInt)),
  ("=", binary fun a b => truth (a = b)),
  ("<>", binary fun a b => truth (a ≠ b)),
  ("<", binary fun a b => truth (a.toInt < b.toInt)),
  (">", binary fun a b => truth (a.toInt > b.toInt)),
  ("0=", unary fun a => truth (a.toInt = 0)),
  ("not", unary fun a => truth (a.toInt = 0)),
  ("0<>", unary fun a => truth (a.toInt ≠ 0)),
  ("0<", unary fun a => truth (a.toInt < 0)),
  ("0>", unary fun a => truth (a.toInt > 0)),
  ("within", fun
    | hi :: lo :: x :: l => some (truth (lo.toInt ≤ x.toInt ∧ x.toInt < hi.toInt) :: l)
    | _ => none),
  ("invert", unary fun a => wrap (-1 - a.toInt)),
  ("and", binary fun a b => BitVec.ofNat 64 (a.toNat &&& b.toNat)),
  ("or", binary fun a b => BitVec.ofNat 64 (a.toNat ||| b.toNat)),
  ("xor", binary fun a b => BitVec.ofNat 64 (a.toNat ^^^ b.toNat)),
  ("lshift", binary fun a u => BitVec.ofNat 64 (a.toNat * 2 ^ (u.toNat % 64))),
  ("rshift", binary fun a u => BitVec.ofNat 64 (a.toNat / 2 ^ (u.toNat % 64)))]

/-- The words whose result is a truth value. -/
def comparisons : List String := ["=", "<>", "<", ">", "0=", "not", "0<>", "0<", "0>", "within"]

/-- All words the machine is built with, src/mock_vm.rs 109-117. -/
def allEntries : List Entry :=
  coreTable1 ++ coreTable2 ++ outputTable ++ toolsTable ++ envTable ++ facilityTable ++ floatTable ++
    unitsTable ++ fileTable ++ loaderTable

/-- The function behind a name in the table of words. -/
def primOf (name : String) : Option Prim := (allEntries.find? (·.name == name)).map Entry.action

/-- Same machine, data stack replaced. -/
def withData (s : VM) (st : Stack Cell) : VM := s.setTask { s.task with s := st }

end Verif.Spec

namespace Verif.Spec
open Verif

/-- A number or a word of the effect table. -/
inductive Token where
  | lit (v : Cell)
  | word (name : String)

/-- The effect of a token. -/
def Token.effect : Token → Effect
  | .lit v => fun l => some (v :: l)
  | .word n => fun l => match effects.lookup n with
    | some e => e l
    | none => none

/-- The effect of a sequence of tokens that never holds more than `cap` items. -/
def tokensEffect (cap : Nat) : List Token → Effect
  | [], l => some l
  | t :: ts, l =>
    match t.effect l with
    | some l' => if l'.length ≤ cap then tokensEffect cap ts l' else none
    | none => none

/-- Execute a token on the machine. -/
def Token.exec (c : Ctx) : Token → M Unit
  | .lit v => sPush v
  | .word n => match primOf n with
    | some p => action c p
    | none => pure ()

/-- Execute tokens one after the other. -/
def execTokens (c : Ctx) : List Token → M Unit
  | [] => pure ()
  | t :: ts => do t.exec c; execTokens c ts

/-- A stack whose whole history kept its depth within 0..64. -/
def Tame {α : Type} (st : Stack α) : Prop :=
  ∃ (g : α) (ops : List (StackOp α)),
    (Tape.empty : Tape α).Within 0 64 ops ∧ st = ((Stack.new g).calls ops).1

/-- Binary comparisons and the relation each decides. -/
def relations2 : List (String × (Int → Int → Prop)) := [
  ("=", fun a b => a = b), ("<>", fun a b => a ≠ b), ("<", fun a b => a < b), (">", fun a b => a > b)]

/-- Unary comparisons and the property each decides. -/
def relations1 : List (String × (Int → Prop)) := [
  ("0=", fun a => a = 0), ("not", fun a => a = 0), ("0<>", fun a => a ≠ 0),
  ("0<", fun a => a < 0), ("0>", fun a => a > 0)]

end Verif.Spec
