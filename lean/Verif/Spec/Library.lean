import Verif.Spec.Basic
import Verif.Spec.Counted

/-!
# The library in core.fth

The definitions of core.fth as structured programs, and what they are documented to do. `ix` gives the numbers
of the words.
-/

namespace Verif.Spec
open Verif

/-- One program after the other. -/
def Stmt.all : List Stmt → Stmt
  | [] => .skip
  | p :: ps => .seq p (Stmt.all ps)

section
variable (ix : String → Nat)

/-- A number or the name of a word. -/
inductive Part where
  | num (v : Cell)
  | name (n : String)
  | stmt (p : Stmt)

instance : OfNat Part k := ⟨.num (BitVec.ofNat 64 k)⟩
instance : Coe String Part := ⟨.name⟩
instance : Coe Stmt Part := ⟨.stmt⟩

/-- A part as a program. -/
def Part.code : Part → Stmt
  | .num v => .lit v
  | .name n => .word (ix n)
  | .stmt p => p

/-- A sequence of parts as a program. -/
def code (l : List Part) : Stmt := Stmt.all (l.map (Part.code ix))

/-- The words of core.fth 1-37 that work on the stacks and on memory. -/
def library : List (String × Stmt) := [
  ("2*", code ix [2, "*"]),
  ("2/", code ix [2, "/"]),
  ("space", code ix [32, "emit"]),
  ("spaces", code ix [0, Stmt.whileLoop (code ix ["2dup", ">"]) (code ix ["1+", "space"]), "2drop"]),
  ("<=", code ix [">", "invert"]),
  (">=", code ix ["<", "invert"]),
  ("?dup", code ix ["dup", Stmt.ifThen (code ix ["dup"])]),
  ("tuck", code ix ["swap", "over"]),
  ("cr", code ix [10, "emit"]),
  ("2@", code ix ["dup", "cell+", "@", "swap", "@"]),
  ("2!", code ix ["swap", "over", "!", "cell+", "!"]),
  ("+!", code ix ["dup", "@", "rot", "+", "swap", "!"]),
  ("2,", code ix ["here", 2, "cells", "allot", "2!"]),
  ("max", code ix ["2dup", "<", Stmt.ifElse (code ix ["nip"]) (code ix ["drop"])]),
  ("min", code ix ["2dup", "<", Stmt.ifElse (code ix ["drop"]) (code ix ["nip"])]),
  ("c,", code ix ["here", 1, "allot", "c!"]),
  ("fill", code ix ["swap", "dup", "0>", Stmt.ifElse
    (code ix [">r", "swap", "r>", 0, Stmt.loop false false 0 (code ix ["2dup", "i", "+", "c!"])])
    (code ix ["drop"]), "2drop"]),
  ("count", code ix ["dup", "c@", "swap", 1, "+", "swap"]),
  ("/string", code ix ["dup", ">r", "-", "swap", "r>", "+", "swap"]),
  ("append", code ix ["2>r", "2r@", "count", "+", "swap", "move", "2r>", "dup", ">r", "c@", "+", "r>", "c!"]),
  ("on", code ix ["true", "swap", "!"]),
  ("off", code ix ["false", "swap", "!"])]

/-- The built-in words they use. -/
def libraryUses : List String :=
  ["*", "/", "emit", "2dup", ">", "1+", "2drop", "invert", "<", "dup", "swap", "over", "cell+", "@", "!", "rot", "+",
   "here", "cells", "allot", "nip", "drop", "0>", ">r", "r>", "i", "c!", "c@", "-", "2>r", "2r@", "move", "2r>",
   "true", "false"]

end

/-- Word `i` of `wl` is the built-in word of that name. -/
def Builtin (wl : Wordlist) (i : Nat) (name : String) : Prop :=
  ∃ w, wl.words[i]? = some w ∧ primOf name = some w.action

/-- The programs are colon definitions of `wl` with their code between `lo` and `hi`. -/
def Coded (R : Refs) (lv : Nat) (wl : Wordlist) (lo hi : Nat) (d : DataSpace) (ix : String → Nat)
    (defs : List (String × Stmt)) : Prop :=
  ∀ e, e ∈ defs → ∃ w, wl.words[ix e.1]? = some w ∧ w.action = .core .nest ∧ lo ≤ w.dfa ∧
    (Stmt.seq (e.2.place w.dfa) .exit).next w.dfa ≤ hi ∧ (Stmt.seq (e.2.place w.dfa) .exit).At R lv d w.dfa

/-- The library is there, and so are the words it uses. -/
structure Library (R : Refs) (lv : Nat) (wl : Wordlist) (lo hi : Nat) (d : DataSpace) (ix : String → Nat) : Prop where
  region : Region d lo hi
  uses : ∀ name, name ∈ libraryUses → Builtin wl (ix name) name
  coded : Coded R lv wl lo hi d ix (library ix)

/-- The machine `s` has the library, and the words that compiled code needs. -/
structure Equipped (lv lo hi : Nat) (ix : String → Nat) (s : VM) : Prop where
  words : Runtime s.refs lv s.wl
  library : Library s.refs lv s.wl lo hi s.ds ix

/-- The machine with `l` on the data stack and `m` as its memory. -/
def leaving (s : VM) (l : List Cell) (m : DataSpace) : VM := { setData s l with ds := m }

/-- The machine with more in its output buffer, if it has one. -/
def printed (s : VM) (bs : List Byte) : VM := { s with outbuf := s.outbuf.map (· ++ bs) }

/-- What the library words do that work on the data stack only. The number is how many more items than at the
beginning there may be at some time. -/
def libraryEffects : List (String × Nat × Effect) := [
  ("2*", 1, unary fun a => wrap (2 * a.toInt)),
  ("2/", 1, unary fun a => wrap (a.toInt.tdiv 2)),
  ("<=", 0, binary fun a b => truth (a.toInt ≤ b.toInt)),
  (">=", 0, binary fun a b => truth (a.toInt ≥ b.toInt)),
  ("?dup", 1, fun | a :: l => some (if a = 0 then a :: l else a :: a :: l) | _ => none),
  ("tuck", 1, fun | b :: a :: l => some (b :: a :: b :: l) | _ => none),
  ("max", 2, binary fun a b => if a.toInt < b.toInt then b else a),
  ("min", 2, binary fun a b => if a.toInt < b.toInt then a else b),
  ("/string", 1, fun | n :: u :: a :: l => some (wrap (u.toInt - n.toInt) :: wrap (a.toInt + n.toInt) :: l) | _ => none)]

end Verif.Spec
