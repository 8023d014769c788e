import Verif.Spec.Control
import Verif.Spec.Memory

/-!
# Threaded code

Which cells a structured program is compiled to, and which source items it is written with.
-/

namespace Verif.Spec
open Verif

mutual
/-- The address after the code of a program that starts at `a`. -/
def Stmt.next : Stmt → Nat → Nat
  | .skip, a => a
  | .seq p q, a => q.next (p.next a)
  | .word _, a => a + 8
  | .lit _, a => a + 16
  | .flt _, a => roundUp8 (a + 8) + 8
  | .str _ bs, a => roundUp8 (a + 16 + bs.length)
  | .exit, a => a + 8
  | .leave, a => a + 8
  | .ifThen p, a => p.next (a + 16)
  | .ifElse p q, a => q.next (p.next (a + 16) + 16)
  | .untilLoop p, a => p.next a + 16
  | .againLoop p, a => p.next a + 16
  | .whileLoop p q, a => q.next (p.next a + 16) + 16
  | .loop _ _ _ p, a => p.next (a + 16) + 16
  | .case r, a => r.next a

/-- The address after the code of arms that start at `a`. -/
def Arms.next : Arms → Nat → Nat
  | .default p, a => p.next a + 8
  | .arm t b r, a => r.next (b.next (t.next a + 40) + 16)
end

mutual
/-- The program with the annotations it has when its code starts at `a`. -/
def Stmt.place : Stmt → Nat → Stmt
  | .seq p q, a => .seq (p.place a) (q.place (p.next a))
  | .str _ bs, a => .str (a + 16) bs
  | .ifThen p, a => .ifThen (p.place (a + 16))
  | .ifElse p q, a => .ifElse (p.place (a + 16)) (q.place (p.next (a + 16) + 16))
  | .untilLoop p, a => .untilLoop (p.place a)
  | .againLoop p, a => .againLoop (p.place a)
  | .whileLoop p q, a => .whileLoop (p.place a) (q.place (p.next a + 16))
  | .loop ask plus _ p, a => .loop ask plus (a + 8) (p.place (a + 16))
  | .case r, a => .case (r.place a)
  | .skip, _ => .skip
  | .word i, _ => .word i
  | .lit v, _ => .lit v
  | .flt v, _ => .flt v
  | .exit, _ => .exit
  | .leave, _ => .leave

/-- The arms with the annotations they have when their code starts at `a`. -/
def Arms.place : Arms → Nat → Arms
  | .default p, a => .default (p.place a)
  | .arm t b r, a => .arm (t.place a) (b.place (t.next a + 40)) (r.place (b.next (t.next a + 40) + 16))
end

/-- The cell at `a` is the number `n`. -/
def CellIs (d : DataSpace) (a n : Nat) : Prop := (d.cellAt a).toNat = n

mutual
/-- The code of the program is at `a`. `R` gives the numbers of the words the compiler uses, `lv` that
of `leave`. -/
def Stmt.At (R : Refs) (lv : Nat) (d : DataSpace) : Stmt → Nat → Prop
  | .skip, _ => True
  | .seq p q, a => p.At R lv d a ∧ q.At R lv d (p.next a)
  | .word i, a => CellIs d a i
  | .lit v, a => CellIs d a R.lit ∧ d.cellAt (a + 8) = v
  | .flt v, a => CellIs d a R.flit ∧ d.cellAt (roundUp8 (a + 8)) = v
  | .str adr bs, a => CellIs d a R.sQuote ∧ CellIs d (a + 8) bs.length ∧
      d.bytesAt (a + 16) bs.length = bs ∧ adr = a + 16
  | .exit, a => CellIs d a R.exit
  | .leave, a => CellIs d a lv
  | .ifThen p, a => CellIs d a R.zeroBranch ∧ CellIs d (a + 8) (p.next (a + 16)) ∧
      p.At R lv d (a + 16)
  | .ifElse p q, a => CellIs d a R.zeroBranch ∧ CellIs d (a + 8) (p.next (a + 16) + 16) ∧
      p.At R lv d (a + 16) ∧
      CellIs d (p.next (a + 16)) R.branch ∧
      CellIs d (p.next (a + 16) + 8) (q.next (p.next (a + 16) + 16)) ∧
      q.At R lv d (p.next (a + 16) + 16)
  | .untilLoop p, a => p.At R lv d a ∧ CellIs d (p.next a) R.zeroBranch ∧ CellIs d (p.next a + 8) a
  | .againLoop p, a => p.At R lv d a ∧ CellIs d (p.next a) R.branch ∧ CellIs d (p.next a + 8) a
  | .whileLoop p q, a => p.At R lv d a ∧ CellIs d (p.next a) R.zeroBranch ∧
      CellIs d (p.next a + 8) (q.next (p.next a + 16) + 16) ∧ q.At R lv d (p.next a + 16) ∧
      CellIs d (q.next (p.next a + 16)) R.branch ∧ CellIs d (q.next (p.next a + 16) + 8) a
  | .loop ask plus tok p, a => tok = a + 8 ∧ CellIs d a (if ask then R.qdoRt else R.doRt) ∧
      CellIs d (a + 8) (p.next (a + 16) + 16) ∧ p.At R lv d (a + 16) ∧
      CellIs d (p.next (a + 16)) (if plus then R.plusLoopRt else R.loopRt) ∧
      CellIs d (p.next (a + 16) + 8) (a + 16)
  | .case r, a => r.At R lv d (r.next a) a

/-- The code of the arms is at `a`, and the whole ends at `fin`. -/
def Arms.At (R : Refs) (lv : Nat) (d : DataSpace) : Arms → Nat → Nat → Prop
  | .default p, _, a => p.At R lv d a ∧ CellIs d (p.next a) R.drop
  | .arm t b r, fin, a => t.At R lv d a ∧ CellIs d (t.next a) R.over ∧ CellIs d (t.next a + 8) R.equal ∧
      CellIs d (t.next a + 16) R.zeroBranch ∧ CellIs d (t.next a + 24) (b.next (t.next a + 40) + 16) ∧
      CellIs d (t.next a + 32) R.drop ∧ b.At R lv d (t.next a + 40) ∧
      CellIs d (b.next (t.next a + 40)) R.branch ∧ CellIs d (b.next (t.next a + 40) + 8) fin ∧
      r.At R lv d fin (b.next (t.next a + 40) + 16)
end

/-- The words the compiler uses, by their role. -/
def roles (R : Refs) (lv : Nat) : List (Nat × CorePrim) :=
  [(R.lit, .lit), (R.flit, .flit), (R.exit, .exit), (R.zeroBranch, .zeroBranch), (R.branch, .branch),
   (R.doRt, .doRt), (R.qdoRt, .qdoRt), (R.loopRt, .loopRt), (R.plusLoopRt, .plusLoopRt),
   (R.sQuote, .sQuoteRt), (R.over, .over), (R.equal, .equals), (R.drop, .drop), (lv, .leave)]

/-- The words the compiler uses do what they are for. -/
def Runtime (R : Refs) (lv : Nat) (wl : Wordlist) : Prop :=
  ∀ r, r ∈ roles R lv → ∃ w, wl.words[r.1]? = some w ∧ w.action = .core r.2

/-- Word `i` is compiled as a call. -/
def Plain (wl : Wordlist) (i : Nat) : Prop := ∃ w, wl.words[i]? = some w ∧ w.compSem = .word

/-- The words the compiler uses are in order. -/
structure Compiler (R : Refs) (lv : Nat) (wl : Wordlist) : Prop where
  size : wl.words.length ≤ 2 ^ 64
  runtime : Runtime R lv wl
  exit : Plain wl R.exit
  sQuote : Plain wl R.sQuote
  leave : ∃ w, wl.words[lv]? = some w ∧ w.compSem = .leave

/-- The words of `wl` still do the same in `v`, which may have more words. -/
def SameCode (wl v : Wordlist) : Prop :=
  ∀ (i : Nat) (w : Word), wl.words[i]? = some w → ∃ x : Word, v.words[i]? = some x ∧ x.action = w.action ∧ x.dfa = w.dfa

/-- The machine runs task `k`, the words of `wl` are in order in it, and its memory between `lo` and
`hi` is that of `d`. -/
structure Loaded (R : Refs) (lv : Nat) (wl : Wordlist) (lo hi : Nat) (k : Fin 5) (d : DataSpace) (s : VM) :
    Prop where
  cur : s.cur = k
  start : s.ds.start = d.start
  cap : s.ds.cap = d.cap
  code : ∀ x, lo ≤ x → x < hi → s.ds.bytes x = d.bytes x
  words : Runtime R lv s.wl
  kept : SameCode wl s.wl

/-- Where code may lie in `d`. -/
structure Region (d : DataSpace) (lo hi : Nat) : Prop where
  lower : d.start ≤ lo
  upper : hi ≤ d.start + d.cap
  small : d.start + d.cap < 2 ^ 63

/-- The colon definitions of `D` are words of `wl` with their code between `lo` and `hi`. -/
def Defined (R : Refs) (lv : Nat) (wl : Wordlist) (lo hi : Nat) (d : DataSpace) (D : Nat → Option Stmt) :
    Prop :=
  ∀ i p, D i = some p → ∃ w, wl.words[i]? = some w ∧ w.action = .core .nest ∧ lo ≤ w.dfa ∧
    (Stmt.seq p .exit).next w.dfa ≤ hi ∧ (Stmt.seq p .exit).At R lv d w.dfa

/-! ### Source items -/

/-- What the compiler sees: a word to compile, a number, a float, a string, a control word. -/
inductive Item where
  | word (i : Nat)
  | lit (v : Cell)
  | flt (v : F64)
  | str (bs : List Byte)
  | imm (p : CorePrim)
  deriving DecidableEq

/-- What compiling does with an item (src/core.rs 1898-1932 `compile_token` and src/output.rs 82-102
`s_quote`, after the text has been read). -/
def Item.run (c : Ctx) : Item → M Unit
  | .word i => do
    let w ← wordAt i
    compSemRun c w.compSem i
  | .lit v => compileInteger c v
  | .flt v => compileFloat c v
  | .str bs => do
    let refs ← getRefs
    let w ← wordAt refs.sQuote
    compSemRun c w.compSem refs.sQuote
    let _ ← compileStrM c bs
    dsOp fun d => d.align c.oc
  | .imm p => coreAction c p

mutual
/-- The items a program is written with. -/
def Stmt.items (R : Refs) (lv : Nat) : Stmt → List Item
  | .skip => []
  | .seq p q => p.items R lv ++ q.items R lv
  | .word i => [.word i]
  | .lit v => [.lit v]
  | .flt v => [.flt v]
  | .str _ bs => [.str bs]
  | .exit => [.word R.exit]
  | .leave => [.word lv]
  | .ifThen p => .imm .immIf :: p.items R lv ++ [.imm .immThen]
  | .ifElse p q => .imm .immIf :: p.items R lv ++ .imm .immElse :: q.items R lv ++ [.imm .immThen]
  | .untilLoop p => .imm .immBegin :: p.items R lv ++ [.imm .immUntil]
  | .againLoop p => .imm .immBegin :: p.items R lv ++ [.imm .immAgain]
  | .whileLoop p q =>
      .imm .immBegin :: p.items R lv ++ .imm .immWhile :: q.items R lv ++ [.imm .immRepeat]
  | .loop ask plus _ p => .imm (if ask then .immQdo else .immDo) :: p.items R lv ++
      [.imm (if plus then .immPlusLoop else .immLoop)]
  | .case r => .imm .immCase :: r.items R lv

/-- The items after `CASE`. -/
def Arms.items (R : Refs) (lv : Nat) : Arms → List Item
  | .default p => p.items R lv ++ [.imm .immEndcase]
  | .arm t b r => t.items R lv ++ .imm .immOf :: b.items R lv ++ .imm .immEndof :: r.items R lv
end

mutual
/-- How many places of the control stack the program needs. -/
def Stmt.height : Stmt → Nat
  | .seq p q => max p.height q.height
  | .ifThen p => p.height + 1
  | .ifElse p q => max p.height q.height + 1
  | .untilLoop p => p.height + 1
  | .againLoop p => p.height + 1
  | .whileLoop p q => max (p.height + 1) (q.height + 2)
  | .loop _ _ _ p => p.height + 1
  | .case r => r.height + 1
  | _ => 0

/-- How many places of the control stack the arms need. -/
def Arms.height : Arms → Nat
  | .default p => p.height
  | .arm t b r => max t.height (max (b.height + 1) (r.height + 1))
end

mutual
/-- Every `LEAVE` is in a loop; `b` says whether there is one around the program. -/
def Stmt.leavesOk : Stmt → Bool → Bool
  | .seq p q, b => p.leavesOk b && q.leavesOk b
  | .leave, b => b
  | .ifThen p, b => p.leavesOk b
  | .ifElse p q, b => p.leavesOk b && q.leavesOk b
  | .untilLoop p, b => p.leavesOk b
  | .againLoop p, b => p.leavesOk b
  | .whileLoop p q, b => p.leavesOk b && q.leavesOk b
  | .loop _ _ _ p, _ => p.leavesOk true
  | .case r, b => r.leavesOk b
  | _, _ => true

/-- The same for arms. -/
def Arms.leavesOk : Arms → Bool → Bool
  | .default p, b => p.leavesOk b
  | .arm t q r, b => t.leavesOk b && q.leavesOk b && r.leavesOk b
end

mutual
/-- The numbers of the words a program calls. -/
def Stmt.calls : Stmt → List Nat
  | .seq p q => p.calls ++ q.calls
  | .word i => [i]
  | .ifThen p => p.calls
  | .ifElse p q => p.calls ++ q.calls
  | .untilLoop p => p.calls
  | .againLoop p => p.calls
  | .whileLoop p q => p.calls ++ q.calls
  | .loop _ _ _ p => p.calls
  | .case r => r.calls
  | _ => []

/-- The same for arms. -/
def Arms.calls : Arms → List Nat
  | .default p => p.calls
  | .arm t b r => t.calls ++ b.calls ++ r.calls
end

end Verif.Spec
