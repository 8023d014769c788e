import Verif.Model.Boot
import Verif.Spec.Stack

/-!
# Structured programs and what they mean

The abstract syntax of what may stand between `:` and `;`, and its meaning as a relation between
machines. The meaning knows nothing of addresses, branches or the control stack. Two things that are
the implementation's choice appear as annotations of the program: the address of a string, and the
cell that a counted loop keeps on the return stack below its two parameters.
-/

namespace Verif.Spec
open Verif

mutual
/-- A structured program. -/
inductive Stmt where
  | skip
  | seq (p q : Stmt)
  /-- a call of word number `i` -/
  | word (i : Nat)
  /-- a number -/
  | lit (v : Cell)
  /-- a float -/
  | flt (v : F64)
  /-- `s" ..."`; its address is `a` -/
  | str (a : Nat) (bs : List Byte)
  | exit
  | leave
  /-- `IF p THEN` -/
  | ifThen (p : Stmt)
  /-- `IF p ELSE q THEN` -/
  | ifElse (p q : Stmt)
  /-- `BEGIN p UNTIL` -/
  | untilLoop (p : Stmt)
  /-- `BEGIN p AGAIN` -/
  | againLoop (p : Stmt)
  /-- `BEGIN p WHILE q REPEAT` -/
  | whileLoop (p q : Stmt)
  /-- `DO` or (`ask`) `?DO`, then `p`, then `LOOP` or (`plus`) `+LOOP`; `tok` is kept on the return
  stack -/
  | loop (ask plus : Bool) (tok : Nat) (p : Stmt)
  /-- `CASE a ENDCASE` -/
  | case (a : Arms)

/-- What stands between `CASE` and `ENDCASE`. -/
inductive Arms where
  /-- the part after the last `ENDOF` -/
  | default (p : Stmt)
  /-- `t OF b ENDOF rest` -/
  | arm (t b : Stmt) (rest : Arms)
end

/-! ### The meaning -/

/-- A stack with the content `l` (top first); places that hold nothing stay as they are. -/
def holding {α : Type} (st : Stack α) (l : List α) : Stack α :=
  { st with
    len := BitVec.ofNat 8 l.length
    inner := fun i => if i.toNat < l.length then l.reverse.getD i.toNat st.canary else st.inner i }

/-- The data stack of the running task, top first. -/
def data (s : VM) : List Cell := s.task.s.items

/-- Replace the data stack. -/
def setData (s : VM) (l : List Cell) : VM := s.setTask { s.task with s := holding s.task.s l }

/-- The float stack of the running task, top first. -/
def floats (s : VM) : List F64 := s.task.f.items

/-- Replace the float stack. -/
def setFloats (s : VM) (l : List F64) : VM := s.setTask { s.task with f := holding s.task.f l }

/-- The return stack of the running task, top first. -/
def ret (s : VM) : List Cell := s.task.r.items

/-- Replace the return stack. -/
def setRet (s : VM) (l : List Cell) : VM := s.setTask { s.task with r := holding s.task.r l }

/-- How a program ends. -/
inductive Out where
  /-- at its end -/
  | normal
  /-- at an `EXIT` -/
  | exit
  /-- at a `LEAVE` that belongs to a loop around the program -/
  | leave
  /-- not ended: it is about to call word `i` -/
  | call (i : Nat)
  deriving DecidableEq

/-- How the two parameters of a counted loop with limit `lim` at index `idx` are kept on the return
stack, top first: the second is the limit plus 2^63, the first the distance of the index from it. -/
def params (lim idx : Cell) : List Cell :=
  [BitVec.ofInt 64 (idx.toInt - lim.toInt + 2 ^ 63), BitVec.ofInt 64 (lim.toInt + 2 ^ 63)]

/-- Going from `idx` by `n` in steps of one crosses the line between `lim - 1` and `lim`. -/
def Crosses (lim idx n : Cell) : Prop :=
  if 0 ≤ n.toInt then ∃ k : Nat, k < n.toInt.toNat ∧ idx + BitVec.ofNat 64 k = lim - 1
  else ∃ k : Nat, k < n.toInt.natAbs ∧ idx - BitVec.ofNat 64 k = lim

/-- How many items the stacks take. -/
def capacity : Nat := 64

/-- Things that can be run: a program, the arms of a `CASE`, a counted loop that has been entered. -/
inductive Job where
  | stmt (p : Stmt)
  | arms (a : Arms)
  | turn (plus : Bool) (tok : Nat) (p : Stmt) (lim idx : Cell)

/-- `Sem W j s o t`: started on `s`, `j` ends in the way `o` on `t`. `W i s t` says that a call of word
`i` may lead from `s` to `t`. -/
inductive Sem (W : Nat → VM → VM → Prop) : Job → VM → Out → VM → Prop
  | skip {s : VM} : Sem W (.stmt .skip) s .normal s
  | seq {p q : Stmt} {s t u : VM} {o : Out} : Sem W (.stmt p) s .normal t → Sem W (.stmt q) t o u →
      Sem W (.stmt (.seq p q)) s o u
  | seqStop {p q : Stmt} {s t : VM} {o : Out} : Sem W (.stmt p) s o t → o ≠ .normal →
      Sem W (.stmt (.seq p q)) s o t
  | word {i : Nat} {s t : VM} : W i s t → Sem W (.stmt (.word i)) s .normal t
  | call {i : Nat} {s : VM} : Sem W (.stmt (.word i)) s (.call i) s
  | lit {v : Cell} {s : VM} : (data s).length < capacity →
      Sem W (.stmt (.lit v)) s .normal (setData s (v :: data s))
  | flt {v : F64} {s : VM} : (floats s).length < capacity →
      Sem W (.stmt (.flt v)) s .normal (setFloats s (v :: floats s))
  | str {a : Nat} {bs : List Byte} {s : VM} : (data s).length + 1 < capacity →
      Sem W (.stmt (.str a bs)) s .normal
        (setData s (BitVec.ofNat 64 bs.length :: BitVec.ofNat 64 a :: data s))
  | exit {s : VM} : Sem W (.stmt .exit) s .exit s
  | leave {s : VM} : Sem W (.stmt .leave) s .leave s
  | ifTrue {p : Stmt} {s t : VM} {o : Out} {f : Cell} {l : List Cell} : data s = f :: l → f ≠ 0 →
      Sem W (.stmt p) (setData s l) o t → Sem W (.stmt (.ifThen p)) s o t
  | ifFalse {p : Stmt} {s : VM} {l : List Cell} : data s = 0 :: l →
      Sem W (.stmt (.ifThen p)) s .normal (setData s l)
  | elseTrue {p q : Stmt} {s t : VM} {o : Out} {f : Cell} {l : List Cell} : data s = f :: l → f ≠ 0 →
      Sem W (.stmt p) (setData s l) o t → Sem W (.stmt (.ifElse p q)) s o t
  | elseFalse {p q : Stmt} {s t : VM} {o : Out} {l : List Cell} : data s = 0 :: l →
      Sem W (.stmt q) (setData s l) o t → Sem W (.stmt (.ifElse p q)) s o t
  | untilEnd {p : Stmt} {s t : VM} {f : Cell} {l : List Cell} : Sem W (.stmt p) s .normal t →
      data t = f :: l → f ≠ 0 → Sem W (.stmt (.untilLoop p)) s .normal (setData t l)
  | untilNext {p : Stmt} {s t u : VM} {o : Out} {l : List Cell} : Sem W (.stmt p) s .normal t →
      data t = 0 :: l → Sem W (.stmt (.untilLoop p)) (setData t l) o u →
      Sem W (.stmt (.untilLoop p)) s o u
  | untilStop {p : Stmt} {s t : VM} {o : Out} : Sem W (.stmt p) s o t → o ≠ .normal →
      Sem W (.stmt (.untilLoop p)) s o t
  | againNext {p : Stmt} {s t u : VM} {o : Out} : Sem W (.stmt p) s .normal t →
      Sem W (.stmt (.againLoop p)) t o u → Sem W (.stmt (.againLoop p)) s o u
  | againStop {p : Stmt} {s t : VM} {o : Out} : Sem W (.stmt p) s o t → o ≠ .normal →
      Sem W (.stmt (.againLoop p)) s o t
  | whileEnd {p q : Stmt} {s t : VM} {l : List Cell} : Sem W (.stmt p) s .normal t →
      data t = 0 :: l → Sem W (.stmt (.whileLoop p q)) s .normal (setData t l)
  | whileNext {p q : Stmt} {s t u v : VM} {o : Out} {f : Cell} {l : List Cell} :
      Sem W (.stmt p) s .normal t → data t = f :: l → f ≠ 0 → Sem W (.stmt q) (setData t l) .normal u →
      Sem W (.stmt (.whileLoop p q)) u o v → Sem W (.stmt (.whileLoop p q)) s o v
  | whileStop {p q : Stmt} {s t : VM} {o : Out} : Sem W (.stmt p) s o t → o ≠ .normal →
      Sem W (.stmt (.whileLoop p q)) s o t
  | whileStop2 {p q : Stmt} {s t u : VM} {o : Out} {f : Cell} {l : List Cell} :
      Sem W (.stmt p) s .normal t → data t = f :: l → f ≠ 0 → Sem W (.stmt q) (setData t l) o u →
      o ≠ .normal → Sem W (.stmt (.whileLoop p q)) s o u
  /-- `?DO` with limit and start equal does nothing -/
  | loopNone {plus : Bool} {tok : Nat} {p : Stmt} {s : VM} {n : Cell} {l : List Cell} :
      data s = n :: n :: l → Sem W (.stmt (.loop true plus tok p)) s .normal (setData s l)
  | loop {ask plus : Bool} {tok : Nat} {p : Stmt} {s t : VM} {o : Out} {lim start : Cell}
      {l : List Cell} : data s = start :: lim :: l → (ask = true → start ≠ lim) →
      (ret s).length + 2 < capacity →
      Sem W (.turn plus tok p lim start)
        (setRet (setData s l) (params lim start ++ BitVec.ofNat 64 tok :: ret s)) o t →
      Sem W (.stmt (.loop ask plus tok p)) s o t
  | loopEnd {tok : Nat} {p : Stmt} {s t : VM} {lim idx : Cell} {l : List Cell} :
      Sem W (.stmt p) s .normal t → ret t = params lim idx ++ BitVec.ofNat 64 tok :: l →
      idx + 1 = lim → Sem W (.turn false tok p lim idx) s .normal (setRet t l)
  | loopNext {tok : Nat} {p : Stmt} {s t u : VM} {o : Out} {lim idx : Cell} {l : List Cell} :
      Sem W (.stmt p) s .normal t → ret t = params lim idx ++ BitVec.ofNat 64 tok :: l →
      idx + 1 ≠ lim →
      Sem W (.turn false tok p lim (idx + 1))
        (setRet t (params lim (idx + 1) ++ BitVec.ofNat 64 tok :: l)) o u →
      Sem W (.turn false tok p lim idx) s o u
  | plusEnd {tok : Nat} {p : Stmt} {s t : VM} {lim idx n : Cell} {l k : List Cell} :
      Sem W (.stmt p) s .normal t → ret t = params lim idx ++ BitVec.ofNat 64 tok :: l →
      data t = n :: k → Crosses lim idx n →
      Sem W (.turn true tok p lim idx) s .normal (setRet (setData t k) l)
  | plusNext {tok : Nat} {p : Stmt} {s t u : VM} {o : Out} {lim idx n : Cell} {l k : List Cell} :
      Sem W (.stmt p) s .normal t → ret t = params lim idx ++ BitVec.ofNat 64 tok :: l →
      data t = n :: k → ¬ Crosses lim idx n →
      Sem W (.turn true tok p lim (idx + n))
        (setRet (setData t k) (params lim (idx + n) ++ BitVec.ofNat 64 tok :: l)) o u →
      Sem W (.turn true tok p lim idx) s o u
  | loopLeave {plus : Bool} {tok : Nat} {p : Stmt} {s t : VM} {lim idx a b : Cell} {l : List Cell} :
      Sem W (.stmt p) s .leave t → ret t = a :: b :: BitVec.ofNat 64 tok :: l → l.length ≤ capacity →
      t.task.r.inner 255 = t.task.r.canary →
      Sem W (.turn plus tok p lim idx) s .normal (setRet t l)
  | loopStop {plus : Bool} {tok : Nat} {p : Stmt} {s t : VM} {o : Out} {lim idx : Cell} :
      Sem W (.stmt p) s o t → o ≠ .normal → o ≠ .leave → Sem W (.turn plus tok p lim idx) s o t
  | case {a : Arms} {s t : VM} {o : Out} : Sem W (.arms a) s o t → Sem W (.stmt (.case a)) s o t
  | default {p : Stmt} {s t : VM} {x : Cell} {l : List Cell} : Sem W (.stmt p) s .normal t →
      data t = x :: l → Sem W (.arms (.default p)) s .normal (setData t l)
  | defaultStop {p : Stmt} {s t : VM} {o : Out} : Sem W (.stmt p) s o t → o ≠ .normal →
      Sem W (.arms (.default p)) s o t
  | armMatch {p b : Stmt} {rest : Arms} {s t u : VM} {o : Out} {x : Cell} {l : List Cell} :
      Sem W (.stmt p) s .normal t → data t = x :: x :: l → l.length + 2 < capacity →
      Sem W (.stmt b) (setData t l) o u → Sem W (.arms (.arm p b rest)) s o u
  | armNext {p b : Stmt} {rest : Arms} {s t u : VM} {o : Out} {x y : Cell} {l : List Cell} :
      Sem W (.stmt p) s .normal t → data t = y :: x :: l → x ≠ y → l.length + 2 < capacity →
      Sem W (.arms rest) (setData t (x :: l)) o u → Sem W (.arms (.arm p b rest)) s o u
  | armStop {p b : Stmt} {rest : Arms} {s t : VM} {o : Out} : Sem W (.stmt p) s o t → o ≠ .normal →
      Sem W (.arms (.arm p b rest)) s o t

/-- The stacks hold the same and have the same guard slots; they may differ in places below the
capacity that hold nothing. -/
structure LikeStack {α : Type} (a b : Stack α) : Prop where
  len : a.len = b.len
  canary : a.canary = b.canary
  slots : ∀ i : BitVec 8, i.toNat < b.len.toNat ∨ capacity ≤ i.toNat → a.inner i = b.inner i

/-- The machines agree except for places of the stacks of the running task that hold nothing. -/
def Alike (s t : VM) : Prop :=
  ∃ ds rs fs, LikeStack ds t.task.s ∧ LikeStack rs t.task.r ∧ LikeStack fs t.task.f ∧
    s = t.setTask { t.task with s := ds, r := rs, f := fs }

/-- Calling words, with calls nested up to `m` deep. `D i` is the body of word `i` if it is a colon
definition, and `W` says what the other words do. The body finds a return address `x` on the return
stack; what it does may not depend on which, except for a place above the stack where it is left behind, and it must
leave it where it was. -/
def Calls (D : Nat → Option Stmt) (W : Nat → VM → VM → Prop) : Nat → Nat → VM → VM → Prop
  | 0, i, s, t => W i s t
  | m + 1, i, s, t => Calls D W m i s t ∨
      ∃ p, D i = some p ∧ (ret s).length < capacity ∧ ∀ x : Cell, ∃ u l,
        Sem (Calls D W m) (.stmt (.seq p .exit)) (setRet s (x :: ret s)) .exit u ∧
        ret u = x :: l ∧ Alike t (setRet u l)

/-! ### Running compiled code -/

/-- The machines agree except for the instruction pointer and the word pointer of the running task, and
places of its stacks that hold nothing. -/
def Like (s t : VM) : Prop :=
  ∃ ip wp ds rs fs, LikeStack ds t.task.s ∧ LikeStack rs t.task.r ∧ LikeStack fs t.task.f ∧
    s = t.setTask { t.task with s := ds, r := rs, f := fs, st := { t.task.st with ip := ip, wp := wp } }

/-- The instruction pointer of the running task. -/
def pc (s : VM) : Nat := s.task.st.ip

/-- Any number of steps of the inner interpreter. -/
inductive Steps (cfg : Cfg) (depth : Nat) : VM → VM → Prop
  | refl (s : VM) : Steps cfg depth s s
  | tail {s t u : VM} : Steps cfg depth s t → step cfg depth t = .ok (true, u) → Steps cfg depth s u

/-- Calling word `i` on any machine like `s` leads, without an exception and after some steps, to a
machine like `t` with the instruction pointer where it was. -/
def Acts (cfg : Cfg) (depth i : Nat) (s t : VM) : Prop :=
  ∀ s1, Like s1 s → pc s1 < 2 ^ 64 → ∃ s2 t1, execWord cfg depth i s1 = .ok ((), s2) ∧
    s2.lastError = s1.lastError ∧ Steps cfg depth s2 t1 ∧ Like t1 t ∧ pc t1 = pc s1

end Verif.Spec
