import Verif.Spec.Control

/-!
# How often a counted loop runs its body
-/

namespace Verif.Spec
open Verif

/-- How many numbers there are from `idx` up to, not including, `lim`, going round at 2^64; all of them if
the two are equal. -/
def turns (lim idx : Cell) : Nat := if idx = lim then 2 ^ 64 else (lim.toInt - idx.toInt).emod (2 ^ 64) |>.toNat

/-- `Rounds W tok p lim left n idx s t`: starting on `s`, inside of the loop at index `idx`, the body `p` runs
to its end `n` times, with the index one higher each time; then the loop is over. With `left` the body runs
once more and leaves the loop. `t` is the machine after the loop. -/
inductive Rounds (W : Nat → VM → VM → Prop) (tok : Nat) (p : Stmt) (lim : Cell) :
    (left : Bool) → Nat → Cell → VM → VM → Prop
  | last {idx : Cell} {s t : VM} {l : List Cell} : Sem W (.stmt p) s .normal t →
      ret t = params lim idx ++ BitVec.ofNat 64 tok :: l → Rounds W tok p lim false 1 idx s (setRet t l)
  | left {idx a b : Cell} {s t : VM} {l : List Cell} : Sem W (.stmt p) s .leave t →
      ret t = a :: b :: BitVec.ofNat 64 tok :: l → l.length ≤ capacity →
      t.task.r.inner 255 = t.task.r.canary → Rounds W tok p lim true 0 idx s (setRet t l)
  | more {left : Bool} {n : Nat} {idx : Cell} {s t u : VM} {l : List Cell} : Sem W (.stmt p) s .normal t →
      ret t = params lim idx ++ BitVec.ofNat 64 tok :: l →
      Rounds W tok p lim left n (idx + 1) (setRet t (params lim (idx + 1) ++ BitVec.ofNat 64 tok :: l)) u →
      Rounds W tok p lim left (n + 1) idx s u

end Verif.Spec
