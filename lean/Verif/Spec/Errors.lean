import Verif.Spec.Change
import Verif.Spec.Text

/-!
# Specification of errors and of the evaluation of a line

A *turn* of the interpreter reads a token and processes it: it evaluates the token, runs the
definition this starts, if any, and checks the stacks.
-/

namespace Verif.Spec
open Verif

/-- The token, the machine when it has just been read, and the machine when it has been processed. -/
structure Turn where
  token : List Char
  before : VM
  after : VM

/-- Processing the current token on `a` gives `b`. If evaluating it leaves an error pending, nothing is
run and the stacks are not checked. -/
inductive Processed (cfg : Cfg) (depth : Nat) : VM → VM → Prop
  | failed {a b : VM} : evalToken (ctx cfg depth) a = .ok ((), b) → b.lastError ≠ none →
      Processed cfg depth a b
  | ran {a u v b : VM} {fuel : Nat} : evalToken (ctx cfg depth) a = .ok ((), u) → u.lastError = none →
      run cfg depth fuel u = .ok ((), v) → checkStacks (ctx cfg depth) v = .ok ((), b) →
      Processed cfg depth a b

/-- The interpreter works through a line: turn after turn, until a turn leaves an error pending or no
token is left. -/
inductive Line (cfg : Cfg) (depth : Nat) : VM → List Turn → VM → Prop
  | done {s t : VM} : parseWord s = .ok ((), t) → t.tkn = some [] → Line cfg depth s [] t
  | failed {s a b : VM} {tok : List Char} : parseWord s = .ok ((), a) → a.tkn = some tok → tok ≠ [] →
      Processed cfg depth a b → b.lastError ≠ none → Line cfg depth s [⟨tok, a, b⟩] b
  | next {s a b t : VM} {tok : List Char} {ts : List Turn} : parseWord s = .ok ((), a) →
      a.tkn = some tok → tok ≠ [] → Processed cfg depth a b → b.lastError = none →
      Line cfg depth b ts t → Line cfg depth s (⟨tok, a, b⟩ :: ts) t

/-- Two tasks read from the same text at the same position. -/
def SameInput (t t' : Task) : Prop :=
  inputBuffer t' = inputBuffer t ∧ t'.st.sourceIndex = t.st.sourceIndex

/-- The inner interpreter is at the end of what it was asked to run. -/
def Stopped (s : VM) : Prop := s.task.st.ip < s.ds.start ∨ s.ds.limit < s.task.st.ip + 8

end Verif.Spec
