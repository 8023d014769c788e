import Verif.Spec.Change

/-!
# Executions

What a client of the machine can make happen: any sequence of calls of the functions it exports, each
as often as it likes, while the clock advances. Single steps of the inner interpreter and single
tokens are included, so the states in between are reached too.
-/

namespace Verif.Spec
open Verif

/-- One call of an exported function that returned. -/
inductive Call (cfg : Cfg) : VM → VM → Prop
  | word {depth i : Nat} {s t : VM} {u : Unit} : execWord cfg depth i s = .ok (u, t) → Call cfg s t
  | step {depth : Nat} {s t : VM} {b : Bool} : step cfg depth s = .ok (b, t) → Call cfg s t
  | run {depth fuel : Nat} {s t : VM} {u : Unit} : run cfg depth fuel s = .ok (u, t) → Call cfg s t
  | token {depth : Nat} {s t : VM} {u : Unit} : evalToken (ctx cfg depth) s = .ok (u, t) → Call cfg s t
  | next {s t : VM} {u : Unit} : parseWord s = .ok (u, t) → Call cfg s t
  | check {depth : Nat} {s t : VM} {u : Unit} :
      checkStacks (ctx cfg depth) s = .ok (u, t) → Call cfg s t
  | line {depth fuel : Nat} {s t : VM} {u : Unit} :
      evaluateInput cfg depth fuel s = .ok (u, t) → Call cfg s t
  | source {s t : VM} {text : List Char} {u : Unit} : setSource text s = .ok (u, t) → Call cfg s t
  | more {s t : VM} {text : List Char} {u : Unit} : pushSource text s = .ok (u, t) → Call cfg s t
  | script {depth fuel : Nat} {text : List Char} {s t : VM} {u : Unit} :
      loadStr cfg depth fuel text s = .ok (u, t) → Call cfg s t
  | load {depth id : Nat} {s t : VM} {r : Except Exn (Nat × Bool)} :
      loadLine (ctx cfg depth) id s = .ok (r, t) → Call cfg s t
  /-- only the module `exception` can make exceptions, src/exception.rs 6 -/
  | raise {depth : Nat} {e : Exn} {s t : VM} {u : Unit} : Reserved e →
      abortWith (ctx cfg depth) e s = .ok (u, t) → Call cfg s t
  | reset {depth : Nat} {s t : VM} {u : Unit} : reset (ctx cfg depth) s = .ok (u, t) → Call cfg s t
  | flush {s t : VM} {u : Unit} : flushOutput s = .ok (u, t) → Call cfg s t
  | clock {n : Nat} {s : VM} : Call cfg s { s with now := n }

/-- Any number of calls. -/
inductive Reach (cfg : Cfg) : VM → VM → Prop
  | refl (s : VM) : Reach cfg s s
  | tail {s t u : VM} : Reach cfg s t → Call cfg t u → Reach cfg s u

/-- The kinds of change words make (`refs` is set when the words are added, and the clock is not theirs). -/
def wordKinds : List Kind :=
  [.dataStack, .returnStack, .controlStack, .floatStack, .mode, .ip, .wp, .abortedWp, .sourceIndex,
   .sourceId, .inputText, .inputSlot, .fileOpen, .fileUse, .fileClose, .sourceOpen,
   .sourceClose, .sourceRead, .raise, .clear,
   .handler, .token, .output, .holdBuffer, .labelSets, .labelTable, .host, .hostCall, .standardOut,
   .standardError, .memWrite, .memAppend, .memHere, .wordAdd, .wordLast, .wordTime, .wordForget,
   .savedBuckets, .awake, .switch, .activate]

/-- The kinds of change executions make. -/
def runKinds : List Kind := .clock :: wordKinds

/-- The kinds of change the interpreter makes itself, whatever words there are: taking text and
splitting it into tokens, compiling and pushing numbers, raising errors, reading files line by line,
starting over. -/
def interpreterKinds : List Kind :=
  [.dataStack, .floatStack, .controlStack, .returnStack, .raise, .clear, .abortedWp, .wp, .ip, .mode, .token,
   .sourceIndex, .sourceId, .inputText, .memAppend, .hostCall, .sourceRead, .output,
   .standardOut, .clock]

/-- The parts of a task that only the task itself ever changes. -/
def SamePrivate (t t' : Task) : Prop :=
  t'.s = t.s ∧ t'.f = t.f ∧ t'.c = t.c ∧ t'.files = t.files ∧ t'.sources = t.sources ∧
    t'.lines = t.lines

/-- The parts of a task that only the task itself and `activate` change. -/
def SameThread (t t' : Task) : Prop := t'.r = t.r ∧ t'.st = t.st ∧ t'.inbuf = t.inbuf

/-- The current source is the terminal, or a source with an open file and a place for its line. -/
def CurrentOpen (t : Task) : Prop :=
  t.st.sourceId = 0 ∨ (0 < t.st.sourceId.toInt ∧
    (∃ src, t.sources[t.st.sourceId.toNat - 1]? = some (some src)) ∧
    t.st.sourceId.toNat - 1 < t.lines.length)

end Verif.Spec
