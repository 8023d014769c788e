import Verif.Spec.Loader
import Verif.Spec.Status
import Verif.Spec.Change
import Verif.Spec.Trace

/-!
# A session at the terminal

rtf/rtf.fth 3-19 defines `quit`, which reads and evaluates lines for ever, and `(abort)`, which is executed when an
error is raised: it tells about the error and goes on with `quit`.
-/

namespace Verif.Spec
open Verif

/-- What `quit` does with each line (rtf/rtf.fth 5-7); `."` compiles a string and `type`. -/
def answerCode (ix : String → Nat) : Stmt :=
  code ix [Stmt.str 0 (ascii " "), "type", "evaluate-input", "compiling?", "not",
    Stmt.ifThen (code ix [Stmt.str 0 (ascii " ok"), "type"]), 13, "emit", "flush-output"]

/-- What `(abort)` tells about the source being read (rtf/rtf.fth 13-15), if it is not the terminal. -/
def originCode (ix : String → Nat) : Stmt :=
  code ix ["dup", Stmt.str 0 (ascii " ("), "type", ".source-path", Stmt.str 0 (ascii ":"), "type", "load-line#", "@", 0, ".r",
    Stmt.str 0 (ascii ": "), "type", ".source-line", Stmt.str 0 (ascii ")"), "type"]

/-- What `(abort)` tells about an error (rtf/rtf.fth 12-18) before the backtrace. -/
def messageCode (ix : String → Nat) : Stmt :=
  code ix [".token", "space", ".error", "source-id", "dup", Stmt.ifElse (originCode ix) (code ix ["drop"]),
    Stmt.str 0 (ascii ", "), "type"]

/-- `quit` (rtf/rtf.fth 3-8). -/
def quitCode (ix : String → Nat) : Stmt := code ix ["reset", Stmt.againLoop (code ix ["receive", answerCode ix])]

/-- `(abort)` (rtf/rtf.fth 10-19). -/
def abortCode (ix : String → Nat) : Stmt :=
  code ix ["0stacks", "error", Stmt.lit (-2), 1, "within", "not",
    Stmt.ifThen (code ix [messageCode ix, ".backtrace", 13, "emit"]), "flush-output", "0error", "quit"]

/-- The definitions of rtf/rtf.fth 3-19. -/
def replCode (ix : String → Nat) : List (String × Stmt) := [("quit", quitCode ix), ("(abort)", abortCode ix)]

/-- The built-in words they use, apart from `receive`, which is one of the program rtf. -/
def replUses : List String :=
  ["type", "compiling?", "not", "emit", "flush-output", "reset", "0stacks", "error", "within", ".token", ".error", "source-id",
   "dup", ".source-path", "@", ".r", ".source-line", "drop", ".backtrace", "0error"]

/-- The machine has these words, with their code in `g`, the library in `g1`, `evaluate-input` in `g2` and the variable
`load-line#` at `V`. -/
structure HasRepl (lv : Nat) (g1 g2 g : Nat × Nat) (V : Nat) (ix : String → Nat) (s : VM) : Prop where
  equipped : Equipped lv g1.1 g1.2 ix s
  reader : HasReader lv g2.1 g2.2 ix s
  region : Region s.ds g.1 g.2
  uses : ∀ name, name ∈ replUses → Builtin s.wl (ix name) name
  coded : Coded s.refs lv s.wl g.1 g.2 s.ds ix (replCode ix)
  place : ∃ w, s.wl.words[ix "load-line#"]? = some w ∧ w.action = .core .pVar ∧ w.dfa = V
  lower : s.ds.start < V
  upper : V + 8 ≤ s.ds.limit

/-- The address of the call of `receive`. -/
def PromptAt (ix : String → Nat) (s : VM) (a : Nat) : Prop := ∃ w, s.wl.words[ix "quit"]? = some w ∧ a = w.dfa + 8

/-- The machine after it answered a line: ` ok` if it interprets, and the end of the line. -/
def answered (s : VM) : VM :=
  flushed (printed s (if s.task.st.isCompiling then [13] else ascii " ok" ++ [13]))

/-- What is told about the source being read. -/
def origin (V : Nat) (s : VM) : List Byte :=
  if s.task.st.sourceId = 0 then []
  else
    match s.task.sources[s.task.st.sourceId.toNat - 1]?, s.task.lines[s.task.st.sourceId.toNat - 1]?,
      fmtBase (s.ds.cellAt s.ds.baseAddr) (s.ds.cellAt V) with
    | some (some f), some (some l), some k => ascii " (" ++ f.path ++ ascii ":" ++ k ++ ascii ": " ++ utf8 l ++ ascii ")"
    | _, _, _ => []

/-- The source being read is the terminal, or one with a file and a line, and the base is one that numbers can be
printed in. -/
def Tellable (V : Nat) (s : VM) : Prop :=
  s.task.st.sourceId = 0 ∨ 0 < s.task.st.sourceId.toInt ∧
    (∃ f, s.task.sources[s.task.st.sourceId.toNat - 1]? = some (some f)) ∧
    (∃ l, s.task.lines[s.task.st.sourceId.toNat - 1]? = some (some l)) ∧
    ∃ k, fmtBase (s.ds.cellAt s.ds.baseAddr) (s.ds.cellAt V) = some k

/-- What the buffer for numbers holds afterwards. -/
def note (V : Nat) (s : VM) : List Byte :=
  if s.task.st.sourceId = 0 then s.hldbuf else (fmtBase (s.ds.cellAt s.ds.baseAddr) (s.ds.cellAt V)).getD s.hldbuf

/-- The backtrace after error `e`: the return addresses, the oldest one first, the address behind the call that raised the error,
the word that raised it, and address `b` of the handler. -/
def traced (s : VM) (e : Exn) (b : Nat) : List Byte :=
  ascii "backtrace: " ++ (toCell (pc s) :: ret s).reverse.flatMap (fun v => whereabouts s v.toNat) ++ culprit (raised s e) ++
    whereabouts s b

/-- The message about error `e`. -/
def message (V : Nat) (s : VM) (e : Exn) (b : Nat) : List Byte :=
  utf8 (s.tkn.getD []) ++ ascii " " ++ ascii (description e) ++ origin V s ++ ascii ", " ++ traced s e b ++ [13]

/-- Whether nothing is told: after `abort` and `abort"` (rtf/rtf.fth 11). -/
def Quiet (e : Exn) : Prop := -2 ≤ e.toCell.toInt ∧ e.toCell.toInt < 1

instance (e : Exn) : Decidable (Quiet e) := inferInstanceAs (Decidable (_ ∧ _))

/-- The machine after an error at which `text` was told: all stacks are empty, the task reads its own empty line,
interprets, and no error is pending. -/
def recovered (s : VM) (text hld : List Byte) : VM :=
  { (flushed (printed s text)).setTask (fresh { s.task with s := s.task.s.reset, f := s.task.f.reset, c := s.task.c.reset }) with
    hldbuf := hld
    lastError := none }

/-- What the handler needs in order to tell about an error: it is `(abort)`, the source being read can be told, the words have names, the word that raises
it is one of them, and there is room for the output and on the return stack. -/
structure Recoverable (V : Nat) (ix : String → Nat) (s : VM) : Prop where
  handler : s.handler = ix "(abort)"
  tellable : Tellable V s
  space : SoundSpace s.ds
  output : s.outbuf ≠ none
  names : Traceable s
  word : s.task.st.wp < s.wl.words.length
  room : (ret s).length + 1 < capacity

/-- Address `x` lies behind one of the calls in word `name` with code `p`. -/
def Behind (ix : String → Nat) (s : VM) (name : String) (p : Stmt) (x : Nat) : Prop :=
  ∃ w, s.wl.words[ix name]? = some w ∧ w.dfa < x ∧ x ≤ p.next w.dfa

/-- Error `e` was raised in `s`, and `t` is the machine at the prompt afterwards. -/
def Recovered (V : Nat) (ix : String → Nat) (s0 : VM) (e : Exn) (s t : VM) : Prop :=
  if Quiet e then Like t (recovered s [] s.hldbuf)
  else ∃ b, Behind ix s0 "(abort)" (abortCode ix) b ∧ Like t (recovered s (message V s e b) (note V s))

/-- Evaluating the current token on any machine like `a` comes to raising error `e` on a machine for which `P` holds:
what the handler then makes of the machine is what evaluating the token leads to. -/
def TokenRaises (cfg : Cfg) (depth : Nat) (e : Exn) (P : VM → Prop) (a : VM) : Prop :=
  ∀ s1, Like s1 a → pc s1 < 2 ^ 64 → s1.task.st.wp < s1.wl.words.length → ∃ u m, m < depth ∧ P u ∧
    ∀ x, abortWith (ctx cfg (m + 1)) e u = .ok ((), x) → ∃ s2, evalToken (ctx cfg depth) s1 = .ok ((), s2) ∧ Steps cfg depth s2 x

/-- The first tokens of the input are `toks`; evaluating one after the other from `s` comes to an error at the last of
them. Then `P r` holds if `r` is on the return stack of the interpreter. The error is raised by the token itself or
by the check of the stacks after it. `L` holds between tokens. -/
inductive Fails (cfg : Cfg) (depth room : Nat) (L : VM → Prop) (e : Exn) (P : List Cell → VM → Prop) : List (List Char) → VM → Prop
  | raises {s : VM} {pre bs tok more : List Char} : Next s pre bs tok more → tok ≠ [] →
      (∀ r : List Cell, r.length + room ≤ capacity → TokenRaises cfg depth e (P r) (setRet (took s pre bs tok) r)) →
      Fails cfg depth room L e P [tok] s
  | stacks {s b : VM} {pre bs tok more : List Char} : Next s pre bs tok more → tok ≠ [] →
      (∀ r : List Cell, r.length + room ≤ capacity → TokenActs cfg depth (setRet (took s pre bs tok) r) (setRet b r)) → L b →
      (∀ (r : List Cell) c s1, r.length + room ≤ capacity → Like s1 (setRet b r) → s1.task.st.wp < s1.wl.words.length →
        checkStacks c s1 = abortWith c e s1 ∧ P r s1) →
      Fails cfg depth room L e P [tok] s
  | token {s b : VM} {pre bs tok more : List Char} {toks : List (List Char)} : Next s pre bs tok more → tok ≠ [] →
      Evaluates cfg depth room (took s pre bs tok) b → L b → Fails cfg depth room L e P toks b →
      Fails cfg depth room L e P (tok :: toks) s

/-- A line was received in `s`, and so many cells are free on the return stack that it can be evaluated. -/
structure Asked (lv : Nat) (gs : List (Nat × Nat)) (room : Nat) (s0 s : VM) : Prop where
  still : StillLoaded lv gs s0 s
  calm : Calm s.task.s
  data : (data s).length + 2 ≤ capacity
  ret : (ret s).length + 1 + room ≤ capacity

/-- A session from the prompt in state `s`: lines are received, and evaluated without an error or up to an error. It can come to
a prompt in a state for which `Q` holds. -/
inductive Session (cfg : Cfg) (depth room lv : Nat) (gs : List (Nat × Nat)) (V : Nat) (ix : String → Nat) (s0 : VM) (Q : VM → Prop) : VM → Prop
  | here {s : VM} : Q s → Session cfg depth room lv gs V ix s0 Q s
  | line {s s' t : VM} {toks : List (List Char)} : Acts cfg (depth + 1) (ix "receive") s s' → Asked lv gs room s0 s' →
      Works cfg depth room (StillLoaded lv gs s0) toks (printed s' (ascii " ")) t → (data t).length + 2 ≤ capacity →
      Session cfg depth room lv gs V ix s0 Q (setRet (answered t) (ret s')) → Session cfg depth room lv gs V ix s0 Q s
  | error {s s' : VM} {e : Exn} {P : List Cell → VM → Prop} {toks : List (List Char)} :
      Acts cfg (depth + 1) (ix "receive") s s' → Asked lv gs room s0 s' →
      Fails cfg depth room (StillLoaded lv gs s0) e P toks (printed s' (ascii " ")) →
      (∀ z u, Behind ix s0 "quit" (quitCode ix) z → P (toCell z :: ret s') u → StillLoaded lv gs s0 u ∧ Recoverable V ix u) →
      (∀ z u t, Behind ix s0 "quit" (quitCode ix) z → P (toCell z :: ret s') u → Recovered V ix s0 e u t →
        Session cfg depth room lv gs V ix s0 Q t) → Session cfg depth room lv gs V ix s0 Q s

end Verif.Spec
