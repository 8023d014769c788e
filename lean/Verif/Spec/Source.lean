import Verif.Spec.Layout
import Verif.Spec.Dictionary
import Verif.Spec.Numbers
import Verif.Spec.Text

/-!
# Source text of a definition

Which items a text spells, given the words and the number base of a machine.
-/

namespace Verif.Spec
open Verif

/-- The number base of the machine. -/
def baseOf (s : VM) : Int := (s.ds.cellAt s.ds.baseAddr).toInt

/-- What a token means to the compiler of machine `s`: the newest visible word of that name, or else a
number, or else a float. -/
inductive Spells (f : FloatOps) (s : VM) (tok : List Char) : Item → Prop
  | word {i : Nat} {w : Word} : Newest s (utf8 tok) (some i) → s.wl.words[i]? = some w →
      w.isImmediate = false → Spells f s tok (.word i)
  | imm {i : Nat} {w : Word} {p : CorePrim} : Newest s (utf8 tok) (some i) → s.wl.words[i]? = some w →
      w.isImmediate = true → w.action = .core p → Spells f s tok (.imm p)
  | lit {v : Cell} : Newest s (utf8 tok) none → IntegerToken (baseOf s) (utf8 tok) v →
      Spells f s tok (.lit v)
  | flt {v : F64} : Newest s (utf8 tok) none → (∀ n, ¬ IntegerToken (baseOf s) (utf8 tok) n) →
      FloatToken f (utf8 tok) v → Spells f s tok (.flt v)

/-- `text` spells the items and then `rest`. -/
inductive Written (f : FloatOps) (s : VM) : (text : List Char) → List Item → (rest : List Char) → Prop
  | done {text : List Char} : Written f s text [] text
  | token {bs t text rest : List Char} {i : Item} {l : List Item} : (∀ ch ∈ bs, Blank ch) → t ≠ [] →
      (∀ ch ∈ t, ¬ Blank ch) → EndsToken text → Spells f s t i → Written f s text l rest →
      Written f s (bs ++ (t ++ text)) (i :: l) rest
  /-- `s"`, one blank, the string, a quote -/
  | string {bs t cs text rest : List Char} {b : Char} {i : Nat} {w : Word} {l : List Item} :
      (∀ ch ∈ bs, Blank ch) → t ≠ [] → (∀ ch ∈ t, ¬ Blank ch) → Blank b →
      Newest s (utf8 t) (some i) → s.wl.words[i]? = some w → w.isImmediate = true →
      w.action = .out .sQuote → '"' ∉ cs → Written f s text l rest →
      Written f s (bs ++ (t ++ (b :: (cs ++ '"' :: text)))) (.str (utf8 cs) :: l) rest

/-- A stack that raises no alarm: not too deep, its guard slots untouched. -/
structure Calm {α : Type} (st : Stack α) : Prop where
  depth : st.items.length ≤ capacity
  over : st.inner 64 = st.canary
  under : st.inner 255 = st.canary

/-- Nothing is running: the instruction pointer is outside of the data space. -/
def Idle (s : VM) : Prop := (pc s < s.ds.start ∨ s.ds.limit < pc s + 8) ∧ pc s + 8 < 2 ^ 64

/-- A machine that is compiling a definition, wherever it was told to. -/
structure Composing (s : VM) : Prop where
  compiling : s.task.st.isCompiling = true
  noError : s.lastError = none
  dict : Dict s
  space : SoundSpace s.ds

/-- A machine that is compiling a definition from its input. -/
structure Typing (s : VM) : Prop where
  compiling : s.task.st.isCompiling = true
  noError : s.lastError = none
  idle : Idle s
  dict : Dict s
  space : SoundSpace s.ds
  data : Calm s.task.s
  ret : Calm s.task.r
  floats : Calm s.task.f
  control : Calm s.task.c

/-- A machine that waits for input to interpret: nothing is running, being compiled or wrong. -/
structure Listening (s : VM) : Prop where
  interpreting : s.task.st.isCompiling = false
  noError : s.lastError = none
  token : s.tkn.isSome = true
  idle : Idle s
  dict : Dict s
  space : SoundSpace s.ds
  data : Calm s.task.s
  ret : Calm s.task.r
  floats : Calm s.task.f
  control : Calm s.task.c
  balanced : s.task.c.items = []
  labels : s.forward = []

/-- The next token of `text` is `t`, and then comes `rest`. -/
def Reads (text t rest : List Char) : Prop :=
  ∃ bs, text = bs ++ (t ++ rest) ∧ (∀ ch ∈ bs, Blank ch) ∧ t ≠ [] ∧ (∀ ch ∈ t, ¬ Blank ch) ∧ EndsToken rest

/-- `text` is `: name body ;` and then `rest`, and `body` spells `items`. -/
structure Definition (f : FloatOps) (s : VM) (text name : List Char) (items : List Item) (rest : List Char) :
    Prop where
  intro ::
  parts : ∃ tc ts t1 t2 t3 ic is wc ws, Reads text tc t1 ∧ Reads t1 name t2 ∧ Written f s t2 items t3 ∧
    Reads t3 ts rest ∧
    Newest s (utf8 tc) (some ic) ∧ s.wl.words[ic]? = some wc ∧ wc.action = .core .colon ∧
    wc.isCompileOnly = false ∧
    Newest s (utf8 ts) (some is) ∧ s.wl.words[is]? = some ws ∧ ws.action = .core .semicolon ∧
    ws.isImmediate = true

/-- Evaluating the rest of the input from `s` comes to evaluating it from `t`, whatever happens then. -/
def Leads (cfg : Cfg) (depth : Nat) (s t : VM) : Prop :=
  ∃ n m, ∀ fuel, evaluateInput cfg depth (fuel + n) s = evaluateInput cfg depth (fuel + m) t

/-- The machine after it has read `tok`, up to byte `n` of the input. -/
def received (s : VM) (tok : List Char) (n : Nat) : VM :=
  { s.setTask { s.task with st := { s.task.st with sourceIndex := n } } with tkn := some tok }

/-- What is asked of a program to be compiled at `a`: it calls words that are compiled as calls, every
`LEAVE` is in a loop, it is not nested too deeply, and there is room. -/
structure Compilable (s : VM) (p : Stmt) (a : Nat) : Prop where
  calls : ∀ i ∈ p.calls, Plain s.wl i
  leaves : p.leavesOk false = true
  height : p.height ≤ 64
  room : p.next a + 8 ≤ s.ds.limit

end Verif.Spec
