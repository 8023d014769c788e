import Verif.Spec.Library
import Verif.Spec.Text

/-!
# Words made by defining words
-/

namespace Verif.Spec
open Verif

/-- Word `i` has its data at `a`, and behaves as the code at `p` says. -/
def MadeBy (s : VM) (i a p : Nat) : Prop :=
  ∃ w, s.wl.words[i]? = some w ∧ w.action = .core .doesAction ∧ w.dfa = a ∧ w.doer = p

/-- Word `i` was made by `create`. Its data are at `a`. -/
def Created (s : VM) (i a : Nat) : Prop := ∃ w, s.wl.words[i]? = some w ∧ w.action = .core .pVar ∧ w.dfa = a

/-- The code of a definition `create p does> q`, where `cr` is the number of `create`. -/
def definer (R : Refs) (cr : Nat) (p q : Stmt) : Stmt :=
  .seq (.word cr) (.seq p (.seq (.word R.doesRt) (.seq .exit q)))

/-- Where the code after `does>` begins. -/
def afterDoes (p : Stmt) (a : Nat) : Nat := p.next (a + 8) + 16

/-- The next token in the input is `tok`. -/
def Naming (s : VM) (tok : List Char) : Prop :=
  ∃ pre rest old toks, Reading s.task pre rest ∧ s.tkn = some old ∧ Tokens rest (tok :: toks)

/-- The machine after `does>` has run: a cell has been compiled, and the newest word has a new behaviour. -/
def doesDone (s : VM) (p : Nat) : VM :=
  { s with
    ds := { s.ds.setCell s.ds.here (BitVec.ofNat 64 p) with len := s.ds.len + 8 }
    wl := { s.wl with words := s.wl.words.modify s.wl.last fun w => { w with action := .core .doesAction, doer := p } } }

/-- The defining words of core.fth 41, 44 and 45. -/
def doesUses : List String := ["create", "over", ",", "+", "@", "execute", "_does", "noop"]

/-- What `noop` does, and what words made by programs do, except markers. -/
def calledActions : List Prim := [.core .noop, .core .nest, .core .pVar, .core .pConst, .core .doesAction, .flt .pFconst]

/-- The defining words. `defer` starts with `noop` as what its words execute. -/
def definers (R : Refs) (ix : String → Nat) : List (String × Stmt) := [
  ("2constant", definer R (ix "create") (code ix ["2,"]) (code ix ["2@"])),
  ("+field", definer R (ix "create") (code ix ["over", ",", "+"]) (code ix ["@", "+"])),
  ("defer", definer R (ix "create") (code ix [.num (BitVec.ofNat 64 (ix "noop")), ","]) (code ix ["@", "execute"]))]

/-- The machine has the defining words, and the words they use. -/
structure HasDefiners (lv lo hi : Nat) (ix : String → Nat) (s : VM) : Prop where
  equipped : Equipped lv lo hi ix s
  uses : ∀ name, name ∈ doesUses → Builtin s.wl (ix name) name
  does : s.refs.doesRt = ix "_does"
  coded : Coded s.refs lv s.wl lo hi s.ds ix (definers s.refs ix)

/-- Word `i` was made by the defining word `D`, whose code before `does>` is `p`, and has its data at `a`. -/
def MadeWith (s : VM) (i a D : Nat) (p : Stmt) : Prop :=
  ∃ w, s.wl.words[D]? = some w ∧ MadeBy s i a (afterDoes p w.dfa)

/-- The words and the memory in use are as they were, and there is one more word. -/
structure OneMore (s v : VM) : Prop where
  length : v.wl.words.length = s.wl.words.length + 1
  last : v.wl.last = s.wl.words.length
  words : ∀ i, i < s.wl.words.length → v.wl.words[i]? = s.wl.words[i]?
  start : v.ds.start = s.ds.start
  cap : v.ds.cap = s.ds.cap
  bytes : ∀ x, x < s.ds.here → v.ds.bytes x = s.ds.bytes x

end Verif.Spec
