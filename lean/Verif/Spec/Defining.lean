import Verif.Spec.Quoting

/-!
# Specification of words that define words

Nothing here refers to the modelled implementation of the words.
-/

namespace Verif.Spec
open Verif

/-- Where the data of a word begins whose name is `name`, defined when `d` is the memory. -/
def bodyOf (d : DataSpace) (name : List Byte) : Nat := roundUp8 (d.here + 8 + name.length)

/-- What defining says about a name that is found already. -/
def remark (known : Bool) (name : List Byte) : List Byte := if known then ascii "Redefining " ++ name else []

/-- Between `s` and `t` a word with behaviour `p` was defined, whose name is the token `tok`, folded to lower
case, and whose data begins at `bodyOf`. The definition ends at `top`. -/
structure Defines (s t : VM) (pre bs tok : List Char) (p : Prim) (top : Nat) : Prop where
  /-- Apart from the dictionary, only the input position, the token and the output change. -/
  frame : ∃ known, (known = true ↔ ∃ i, Visible s (utf8 (tok.map lowerChar)) i) ∧
    t = { took s pre bs tok with
          tkn := some (tok.map lowerChar), wl := t.wl, ds := t.ds
          outbuf := s.outbuf.map (· ++ remark known (utf8 (tok.map lowerChar))) }
  /-- There is one more word, which is not immediate, not compile-only and not hidden. -/
  word : ∃ w : Word, t.wl.words = s.wl.words ++ [w] ∧ w.action = p ∧ w.dfa = bodyOf s.ds (utf8 (tok.map lowerChar)) ∧
    w.compSem = .word ∧ w.isImmediate = false ∧ w.isCompileOnly = false
  last : t.wl.last = s.wl.words.length
  /-- Its name finds it, in any case of letters. -/
  found : ∀ name, SameName (utf8 (tok.map lowerChar)) name → Newest t name (some s.wl.words.length)
  /-- Other names find what they found before. -/
  others : ∀ name r, ¬SameName (utf8 (tok.map lowerChar)) name → (Newest t name r ↔ Newest s name r)
  dict : Dict t
  space : SoundSpace t.ds
  start : t.ds.start = s.ds.start
  cap : t.ds.cap = s.ds.cap
  top : t.ds.here = top
  /-- Memory that was in use is not changed. -/
  below : ∀ x, x < s.ds.here → t.ds.bytes x = s.ds.bytes x

/-- Word `i` is a constant of value `v`. -/
def Constant (s : VM) (i : Nat) (v : Cell) : Prop :=
  ∃ w, s.wl.words[i]? = some w ∧ w.action = .core .pConst ∧ s.ds.cellAt w.dfa = v ∧
    s.ds.start ≤ w.dfa ∧ w.dfa + 8 ≤ s.ds.limit

/-- Word `i` is a float constant of value `v`. -/
def FConstant (s : VM) (i : Nat) (v : F64) : Prop :=
  ∃ w, s.wl.words[i]? = some w ∧ w.action = .flt .pFconst ∧ s.ds.cellAt (roundUp8 w.dfa) = v ∧
    s.ds.start ≤ w.dfa ∧ roundUp8 w.dfa + 8 ≤ s.ds.limit

/-- Word `i` pushes the address `a`. -/
def Variable (s : VM) (i a : Nat) : Prop := ∃ w, s.wl.words[i]? = some w ∧ w.action = .core .pVar ∧ w.dfa = a

end Verif.Spec
