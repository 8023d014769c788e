import Verif.Spec.Text
import Verif.Spec.Dictionary

/-!
# Specification of words that take a name from the text

Nothing here refers to the modelled implementation of the words.
-/

namespace Verif.Spec
open Verif

/-- The text read so far is `pre`, then come the blanks `bs`, then the token `tok`, and then `more`. The
token is empty only at the end of the text. -/
structure Next (s : VM) (pre bs tok more : List Char) : Prop where
  reading : Reading s.task pre (bs ++ (tok ++ more))
  blank : ∀ ch ∈ bs, Blank ch
  solid : ∀ ch ∈ tok, ¬Blank ch
  ends : EndsToken more
  last : tok = [] → more = []
  old : ∃ t, s.tkn = some t

/-- The machine after a token is taken from the text: only the position and the token differ. -/
def took (s : VM) (pre bs tok : List Char) : VM :=
  { s.setTask (atPosition s.task (byteLen (pre ++ bs ++ tok))) with tkn := some tok }

/-- `d'` is `d` with the cells `vs` added at its end. -/
structure Extends (d : DataSpace) (vs : List Cell) (d' : DataSpace) : Prop where
  start : d'.start = d.start
  cap : d'.cap = d.cap
  len : d'.len = d.len + 8 * vs.length
  cells : ∀ (k : Nat) (v : Cell), vs[k]? = some v → d'.cellAt (d.here + 8 * k) = v
  rest : ∀ a, a < d.here ∨ d'.here ≤ a → d'.bytes a = d.bytes a

/-- There is room for `n` more cells. -/
def RoomFor (d : DataSpace) (n : Nat) : Prop := d.here + 8 * n ≤ d.limit

/-- Same machine, one more flag on word `i`. -/
def withWord (s : VM) (i : Nat) (w : Word) : VM := { s with wl := { s.wl with words := s.wl.words.set i w } }

end Verif.Spec
