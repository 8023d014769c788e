import Verif.Spec.Balance
import Verif.Spec.Source

/-!
# A machine stopped by an error
-/

namespace Verif.Spec
open Verif

/-- Evaluation has been stopped by an error. The stacks have been emptied, apart from the return stack; nothing is
running and no label is awaited. Whether the machine is interpreting, and what the error was, is left open. -/
structure Halted (s : VM) : Prop where
  token : s.tkn.isSome = true
  idle : Idle s
  dict : Dict s
  space : SoundSpace s.ds
  data : Calm s.task.s
  floats : Calm s.task.f
  control : Calm s.task.c
  balanced : s.task.c.items = []
  labels : s.forward = []

/-- What stays from `s` to `t`: every word, the words the compiler refers to, the error handler, the data space, the number
base and the text from the terminal. -/
structure Keeps (s t : VM) : Prop where
  words : ∀ (i : Nat) (w : Word), s.wl.words[i]? = some w → t.wl.words[i]? = some w
  refs : t.refs = s.refs
  handler : t.handler = s.handler
  start : t.ds.start = s.ds.start
  cap : t.ds.cap = s.ds.cap
  base : baseOf t = baseOf s
  inbuf : t.task.inbuf = s.task.inbuf

/-- After a reset the machine `t` compiles every properly nested definition written with the words of `s`, for which there
is room: evaluation goes on without an error, and the new word is found. -/
def Recovers (cfg : Cfg) (depth lv : Nat) (s t : VM) : Prop :=
  ∀ (text name : List Char) (items : List Item) (rest : List Char), byteLen text < 2 ^ 63 →
    Definition cfg.fops s text name items rest → (∀ it ∈ items, it.Ordinary s.wl lv) → Shallow lv items →
    Nested s.refs lv items →
    roundUp8 (t.ds.here + 8 + (utf8 (name.map lowerChar)).length) + itemsRoom items + 8 ≤ t.ds.limit →
    ∃ u v, (do reset (ctx cfg (depth + 2)); setSource text) t = .ok ((), u) ∧ Leads cfg (depth + 2) u v ∧ Listening v ∧
      ∀ nm, SameName (utf8 (name.map lowerChar)) nm → Newest v nm (some t.wl.words.length)

end Verif.Spec
