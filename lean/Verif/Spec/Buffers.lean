import Verif.Spec.Reach

/-!
# Buffers in their places

Words take the token, the text being read and other buffers out of the machine while they use them.
-/

namespace Verif.Spec
open Verif

/-- Every buffer is in its place: the token, the output, and the line of every open source of every
task. The last condition holds of every machine with the standard words. -/
structure Ready (s : VM) : Prop where
  token : s.tkn.isSome
  output : s.outbuf.isSome
  lines : ∀ j l, l ∈ (s.tasks j).lines → l.isSome
  regular : ¬ Irregular s

/-- Every task that had a text from the terminal still has one. -/
def KeepsTexts (s t : VM) : Prop :=
  ∀ j, (s.tasks j).inbuf.isSome → (t.tasks j).inbuf.isSome

end Verif.Spec
