import Verif.Spec.Memory

/-!
# Counted strings
-/

namespace Verif.Spec
open Verif

/-- At `a` there is a byte with the number of bytes, and the bytes `bs` follow. -/
def Counted (d : DataSpace) (a : Nat) (bs : List Byte) : Prop :=
  (d.bytes a).toNat = bs.length ∧ ∀ i b, bs[i]? = some b → d.bytes (a + 1 + i) = b

/-- `e` is `d` with other bytes in `[a, a + n)` at most. -/
def WrittenIn (a n : Nat) (d e : DataSpace) : Prop :=
  e.start = d.start ∧ e.cap = d.cap ∧ e.len = d.len ∧ ∀ x, x < a ∨ a + n ≤ x → e.bytes x = d.bytes x

end Verif.Spec
