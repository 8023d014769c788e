import Verif.Model.Basic

/-!
# Rust integer arithmetic whose overflow behaviour depends on the build profile

`oc` is `Cfg.overflowChecks`: with checks an overflow panics, without it wraps. The reference is
the Rust language; each use in the model cites the expression in `/repo` it stands for.
-/

namespace Verif

/-- `a + b` on `usize`. -/
def uadd (oc : Bool) (a b : Nat) : Except Fault Nat :=
  if a + b < usizeMod then .ok (a + b)
  else if oc then .error .panic else .ok ((a + b) % usizeMod)

/-- `a - b` on `usize`. -/
def usub (oc : Bool) (a b : Nat) : Except Fault Nat :=
  if b ≤ a then .ok (a - b)
  else if oc then .error .panic else .ok ((usizeMod - b % usizeMod + a) % usizeMod)

/-- Whether a mathematical integer is an `isize`. -/
def inIsize (i : Int) : Prop := -9223372036854775808 ≤ i ∧ i ≤ 9223372036854775807

instance (i : Int) : Decidable (inIsize i) := by unfold inIsize; infer_instance

/-- `a + b` on `isize`. -/
def iadd (oc : Bool) (a b : Cell) : Except Fault Cell :=
  if inIsize (a.toInt + b.toInt) then .ok (a + b)
  else if oc then .error .panic else .ok (a + b)

/-- `a - b` on `isize`. -/
def isub (oc : Bool) (a b : Cell) : Except Fault Cell :=
  if inIsize (a.toInt - b.toInt) then .ok (a - b)
  else if oc then .error .panic else .ok (a - b)

/-- `a * b` on `isize`. -/
def imul (oc : Bool) (a b : Cell) : Except Fault Cell :=
  if inIsize (a.toInt * b.toInt) then .ok (a * b)
  else if oc then .error .panic else .ok (a * b)

/-- `a - b` on `u8` (src/core.rs 1081 `p_j`, 1651 `p_i`). -/
def u8sub (oc : Bool) (a b : BitVec 8) : Except Fault (BitVec 8) :=
  if b.toNat ≤ a.toNat then .ok (a - b)
  else if oc then .error .panic else .ok (a - b)

/-- `x as isize` for `x : usize`. -/
def toCell (n : Nat) : Cell := BitVec.ofNat 64 n

end Verif
