import Verif.Model.Basic

/-!
# Ring-buffer stacks (src/core.rs 190-289)
-/

namespace Verif

/-- src/core.rs 190-194 `Stack<T>`: 256 slots, an 8-bit length that wraps, a guard value. -/
structure Stack (α : Type) where
  inner : BitVec 8 → α
  len : BitVec 8
  canary : α

namespace Stack
variable {α : Type}

/-- Assignment to one slot, `self.inner[i] = v`. -/
def setSlot (st : Stack α) (i : BitVec 8) (v : α) : Stack α :=
  { st with inner := fun j => if j = i then v else st.inner j }

/-- src/core.rs 197-205 `new` (which calls `reset`). -/
def new (canary : α) : Stack α := { inner := fun _ => canary, len := 0, canary := canary }

/-- src/core.rs 207-212 `reset`. -/
def reset (st : Stack α) : Stack α := { st with inner := fun _ => st.canary, len := 0 }

/-- src/core.rs 214-216 `underflow`. For `f64` the comparison `!=` with the guard 1.234567890
is bit inequality, as the guard is neither NaN nor zero. -/
def underflow [DecidableEq α] (st : Stack α) : Bool :=
  decide (st.inner 255 ≠ st.canary) || decide (st.len.toNat > 128)

/-- src/core.rs 218-220 `overflow`. -/
def overflow [DecidableEq α] (st : Stack α) : Bool :=
  decide (st.inner 64 ≠ st.canary) || (decide (st.len.toNat > 64) && decide (st.len.toNat ≤ 128))

/-- src/core.rs 222-226 `push`. -/
def push (st : Stack α) (v : α) : Stack α :=
  let len := st.len + 1
  { st with len := len }.setSlot (len - 1) v

/-- src/core.rs 228-232 `pop`. -/
def pop (st : Stack α) : α × Stack α :=
  (st.inner (st.len - 1), { st with len := st.len - 1 })

/-- src/core.rs 234-239 `push2`. -/
def push2 (st : Stack α) (v1 v2 : α) : Stack α :=
  let len := st.len + 2
  ({ st with len := len }.setSlot (len - 2) v1).setSlot (len - 1) v2

/-- src/core.rs 241-247 `push3`. -/
def push3 (st : Stack α) (v1 v2 v3 : α) : Stack α :=
  let len := st.len + 3
  (({ st with len := len }.setSlot (len - 3) v1).setSlot (len - 2) v2).setSlot (len - 1) v3

/-- src/core.rs 249-256 `pop2`: the pair is (second, top). -/
def pop2 (st : Stack α) : (α × α) × Stack α :=
  ((st.inner (st.len - 2), st.inner (st.len - 1)), { st with len := st.len - 2 })

/-- src/core.rs 258-266 `pop3`: the triple is (third, second, top). -/
def pop3 (st : Stack α) : (α × α × α) × Stack α :=
  ((st.inner (st.len - 3), st.inner (st.len - 2), st.inner (st.len - 1)),
    { st with len := st.len - 3 })

/-- src/core.rs 268-270 `last`. -/
def last (st : Stack α) : α := st.inner (st.len - 1)

/-- src/core.rs 272-274 `get` and 291-333 `Index<u8>`. -/
def get (st : Stack α) (pos : BitVec 8) : α := st.inner pos

/-- src/core.rs 280-282 `is_empty`. -/
def isEmpty (st : Stack α) : Bool := decide (st.len = 0)

/-- src/core.rs 286-288 `as_slice`: bottom first. -/
def asList (st : Stack α) : List α :=
  (List.range st.len.toNat).map fun i => st.inner (BitVec.ofNat 8 i)

end Stack
end Verif
