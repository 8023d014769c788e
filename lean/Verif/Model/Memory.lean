import Verif.Model.Arith

/-!
# The data space (src/memory.rs)

A byte array at addresses `start ≤ a < start + cap`. The allocator returns page-aligned memory
whose end is at most `isize::MAX`, so address arithmetic on `start`, `limit` and `here` is exact;
arithmetic on addresses supplied by programs goes through `uadd`.
-/

namespace Verif

/-- src/memory.rs 21-27 `DataSpace`: `inner` (the pointer) is `start`, the memory behind it is
`bytes`, indexed by absolute address. -/
structure DataSpace where
  bytes : Nat → Byte
  start : Nat
  cap : Nat
  len : Nat

namespace DataSpace

/-- src/memory.rs 80-82 `limit`. -/
def limit (d : DataSpace) : Nat := d.start + d.cap

/-- src/memory.rs 88-90 `here`. -/
def here (d : DataSpace) : Nat := d.start + d.len

/-- src/memory.rs 92-101 `set_here`; the `Err` result is ignored by all callers (275-311), so
out of range the data space is returned unchanged. -/
def setHere (d : DataSpace) (pos : Nat) : DataSpace :=
  if d.start ≤ pos ∧ pos ≤ d.limit then { d with len := pos - d.start } else d

/-- Whether `[a, a+n)` is inside the allocation: the condition for a raw access to be defined. -/
def valid (d : DataSpace) (a n : Nat) : Prop := d.start ≤ a ∧ a + n ≤ d.limit

instance (d : DataSpace) (a n : Nat) : Decidable (d.valid a n) := by unfold valid; infer_instance

/-- Byte `i` of a cell, little endian. -/
def byteOf (v : Cell) (i : Nat) : Byte := BitVec.ofNat 8 (v.toNat / 256 ^ i)

/-- The cell stored at `a`, little endian; bounds are checked by the callers below. -/
def cellAt (d : DataSpace) (a : Nat) : Cell :=
  BitVec.ofNat 64
    ((d.bytes a).toNat + (d.bytes (a + 1)).toNat * 256 + (d.bytes (a + 2)).toNat * 256 ^ 2
      + (d.bytes (a + 3)).toNat * 256 ^ 3 + (d.bytes (a + 4)).toNat * 256 ^ 4
      + (d.bytes (a + 5)).toNat * 256 ^ 5 + (d.bytes (a + 6)).toNat * 256 ^ 6
      + (d.bytes (a + 7)).toNat * 256 ^ 7)

/-- Memory with the cell at `a` replaced. -/
def setCell (d : DataSpace) (a : Nat) (v : Cell) : DataSpace :=
  { d with bytes := fun x => if a ≤ x ∧ x < a + 8 then byteOf v (x - a) else d.bytes x }

/-- Memory with the byte at `a` replaced. -/
def setByte (d : DataSpace) (a : Nat) (v : Byte) : DataSpace :=
  { d with bytes := fun x => if x = a then v else d.bytes x }

/-- `n` bytes from address `a`. -/
def bytesAt (d : DataSpace) (a n : Nat) : List Byte := (List.range n).map fun i => d.bytes (a + i)

/-- Memory with consecutive bytes from `a` replaced by `bs`. -/
def setBytes (d : DataSpace) (a : Nat) (bs : List Byte) : DataSpace :=
  { d with bytes := fun x => if a ≤ x ∧ x < a + bs.length then bs.getD (x - a) 0 else d.bytes x }

/-- src/memory.rs 127-129 `get_u8`. -/
def getU8 (d : DataSpace) (a : Nat) : Except Fault Byte :=
  if d.valid a 1 then .ok (d.bytes a) else .error .ub

/-- src/memory.rs 131-141 `get_usize`, `get_isize`, `get_f64`: 8 bytes. -/
def getCell (d : DataSpace) (a : Nat) : Except Fault Cell :=
  if d.valid a 8 then .ok (d.cellAt a) else .error .ub

/-- src/memory.rs 149-160 `str_from_raw_parts`, `buffer_from_raw_parts(_mut)`. An empty slice reads
nothing and is accepted at any address. -/
def getBytes (d : DataSpace) (a n : Nat) : Except Fault (List Byte) :=
  if n = 0 then .ok [] else
  if d.valid a n then .ok (d.bytesAt a n) else .error .ub

/-- src/memory.rs 143-147 `get_str`: a length cell followed by the bytes. -/
def getStr (oc : Bool) (d : DataSpace) (a : Nat) : Except Fault (List Byte) := do
  let len ← d.getCell a
  let p ← uadd oc a 8
  d.getBytes p len.toNat

/-- src/memory.rs 163-165 `put_u8`. -/
def putU8 (d : DataSpace) (v : Byte) (a : Nat) : Except Fault DataSpace :=
  if d.valid a 1 then .ok (d.setByte a v) else .error .ub

/-- src/memory.rs 180-182, 202-204, 217-219 `put_usize`, `put_isize`, `put_f64`. -/
def putCell (d : DataSpace) (v : Cell) (a : Nat) : Except Fault DataSpace :=
  if d.valid a 8 then .ok (d.setCell a v) else .error .ub

/-- src/memory.rs 304-307 `allot`: `(here as isize + v) as usize`. -/
def allot (oc : Bool) (d : DataSpace) (v : Cell) : Except Fault DataSpace := do
  let h ← iadd oc (toCell d.here) v
  .ok (d.setHere h.toNat)

/-- src/memory.rs 168-178 `compile_u8`. -/
def compileU8 (oc : Bool) (d : DataSpace) (v : Byte) : Except Fault DataSpace :=
  if d.here < d.limit then do
    let d' ← d.putU8 v d.here
    d'.allot oc 1
  else .error .panic

/-- src/memory.rs 184-194, 206-216, 221-231 `compile_usize`, `compile_isize`, `compile_f64`. -/
def compileCell (oc : Bool) (d : DataSpace) (v : Cell) : Except Fault DataSpace :=
  if d.here + 8 ≤ d.limit then do
    let d' ← d.putCell v d.here
    d'.allot oc 8
  else .error .panic

/-- The byte loop of `put_cstr`, src/memory.rs 242-247. -/
def putCstrLoop (d : DataSpace) : List Byte → Nat → Except Fault DataSpace
  | [], _ => .ok d
  | b :: bs, p => do
    let d' ← d.putU8 b (p + 1)
    d'.putCstrLoop bs (p + 1)

/-- src/memory.rs 234-251 `put_cstr`: one count byte, then at most 255 bytes. -/
def putCstr (oc : Bool) (d : DataSpace) (s : List Byte) (pos : Nat) : Except Fault DataSpace := do
  let len := min s.length 255
  let e ← uadd oc pos len
  let e ← uadd oc e 8
  if e ≤ d.limit then do
    let d' ← d.putU8 (BitVec.ofNat 8 len) pos
    d'.putCstrLoop (s.take len) pos
  else .error .panic

/-- The byte loop of `compile_str`, src/memory.rs 259-261. -/
def compileBytes (oc : Bool) (d : DataSpace) : List Byte → Except Fault DataSpace
  | [] => .ok d
  | b :: bs => do
    let d' ← d.compileU8 oc b
    d'.compileBytes oc bs

/-- src/memory.rs 253-266 `compile_str`; returns the address of the length cell. -/
def compileStr (oc : Bool) (d : DataSpace) (s : List Byte) : Except Fault (Nat × DataSpace) :=
  if d.here + s.length + 8 ≤ d.limit then do
    let d' ← d.compileCell oc (toCell s.length)
    let d'' ← d'.compileBytes oc s
    .ok (d.here, d'')
  else .error .panic

/-- The expression `(pos + align - 1) & align.wrapping_neg()` of src/memory.rs 269-302;
`align.wrapping_neg()` is `2^64 - align` for a non-zero `align`. -/
def alignedTo (oc : Bool) (al pos : Nat) : Except Fault Nat := do
  let a ← uadd oc pos al
  let b ← usub oc a 1
  .ok (b &&& (usizeMod - al))

/-- src/memory.rs 269-272 `aligned` and 281-284 `aligned_f64` (the same code with the same
alignment 8). -/
def aligned (oc : Bool) (pos : Nat) : Except Fault Nat := alignedTo oc 8 pos

/-- src/memory.rs 293-296 `aligned_16bytes`. -/
def aligned16 (oc : Bool) (pos : Nat) : Except Fault Nat := alignedTo oc 16 pos

/-- src/memory.rs 275-278 `align` and 287-290 `align_f64`. -/
def align (oc : Bool) (d : DataSpace) : Except Fault DataSpace := do
  let p ← aligned oc d.here
  .ok (d.setHere p)

/-- src/memory.rs 299-302 `align_16bytes` (not called anywhere). -/
def align16 (oc : Bool) (d : DataSpace) : Except Fault DataSpace := do
  let p ← aligned16 oc d.here
  .ok (d.setHere p)

/-- src/memory.rs 309-311 `truncate`. -/
def truncate (d : DataSpace) (pos : Nat) : DataSpace := d.setHere pos

/-- src/memory.rs 15-17 `base_addr`: the second field of `SystemVariables` at the start of the
data space. -/
def baseAddr (d : DataSpace) : Nat := d.start + 8

/-- src/memory.rs 35-54 `with_capacity`: zeroed memory, `null = 0`, `base = 10`, and `len` past the
two system variables. The address is chosen by the allocator. -/
def withCapacity (start cap : Nat) : DataSpace :=
  ({ bytes := fun _ => 0, start := start, cap := cap, len := 16 } : DataSpace).setCell (start + 8) 10

end DataSpace
end Verif
