import Verif.Model.Outer

/-!
# Stack, arithmetic, comparison, memory and return-stack words (src/core.rs 2457-3060)
-/

namespace Verif

namespace Stack
variable {α : Type}

/-- src/core.rs 2482-2488 `swap`. -/
def swap (st : Stack α) : Stack α :=
  (st.setSlot (st.len - 1) (st.inner (st.len - 2))).setSlot (st.len - 2) (st.inner (st.len - 1))

/-- src/core.rs 2490-2494 `dup`. -/
def dup (st : Stack α) : Stack α :=
  { st with len := st.len + 1 }.setSlot (st.len + 1 - 1) (st.inner (st.len + 1 - 2))

/-- src/core.rs 2496-2499 `p_drop`. -/
def drop (st : Stack α) : Stack α := { st with len := st.len - 1 }

/-- src/core.rs 2508-2513 `nip`. -/
def nip (st : Stack α) : Stack α :=
  { st with len := st.len - 1 }.setSlot (st.len - 1 - 1) (st.inner (st.len - 1))

/-- src/core.rs 2515-2519 `over`. -/
def over (st : Stack α) : Stack α :=
  { st with len := st.len + 1 }.setSlot (st.len + 1 - 1) (st.inner (st.len + 1 - 3))

/-- src/core.rs 2521-2528 `rot`. -/
def rot (st : Stack α) : Stack α :=
  ((st.setSlot (st.len - 1) (st.inner (st.len - 3))).setSlot (st.len - 2)
    (st.inner (st.len - 1))).setSlot (st.len - 3) (st.inner (st.len - 2))

/-- src/core.rs 2530-2537 `minus_rot`. -/
def minusRot (st : Stack α) : Stack α :=
  ((st.setSlot (st.len - 2) (st.inner (st.len - 3))).setSlot (st.len - 3)
    (st.inner (st.len - 1))).setSlot (st.len - 1) (st.inner (st.len - 2))

/-- src/core.rs 2549-2552 `two_drop`. -/
def twoDrop (st : Stack α) : Stack α := { st with len := st.len - 2 }

/-- src/core.rs 2554-2559 `two_dup`. The second assignment reads after the first, which wrote
another slot. -/
def twoDup (st : Stack α) : Stack α :=
  let st1 := { st with len := st.len + 2 }.setSlot (st.len + 2 - 1) (st.inner (st.len + 2 - 3))
  st1.setSlot (st.len + 2 - 2) (st1.inner (st.len + 2 - 4))

/-- src/core.rs 2561-2569 `two_swap`. -/
def twoSwap (st : Stack α) : Stack α :=
  (((st.setSlot (st.len - 1) (st.inner (st.len - 3))).setSlot (st.len - 2)
    (st.inner (st.len - 4))).setSlot (st.len - 3) (st.inner (st.len - 1))).setSlot (st.len - 4)
    (st.inner (st.len - 2))

/-- src/core.rs 2571-2576 `two_over`. -/
def twoOver (st : Stack α) : Stack α :=
  let st1 := { st with len := st.len + 2 }.setSlot (st.len + 2 - 1) (st.inner (st.len + 2 - 5))
  st1.setSlot (st.len + 2 - 2) (st1.inner (st.len + 2 - 6))

/-- The shape of `plus`, `minus`, `star` and the division words (src/core.rs 2596-2651): the result
replaces the second element, and the length goes down by one. -/
def binop (st : Stack α) (f : α → α → α) : Stack α :=
  { st.setSlot (st.len - 2) (f (st.inner (st.len - 2)) (st.inner (st.len - 1))) with
    len := st.len - 1 }

/-- The shape of `one_plus` and `one_minus` (src/core.rs 2583-2594). -/
def unop (st : Stack α) (f : α → α) : Stack α :=
  st.setSlot (st.len - 1) (f (st.inner (st.len - 1)))

end Stack

/-- src/core.rs 2542-2547 `pick`: the count is taken modulo 256 (`as u8`). -/
def Stack.pick (st : Stack Cell) : Stack Cell :=
  let t : BitVec 8 := (st.inner (st.len - 1)).setWidth 8
  st.setSlot (st.len - 1) (st.inner (st.len - (t + 2)))

/-- Change the data stack. -/
def modS (f : Stack Cell → Stack Cell) : M Unit := modTask fun t => { t with s := f t.s }

/-- Change the float stack. -/
def modF (f : Stack F64 → Stack F64) : M Unit := modTask fun t => { t with f := f t.f }

/-- src/core.rs 2578-2581 `depth`. -/
def depth : M Unit := do
  let t ← getTask
  sPush (t.s.len.setWidth 64)

/-- src/core.rs 2461-2464 `char_plus`: plain `+`. -/
def charPlus (c : Ctx) : M Unit := do
  let v ← sPop
  let r ← liftE (iadd c.oc v 1)
  sPush r

/-- src/core.rs 2469-2472 `cell_plus` and src/float.rs 75-78 `float_plus`: plain `+`. -/
def cellPlus (c : Ctx) : M Unit := do
  let v ← sPop
  let r ← liftE (iadd c.oc v 8)
  sPush r

/-- src/core.rs 2477-2480 `cells` and src/float.rs 83-86 `floats`: plain `*`. -/
def cells (c : Ctx) : M Unit := do
  let v ← sPop
  let r ← liftE (imul c.oc v 8)
  sPush r

/-- src/core.rs 2617-2651 `slash`, `p_mod`: `wrapping_div` is `BitVec.sdiv`, `wrapping_rem` is
`BitVec.srem` (truncating). -/
def divOp (c : Ctx) (f : Cell → Cell → Cell) : M Unit := do
  let t ← getTask
  if t.s.inner (t.s.len - 1) = 0 then abortWith c .divisionByZero
  else modS fun st => st.binop f

/-- The stack change of `slash_mod`, src/core.rs 2646-2650. -/
def slashModS (st : Stack Cell) : Stack Cell :=
  let n := st.inner (st.len - 2)
  let t := st.inner (st.len - 1)
  (st.setSlot (st.len - 2) (n.srem t)).setSlot (st.len - 1) (n.sdiv t)

/-- src/core.rs 2641-2651 `slash_mod`. -/
def slashMod (c : Ctx) : M Unit := do
  let t ← getTask
  if t.s.inner (t.s.len - 1) = 0 then abortWith c .divisionByZero
  else modS slashModS

/-- `wrapping_abs`, src/core.rs 2655. -/
def cellAbs (t : Cell) : Cell := if t.toInt < 0 then -t else t

/-- The shape pop, then push (src/core.rs 2653-2685, 2717). -/
def pop1Push (f : Cell → Cell) : M Unit := do
  let t ← sPop
  sPush (f t)

/-- The shape pop2, then push (src/core.rs 2687-2756); `f n t` with `t` the top. -/
def pop2Push (f : Cell → Cell → Cell) : M Unit := do
  let (n, t) ← sPop2
  sPush (f n t)

/-- src/core.rs 2709-2713 `within`: signed and half open. -/
def within : M Unit := do
  let (x1, x2, x3) ← sPop3
  sPush (flag (decide (x2.toInt ≤ x1.toInt) && decide (x1.toInt < x3.toInt)))

/-- `n.wrapping_shl(t as u32)`, src/core.rs 2745: the count is taken modulo 64. -/
def shl (n t : Cell) : Cell := n <<< (t.toNat % 64)

/-- `(n as usize).wrapping_shr(t as u32)`, src/core.rs 2753. -/
def shr (n t : Cell) : Cell := n >>> (t.toNat % 64)

/-- src/core.rs 2765-2769 `exit`. -/
def exit : M Unit := do
  let v ← rPop
  setIp v.toNat

/-- src/core.rs 2774-2776 `bye`. -/
def bye : M Unit := setIp 0

/-- The address test of `fetch` and `store` (src/core.rs 2783, 2798):
`start < t && t + 8 <= limit`, the sum being plain `usize` arithmetic evaluated only when the first
test holds. -/
def cellAddrOk (oc : Bool) (d : DataSpace) (t : Nat) : Except Fault Bool :=
  if d.start < t then do
    let e ← uadd oc t 8
    .ok (decide (e ≤ d.limit))
  else .ok false

/-- src/core.rs 2781-2790 `fetch`. -/
def fetch (c : Ctx) : M Unit := do
  let t ← sPop
  let ok ← dsRd fun d => cellAddrOk c.oc d t.toNat
  if ok then do
    let v ← dsRd fun d => d.getCell t.toNat
    sPush v
  else abortWith c .invalidMemoryAddress

/-- src/core.rs 2795-2804 `store`. -/
def store (c : Ctx) : M Unit := do
  let (n, t) ← sPop2
  let ok ← dsRd fun d => cellAddrOk c.oc d t.toNat
  if ok then dsOp fun d => d.putCell n t.toNat
  else abortWith c .invalidMemoryAddress

/-- src/core.rs 2810-2818 `c_fetch`. -/
def cFetch (c : Ctx) : M Unit := do
  let t ← sPop
  let d ← getDs
  if d.start ≤ t.toNat ∧ t.toNat < d.limit then do
    let v ← dsRd fun d => d.getU8 t.toNat
    sPush (v.setWidth 64)
  else abortWith c .invalidMemoryAddress

/-- src/core.rs 2825-2833 `c_store`. -/
def cStore (c : Ctx) : M Unit := do
  let (n, t) ← sPop2
  let d ← getDs
  if d.start < t.toNat ∧ t.toNat < d.limit then dsOp fun d => d.putU8 (n.setWidth 8) t.toNat
  else abortWith c .invalidMemoryAddress

/-- The forward copy loop of src/core.rs 2864-2867: `n` bytes still to copy. -/
def moveUp (d : DataSpace) (a b : Nat) : Nat → Except Fault DataSpace
  | 0 => .ok d
  | n + 1 => do
    let v ← d.getU8 a
    let d' ← d.putU8 v b
    moveUp d' (a + 1) (b + 1) n

/-- The backward copy loop of src/core.rs 2855-2862: last byte first. -/
def moveDown (d : DataSpace) (a b : Nat) : Nat → Except Fault DataSpace
  | 0 => .ok d
  | n + 1 => do
    let v ← d.getU8 (a + n)
    let d' ← d.putU8 v (b + n)
    moveDown d' a b n

/-- The range tests of src/core.rs 2848-2851, evaluated left to right with `&&`. -/
def moveOk (oc : Bool) (d : DataSpace) (a b u : Nat) : Except Fault Bool :=
  if d.start < a then do
    let e ← uadd oc a u
    if e ≤ d.limit then
      if d.start < b then do
        let e2 ← uadd oc b u
        .ok (decide (e2 ≤ d.limit))
      else .ok false
    else .ok false
  else .ok false

/-- src/core.rs 2842-2875 `p_move`. -/
def pMove (c : Ctx) : M Unit := do
  let (a1, a2, u) ← sPop3
  if 0 < u.toInt then do
    let ok ← dsRd fun d => moveOk c.oc d a1.toNat a2.toNat u.toNat
    if ok then
      if a1.toNat < a2.toNat then dsOp fun d => moveDown d a1.toNat a2.toNat u.toNat
      else dsOp fun d => moveUp d a1.toNat a2.toNat u.toNat
    else abortWith c .invalidMemoryAddress
  else pure ()

/-- src/core.rs 2971-2974 `here`. -/
def here : M Unit := do
  let h ← getHere
  sPush (toCell h)

/-- src/core.rs 2979-2982 `allot`. -/
def allot (c : Ctx) : M Unit := do
  let v ← sPop
  dsOp fun d => d.allot c.oc v

/-- src/core.rs 2987-2991 `aligned` and src/float.rs 91-95 `faligned`. -/
def aligned (c : Ctx) : M Unit := do
  let v ← sPop
  let p ← liftE (DataSpace.aligned c.oc v.toNat)
  sPush (toCell p)

/-- src/core.rs 2996-2998 `align` and src/float.rs 100-102 `falign`. -/
def align (c : Ctx) : M Unit := dsOp fun d => d.align c.oc

/-- src/core.rs 3006-3009 `comma`. -/
def comma (c : Ctx) : M Unit := do
  let v ← sPop
  compileCell c v

/-- src/core.rs 3013-3019 `p_to_r`. -/
def toR : M Unit := modTask fun t =>
  { t with r := t.r.push (t.s.inner (t.s.len - 1)), s := { t.s with len := t.s.len - 1 } }

/-- src/core.rs 3021-3027 `r_from`. -/
def rFrom : M Unit := modTask fun t =>
  { t with s := t.s.push (t.r.inner (t.r.len - 1)), r := { t.r with len := t.r.len - 1 } }

/-- src/core.rs 3029-3034 `r_fetch`. -/
def rFetch : M Unit := modTask fun t => { t with s := t.s.push (t.r.inner (t.r.len - 1)) }

/-- src/core.rs 3036-3043 `two_to_r`. -/
def twoToR : M Unit := modTask fun t =>
  { t with
    r := t.r.push2 (t.s.inner (t.s.len - 2)) (t.s.inner (t.s.len - 1))
    s := { t.s with len := t.s.len - 2 } }

/-- src/core.rs 3045-3052 `two_r_from`. -/
def twoRFrom : M Unit := modTask fun t =>
  { t with
    s := t.s.push2 (t.r.inner (t.r.len - 2)) (t.r.inner (t.r.len - 1))
    r := { t.r with len := t.r.len - 2 } }

/-- src/core.rs 3054-3060 `two_r_fetch`. -/
def twoRFetch : M Unit := modTask fun t =>
  { t with s := t.s.push2 (t.r.inner (t.r.len - 2)) (t.r.inner (t.r.len - 1)) }

end Verif
