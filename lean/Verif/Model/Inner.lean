import Verif.Model.State

/-!
# Dictionary search and the run-time of compiled code

src/core.rs 723-1118 and 2251-2270, 2410-2436, 2765-2779.
-/

namespace Verif

/-- The chain walk of src/core.rs 777-795 (`find`). `fuel` bounds the chain length; in a word list
where links point to older words it never runs out (a cyclic chain would be an endless loop). -/
def findLoop (oc : Bool) (s : VM) (h : BitVec 32) (name : List Byte) :
    Nat → Nat → Except Fault (Option Nat)
  | 0, _ => .error .hang
  | fuel + 1, w =>
    if w = 0 then .ok none
    else
      match s.wl.words[w]? with
      | none => .error .panic
      | some word =>
        if word.hidden = false ∧ word.hash = h then
          match s.ds.getStr oc word.nfa with
          | .error e => .error e
          | .ok n =>
            if eqIgnoreCase n name then .ok (some w)
            else findLoop oc s h name fuel word.link
        else findLoop oc s h name fuel word.link

/-- src/core.rs 774-796 `find`. -/
def find (c : Ctx) (name : List Byte) : M (Option Nat) := fun s =>
  let h := Wordlist.hash name
  match findLoop c.oc s h name (s.wl.words.length + 1) (s.wl.buckets (Wordlist.bucketOf h)) with
  | .ok r => .ok (r, s)
  | .error e => .error e

/-- `self.state().instruction_pointer += 8`. -/
def ipAdd8 (c : Ctx) : M Unit := do
  let st ← getSt
  let p ← liftE (uadd c.oc st.ip 8)
  modSt fun st => { st with ip := p }

/-- `self.state().instruction_pointer = p`. -/
def setIp (p : Nat) : M Unit := modSt fun st => { st with ip := p }

/-- src/core.rs 831-833 `compile_word` (and 835-857, which only call it). -/
def compileWord (c : Ctx) (i : Nat) : M Unit := dsOp fun d => d.compileCell c.oc (toCell i)

/-- `self.data_space().compile_isize(v)`. -/
def compileCell (c : Ctx) (v : Cell) : M Unit := dsOp fun d => d.compileCell c.oc v

/-- `self.data_space().here()`. -/
def getHere : M Nat := fun s => .ok (s.ds.here, s)

/-- src/core.rs 859-866 `lit`: stack length first, then the slot, which is a push. -/
def lit (c : Ctx) : M Unit := do
  let st ← getSt
  let v ← dsRd fun d => d.getCell st.ip
  sPush v
  ipAdd8 c

/-- src/core.rs 869-873 `compile_integer`. -/
def compileInteger (c : Ctx) (v : Cell) : M Unit := do
  let refs ← getRefs
  compileWord c refs.lit
  compileCell c v

/-- src/core.rs 875-882 `flit`. -/
def flit (c : Ctx) : M Unit := do
  let st ← getSt
  let ip ← liftE (DataSpace.aligned c.oc st.ip)
  let v ← dsRd fun d => d.getCell ip
  fPush v
  let p ← liftE (uadd c.oc ip 8)
  setIp p

/-- src/core.rs 885-890 `compile_float`. -/
def compileFloat (c : Ctx) (v : F64) : M Unit := do
  let refs ← getRefs
  compileWord c refs.flit
  dsOp fun d => d.align c.oc
  dsOp fun d => d.compileCell c.oc v

/-- src/core.rs 893-906 `p_s_quote`: pushes the address and the length of the inlined string and
skips it. -/
def sQuoteRt (c : Ctx) : M Unit := do
  let st ← getSt
  let s ← dsRd fun d => d.getStr c.oc st.ip
  let a ← liftE (uadd c.oc st.ip 8)
  sPush2 (toCell a) (toCell s.length)
  let b ← liftE (uadd c.oc a s.length)
  let p ← liftE (DataSpace.aligned c.oc b)
  setIp p

/-- src/core.rs 913-916 `branch`. -/
def branch : M Unit := do
  let st ← getSt
  let v ← dsRd fun d => d.getCell st.ip
  setIp v.toNat

/-- src/core.rs 918-923 `compile_branch`. -/
def compileBranch (c : Ctx) (dest : Nat) : M Nat := do
  let refs ← getRefs
  compileWord c refs.branch
  compileCell c (toCell dest)
  getHere

/-- src/core.rs 925-932 `zero_branch`. -/
def zeroBranch (c : Ctx) : M Unit := do
  let v ← sPop
  if v = 0 then branch else ipAdd8 c

/-- src/core.rs 934-939 `compile_zero_branch`. -/
def compileZeroBranch (c : Ctx) (dest : Nat) : M Nat := do
  let refs ← getRefs
  compileWord c refs.zeroBranch
  compileCell c (toCell dest)
  getHere

/-- `isize::min_value()`. -/
def cellMin : Cell := 0x8000000000000000

/-- src/core.rs 960-968 `_do`. -/
def doRt (c : Ctx) : M Unit := do
  let st ← getSt
  rPush (toCell st.ip)
  ipAdd8 c
  let (n, t) ← sPop2
  let rt := cellMin + t - n
  let rn := t - rt
  rPush2 rn rt

/-- src/core.rs 991-1003 `_qdo`. -/
def qdoRt (c : Ctx) : M Unit := do
  let (n, t) ← sPop2
  if n = t then branch
  else do
    let st ← getSt
    rPush (toCell st.ip)
    ipAdd8 c
    let rt := cellMin + t - n
    let rn := t - rt
    rPush2 rn rt

/-- src/core.rs 1012-1024 `_loop` (`t = 1`) and the common part of 1034-1047 `_plus_loop`:
`checked_add` on the biased counter. -/
def loopStep (c : Ctx) (rt t : Cell) : M Unit :=
  if inIsize (rt.toInt + t.toInt) then do
    rPush (rt + t)
    branch
  else do
    let _ ← rPop2
    ipAdd8 c

/-- src/core.rs 1012-1024 `_loop`. -/
def loopRt (c : Ctx) : M Unit := do
  let rt ← rPop
  loopStep c rt 1

/-- src/core.rs 1034-1047 `_plus_loop`. -/
def plusLoopRt (c : Ctx) : M Unit := do
  let rt ← rPop
  let t ← sPop
  loopStep c rt t

/-- src/core.rs 1055-1057 `unloop`. -/
def unloop : M Unit := do
  let _ ← rPop3
  pure ()

/-- src/core.rs 1059-1067 `leave`. -/
def leave (c : Ctx) : M Unit := do
  let (third, _, _) ← rPop3
  let t ← getTask
  if t.r.underflow then abortWith c .returnStackUnderflow
  else do
    let v ← dsRd fun d => d.getCell third.toNat
    setIp v.toNat

/-- src/core.rs 1094-1106 `leave_part`: whether there is an enclosing DO on the control stack. -/
def leavePart : M (Option Nat) := fun s =>
  .ok (s.task.c.asList.reverse.findSome? (fun
    | .do_ _ l => some l
    | _ => none), s)

/-- src/core.rs 1069-1079 `compile_leave`. -/
def compileLeave (c : Ctx) (i : Nat) : M Unit := do
  let lp ← leavePart
  match lp with
  | some _ => compileWord c i
  | none => abortWith c .controlStructureMismatch

/-- `compilation_semantics(self, i)`. -/
def compSemRun (c : Ctx) (cs : CompSem) (i : Nat) : M Unit :=
  match cs with
  | .word => compileWord c i
  | .leave => compileLeave c i

/-- src/core.rs 1651-1664 `p_i`: `len - 2` is plain `u8` arithmetic. -/
def pI (c : Ctx) : M Unit := do
  let t ← getTask
  let next ← liftE (u8sub c.oc t.r.len 2)
  sPush (t.r.last + t.r.get next)

/-- src/core.rs 1081-1092 `p_j`. -/
def pJ (c : Ctx) : M Unit := do
  let t ← getTask
  let pos ← liftE (u8sub c.oc t.r.len 4)
  let pos1 ← liftE (u8sub c.oc pos 1)
  sPush (t.r.get pos + t.r.get pos1)

/-- src/core.rs 2251-2257 `nest`: call a colon definition. -/
def nest : M Unit := do
  let st ← getSt
  rPush (toCell st.ip)
  let w ← wordAt st.wp
  setIp w.dfa

/-- src/core.rs 2259-2263 `p_var`. -/
def pVar : M Unit := do
  let st ← getSt
  let w ← wordAt st.wp
  sPush (toCell w.dfa)

/-- src/core.rs 2265-2270 `p_const`. -/
def pConst : M Unit := do
  let st ← getSt
  let w ← wordAt st.wp
  let v ← dsRd fun d => d.getCell w.dfa
  sPush v

/-- src/core.rs 2410-2421 `xdoes`: run time of words made by `create ... does>`. -/
def xdoes : M Unit := do
  let st ← getSt
  let w ← wordAt st.wp
  sPush (toCell w.dfa)
  let st ← getSt
  rPush (toCell st.ip)
  setIp w.doer

/-- src/core.rs 2424-2431 `_does`. -/
def doesRt (c : Ctx) : M Unit := do
  let st ← getSt
  let doer ← liftE (uadd c.oc st.ip 8)
  compileCell c (toCell doer)
  let wl ← getWl
  modWord wl.last fun w => { w with action := .core .doesAction, doer := doer }

end Verif
