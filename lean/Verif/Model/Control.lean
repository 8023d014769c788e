import Verif.Model.Words

/-!
# Compiling control structures (src/core.rs 1120-1645), tasks and error words (3062-3245)
-/

namespace Verif

/-- `self.data_space().put_isize(v, part - size_of::<isize>())`. -/
def patch (c : Ctx) (v : Nat) (part : Nat) : M Unit := do
  let p ← liftE (usub c.oc part 8)
  dsOp fun d => d.putCell (toCell v) p

/-- The pattern "check the control stack, then go on" of src/core.rs 1148, 1175, 1217...:
`if self.c_stack().underflow() { abort } else { k }`. -/
def cGuard (c : Ctx) (k : M Unit) : M Unit := do
  let t ← getTask
  if t.c.underflow then abortWith c .controlStructureMismatch else k

/-- src/core.rs 1121-1124 `imm_if`. -/
def immIf (c : Ctx) : M Unit := do
  let here ← compileZeroBranch c 0
  cPush (.if_ here)

/-- src/core.rs 1140-1158 `imm_else`. -/
def immElse (c : Ctx) : M Unit := do
  let x ← cPop
  match x with
  | .if_ part => cGuard c do
      let here ← compileBranch c 0
      cPush (.else_ here)
      patch c here part
  | _ => abortWith c .controlStructureMismatch

/-- src/core.rs 1160-1182 `imm_then`. -/
def immThen (c : Ctx) : M Unit := do
  let x ← cPop
  match x with
  | .if_ part => cGuard c do
      let here ← getHere
      patch c here part
  | .else_ part => cGuard c do
      let here ← getHere
      patch c here part
  | _ => abortWith c .controlStructureMismatch

/-- src/core.rs 1203-1205 `imm_case`. -/
def immCase : M Unit := cPush .case_

/-- The common tail of src/core.rs 1220-1231 (`imm_of`). -/
def immOfTail (c : Ctx) : M Unit := cGuard c do
  let refs ← getRefs
  compileWord c refs.over
  compileWord c refs.equal
  let here ← compileZeroBranch c 0
  cPush (.of_ here)
  compileWord c refs.drop

/-- src/core.rs 1207-1232 `imm_of`. -/
def immOf (c : Ctx) : M Unit := do
  let x ← cPop
  match x with
  | .case_ => do
    cPush .case_
    immOfTail c
  | .endof n => do
    cPush (.endof n)
    immOfTail c
  | _ => abortWith c .controlStructureMismatch

/-- src/core.rs 1234-1252 `imm_endof`. -/
def immEndof (c : Ctx) : M Unit := do
  let x ← cPop
  match x with
  | .of_ part => cGuard c do
      let here ← compileBranch c 0
      cPush (.endof here)
      patch c here part
  | _ => abortWith c .controlStructureMismatch

/-- The loop of src/core.rs 1257-1277. It pops at least one of the 256 slots per turn, so the bound
is only reached by an endless loop. After an underflow the code aborts but keeps looping. -/
def endcaseLoop (c : Ctx) : Nat → M Unit
  | 0 => fault .hang
  | fuel + 1 => do
    let x ← cPop
    match x with
    | .case_ => do
      let t ← getTask
      if t.c.underflow then abortWith c .controlStructureMismatch else pure ()
    | .endof part => do
      cGuard c do
        let here ← getHere
        patch c here part
      endcaseLoop c fuel
    | _ => abortWith c .controlStructureMismatch

/-- src/core.rs 1254-1281 `imm_endcase`. -/
def immEndcase (c : Ctx) : M Unit := do
  let refs ← getRefs
  compileWord c refs.drop
  endcaseLoop c 1024

/-- src/core.rs 1284-1287 `imm_begin`. -/
def immBegin : M Unit := do
  let here ← getHere
  cPush (.begin_ here)

/-- src/core.rs 1307-1310 `imm_while`. -/
def immWhile (c : Ctx) : M Unit := do
  let here ← compileZeroBranch c 0
  cPush (.while_ here)

/-- src/core.rs 1315-1332 `imm_repeat`. -/
def immRepeat (c : Ctx) : M Unit := fun s =>
  let s' := s.setTask { s.task with c := s.task.c.pop2.2 }
  (match s.task.c.pop2.1 with
  | (.begin_ b, .while_ w) => cGuard c do
      let here ← compileBranch c b
      patch c here w
  | _ => abortWith c .controlStructureMismatch) s'

/-- src/core.rs 1349-1362 `imm_until`. -/
def immUntil (c : Ctx) : M Unit := do
  let x ← cPop
  match x with
  | .begin_ b => cGuard c do
      let _ ← compileZeroBranch c b
      pure ()
  | _ => abortWith c .controlStructureMismatch

/-- src/core.rs 1379-1392 `imm_again`. -/
def immAgain (c : Ctx) : M Unit := do
  let x ← cPop
  match x with
  | .begin_ b => cGuard c do
      let _ ← compileBranch c b
      pure ()
  | _ => abortWith c .controlStructureMismatch

/-- src/core.rs 1395-1398 `imm_clear_labels`. -/
def clearLabels : M Unit := modVM fun s => { s with forward := [], resolved := [] }

/-- `BitSet::add`. -/
def bitAdd (l : List Nat) (n : Nat) : List Nat := if l.contains n then l else n :: l

/-- `BitSet::remove`. -/
def bitRemove (l : List Nat) (n : Nat) : List Nat := l.filter (· != n)

/-- The patch loop of src/core.rs 1411-1421: `p` is a cell holding the previous link, 0 ends the
chain. A chain longer than the data space has revisited a cell and never ends. -/
def labelLoop (here : Nat) : Nat → Nat → DataSpace → Except Fault DataSpace
  | 0, _, _ => .error .hang
  | fuel + 1, p, d => do
    let last ← d.getCell p
    let d' ← d.putCell (toCell here) p
    if last = 0 then .ok d' else labelLoop here fuel last.toNat d'

/-- `self.labels()[n]`. -/
def labelAt (n : Nat) : M Nat := fun s =>
  match s.labels[n]? with
  | some p => .ok (p, s)
  | none => .error .panic

/-- `self.labels_mut()[n] = v`. -/
def setLabel (n v : Nat) : M Unit := fun s =>
  if n < s.labels.length then .ok ((), { s with labels := s.labels.set n v }) else .error .panic

/-- src/core.rs 1403-1440 `imm_label`. `labels().capacity()` is the vector's length, 1000
(src/mock_vm.rs 84-85). -/
def immLabel (c : Ctx) : M Unit := do
  let v ← sPop
  let n := v.toNat
  let s ← getVM
  if 0 < n ∧ n < s.labels.length then
    if s.forward.contains n then do
      let p ← labelAt n
      dsOp fun d => labelLoop d.here (d.cap + 1) p d
      setLabel n s.ds.here
      modVM fun s => { s with forward := bitRemove s.forward n, resolved := bitAdd s.resolved n }
    else if s.resolved.contains n then abortWith c .invalidNumericArgument
    else do
      setLabel n s.ds.here
      modVM fun s => { s with resolved := bitAdd s.resolved n }
  else abortWith c .invalidNumericArgument

/-- src/core.rs 1448-1468 `imm_goto`. -/
def immGoto (c : Ctx) : M Unit := do
  let v ← sPop
  let n := v.toNat
  let s ← getVM
  if 0 < n ∧ n < s.labels.length then
    if s.forward.contains n then do
      let p ← labelAt n
      let h ← compileBranch c p
      let q ← liftE (usub c.oc h 8)
      setLabel n q
    else if s.resolved.contains n then do
      let p ← labelAt n
      let _ ← compileBranch c p
      pure ()
    else do
      let h ← compileBranch c 0
      let q ← liftE (usub c.oc h 8)
      setLabel n q
      modVM fun s => { s with forward := bitAdd s.forward n }
  else abortWith c .invalidNumericArgument

/-- src/core.rs 1484-1490 `imm_call`. -/
def immCall (c : Ctx) : M Unit := do
  let h ← getHere
  compileInteger c (toCell (h + 40))
  let refs ← getRefs
  compileWord c refs.toR
  immGoto c

/-- src/core.rs 1507-1513 `imm_do`. -/
def immDo (c : Ctx) : M Unit := do
  let refs ← getRefs
  compileWord c refs.doRt
  compileCell c 0
  let here ← getHere
  cPush (.do_ here here)

/-- src/core.rs 1515-1518 `imm_recurse`. -/
def immRecurse (c : Ctx) : M Unit := do
  let wl ← getWl
  let last ← liftE (usub c.oc wl.words.length 1)
  compileWord c last

/-- src/core.rs 1535-1541 `imm_qdo`. -/
def immQdo (c : Ctx) : M Unit := do
  let refs ← getRefs
  compileWord c refs.qdoRt
  compileCell c 0
  let here ← getHere
  cPush (.do_ here here)

/-- src/core.rs 1579-1600 `imm_loop` and 1607-1627 `imm_plus_loop`; they differ in the word
compiled. -/
def immLoopWith (c : Ctx) (sel : Refs → Nat) : M Unit := do
  let x ← cPop
  match x with
  | .do_ part _ => cGuard c do
      let refs ← getRefs
      compileWord c (sel refs)
      compileCell c (toCell part)
      let here ← getHere
      patch c here part
  | _ => abortWith c .controlStructureMismatch

/-- src/core.rs 1579-1600 `imm_loop`. -/
def immLoop (c : Ctx) : M Unit := immLoopWith c Refs.loopRt

/-- src/core.rs 1607-1627 `imm_plus_loop`. -/
def immPlusLoop (c : Ctx) : M Unit := immLoopWith c Refs.plusLoopRt

/-- src/core.rs 3066-3084 `check_stacks`. -/
def checkStacks (c : Ctx) : M Unit := do
  let t ← getTask
  if t.s.overflow then abortWith c .stackOverflow
  else if t.s.underflow then abortWith c .stackUnderflow
  else if t.r.overflow then abortWith c .returnStackOverflow
  else if t.r.underflow then abortWith c .returnStackUnderflow
  else if t.c.overflow then abortWith c .controlStructureMismatch
  else if t.c.underflow then abortWith c .controlStructureMismatch
  else if t.f.overflow then abortWith c .fStackOverflow
  else if t.f.underflow then abortWith c .fStackUnderflow
  else pure ()

/-- src/core.rs 3086-3089 `handler_store`. -/
def handlerStore : M Unit := do
  let t ← sPop
  modVM fun s => { s with handler := t.toNat }

/-- src/core.rs 3092-3101 `error`. -/
def pError : M Unit := do
  let e ← getError
  match e with
  | some e => sPush e.toCell
  | none => sPush 0

/-- src/core.rs 3109-3119 `dot_error`. -/
def dotError : M Unit := do
  let e ← getError
  match e with
  | some e => outBytes (ascii (description e))
  | none => pure ()

/-- src/core.rs 3132-3135 `p_source_id`. -/
def pSourceId : M Unit := do
  let st ← getSt
  sPush st.sourceId

/-- src/core.rs 3146-3162 `set_source_id`: `lines()[id - 1]` panics if there are fewer lines than
sources. -/
def setSourceId (c : Ctx) (id : Cell) : M Unit := do
  let t ← getTask
  if 0 < id.toInt then
    match t.sources[id.toNat - 1]? with
    | some (some _) =>
      match t.lines[id.toNat - 1]? with
      | some (some _) => modSt fun st => { st with sourceId := id }
      | some none => abortWith c .invalidNumericArgument
      | none => fault .panic
    | _ => abortWith c .invalidNumericArgument
  else if id = 0 then modSt fun st => { st with sourceId := id }
  else abortWith c .invalidNumericArgument

/-- src/core.rs 3140-3143 `p_set_source_id`. -/
def pSetSourceId (c : Ctx) : M Unit := do
  let id ← sPop
  setSourceId c id

/-- src/core.rs 3167-3170 `p_source_idx`. -/
def pSourceIdx : M Unit := do
  let st ← getSt
  sPush (toCell st.sourceIndex)

/-- src/core.rs 3175-3178 `p_set_source_idx`. -/
def pSetSourceIdx : M Unit := do
  let v ← sPop
  modSt fun st => { st with sourceIndex := v.toNat }

/-- src/core.rs 3185-3187: clear the input buffer if there is one. -/
def clearInput : M Unit := do
  let b ← takeInput
  match b with
  | some _ => putInput []
  | none => pure ()

/-- src/core.rs 3182-3192 `reset`. -/
def reset (c : Ctx) : M Unit := do
  modTask fun t => { t with r := t.r.reset }
  setSourceId c 0
  clearInput
  modSt fun st => { st with abortedWp := 0, sourceIndex := 0 }
  leftBracket
  setError none

/-- `self.set_current_task(i)` (src/mock_vm.rs 227-233) for an index already known to be below
`NUM_TASKS`. -/
def setCur (i : Fin 5) : M Unit := modVM fun s => { s with cur := i }

/-- `self.set_awake(i, v)` (src/mock_vm.rs 241-247). -/
def setAwake (i : Fin 5) (v : Bool) : M Unit :=
  modVM fun s => s.setTaskAt i { s.tasks i with awake := v }

/-- `(self.s_stack().pop() - 1) as usize` checked against `NUM_TASKS` (src/core.rs 1630, 3228,
3238). -/
def popTaskId (c : Ctx) : M (Option (Fin 5)) := do
  let v ← sPop
  let i ← liftE (isub c.oc v 1)
  if h : i.toNat < 5 then pure (some ⟨i.toNat, h⟩) else pure none

/-- src/core.rs 1629-1649 `activate`. -/
def activate (c : Ctx) : M Unit := do
  let i ← popTaskId c
  match i with
  | some i => do
    setAwake i true
    let s ← getVM
    setCur i
    reset c
    setIp s.task.st.ip
    setCur s.cur
    let p ← rPop
    setIp p.toNat
  | none => do
    let p ← rPop
    setIp p.toNat
    abortWith c .invalidNumericArgument

/-- The loop of src/core.rs 3211-3217: the tasks after `i` in cyclic order. -/
def nextAwake (awake : Fin 5 → Bool) : Nat → Fin 5 → Option (Fin 5)
  | 0, _ => none
  | n + 1, i => if awake (i + 1) then some (i + 1) else nextAwake awake n (i + 1)

/-- src/core.rs 3209-3218 `pause`: after five tasks without finding one awake the loop repeats
forever. -/
def pause : M Unit := do
  let s ← getVM
  match nextAwake (fun i => (s.tasks i).awake) 5 s.cur with
  | some i => setCur i
  | none => fault .hang

/-- src/core.rs 3221-3224 `me`. -/
def me : M Unit := do
  let s ← getVM
  sPush (BitVec.ofNat 64 (s.cur.val + 1))

/-- src/core.rs 3227-3234 `suspend` (`v = false`) and 3237-3244 `resume` (`v = true`). -/
def setAwakeWord (c : Ctx) (v : Bool) : M Unit := do
  let i ← popTaskId c
  match i with
  | some i => setAwake i v
  | none => abortWith c .invalidNumericArgument

end Verif
