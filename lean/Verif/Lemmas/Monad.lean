import Verif.Model.State

/-!
# Symbolic execution lemmas for the effect monad
-/

namespace Verif

@[simp] theorem Except.ok_bind' {α β : Type} (a : α) (f : α → Except Fault β) :
    ((Except.ok a : Except Fault α) >>= f) = f a := rfl

@[simp] theorem Except.error_bind' {α β : Type} (e : Fault) (f : α → Except Fault β) :
    ((Except.error e : Except Fault α) >>= f) = .error e := rfl

@[simp] theorem M.bind_apply {α β : Type} (m : M α) (k : α → M β) (s : VM) :
    (m >>= k) s = match m s with
      | .ok (a, s') => k a s'
      | .error e => .error e := rfl

@[simp] theorem M.pure_apply {α : Type} (a : α) (s : VM) : (pure a : M α) s = .ok (a, s) := rfl

@[simp] theorem M.seq_eq {α : Type} (m : M Unit) (k : M α) :
    (do m; k) = (m >>= fun _ => k) := rfl

theorem M.ite_apply {α : Type} (p : Prop) [Decidable p] (a b : M α) (s : VM) :
    (if p then a else b) s = if p then a s else b s := by split <;> rfl

theorem M.dite_apply {α : Type} (p : Prop) [Decidable p] (a : p → M α) (b : ¬p → M α) (s : VM) :
    (if h : p then a h else b h) s = if h : p then a h s else b h s := by split <;> rfl

theorem M.bind_ok {α β : Type} {m : M α} {k : α → M β} {s s' : VM} {a : α}
    (h : m s = .ok (a, s')) : (m >>= k) s = k a s' := by simp [h]

theorem M.bind_err {α β : Type} {m : M α} {k : α → M β} {s : VM} {e : Fault}
    (h : m s = .error e) : (m >>= k) s = .error e := by simp [h]

@[simp] theorem getVM_apply (s : VM) : getVM s = .ok (s, s) := rfl
@[simp] theorem modVM_apply (f : VM → VM) (s : VM) : modVM f s = .ok ((), f s) := rfl
@[simp] theorem fault_apply {α : Type} (e : Fault) (s : VM) : (fault e : M α) s = .error e := rfl
@[simp] theorem liftE_ok {α : Type} (a : α) (s : VM) : liftE (.ok a) s = .ok (a, s) := rfl
@[simp] theorem liftE_error {α : Type} (e : Fault) (s : VM) :
    (liftE (.error e) : M α) s = .error e := rfl
@[simp] theorem getTask_apply (s : VM) : getTask s = .ok (s.task, s) := rfl
@[simp] theorem modTask_apply (f : Task → Task) (s : VM) :
    modTask f s = .ok ((), s.setTask (f s.task)) := rfl
@[simp] theorem getSt_apply (s : VM) : getSt s = .ok (s.task.st, s) := rfl
@[simp] theorem modSt_apply (f : St → St) (s : VM) :
    modSt f s = .ok ((), s.setTask { s.task with st := f s.task.st }) := rfl
@[simp] theorem getDs_apply (s : VM) : getDs s = .ok (s.ds, s) := rfl
theorem dsOp_apply (f : DataSpace → Except Fault DataSpace) (s : VM) :
    dsOp f s = match f s.ds with
      | .ok d => .ok ((), { s with ds := d })
      | .error e => .error e := rfl
theorem dsRd_apply {α : Type} (f : DataSpace → Except Fault α) (s : VM) :
    dsRd f s = match f s.ds with
      | .ok a => .ok (a, s)
      | .error e => .error e := rfl
theorem dsOp_ok {f : DataSpace → Except Fault DataSpace} {s : VM} {d : DataSpace}
    (h : f s.ds = .ok d) : dsOp f s = .ok ((), { s with ds := d }) := by simp [dsOp_apply, h]
theorem dsRd_ok {α : Type} {f : DataSpace → Except Fault α} {s : VM} {a : α}
    (h : f s.ds = .ok a) : dsRd f s = .ok (a, s) := by simp [dsRd_apply, h]

@[simp] theorem sPush_apply (v : Cell) (s : VM) :
    sPush v s = .ok ((), s.setTask { s.task with s := s.task.s.push v }) := rfl
@[simp] theorem sPush2_apply (a b : Cell) (s : VM) :
    sPush2 a b s = .ok ((), s.setTask { s.task with s := s.task.s.push2 a b }) := rfl
@[simp] theorem sPush3_apply (a b c : Cell) (s : VM) :
    sPush3 a b c s = .ok ((), s.setTask { s.task with s := s.task.s.push3 a b c }) := rfl
@[simp] theorem sPop_apply (s : VM) :
    sPop s = .ok (s.task.s.pop.1, s.setTask { s.task with s := s.task.s.pop.2 }) := rfl
@[simp] theorem sPop2_apply (s : VM) :
    sPop2 s = .ok (s.task.s.pop2.1, s.setTask { s.task with s := s.task.s.pop2.2 }) := rfl
@[simp] theorem sPop3_apply (s : VM) :
    sPop3 s = .ok (s.task.s.pop3.1, s.setTask { s.task with s := s.task.s.pop3.2 }) := rfl
@[simp] theorem rPush_apply (v : Cell) (s : VM) :
    rPush v s = .ok ((), s.setTask { s.task with r := s.task.r.push v }) := rfl
@[simp] theorem rPush2_apply (a b : Cell) (s : VM) :
    rPush2 a b s = .ok ((), s.setTask { s.task with r := s.task.r.push2 a b }) := rfl
@[simp] theorem rPush3_apply (a b c : Cell) (s : VM) :
    rPush3 a b c s = .ok ((), s.setTask { s.task with r := s.task.r.push3 a b c }) := rfl
@[simp] theorem rPop_apply (s : VM) :
    rPop s = .ok (s.task.r.pop.1, s.setTask { s.task with r := s.task.r.pop.2 }) := rfl
@[simp] theorem rPop2_apply (s : VM) :
    rPop2 s = .ok (s.task.r.pop2.1, s.setTask { s.task with r := s.task.r.pop2.2 }) := rfl
@[simp] theorem rPop3_apply (s : VM) :
    rPop3 s = .ok (s.task.r.pop3.1, s.setTask { s.task with r := s.task.r.pop3.2 }) := rfl
@[simp] theorem cPush_apply (v : Control) (s : VM) :
    cPush v s = .ok ((), s.setTask { s.task with c := s.task.c.push v }) := rfl
@[simp] theorem cPop_apply (s : VM) :
    cPop s = .ok (s.task.c.pop.1, s.setTask { s.task with c := s.task.c.pop.2 }) := rfl
@[simp] theorem fPush_apply (v : F64) (s : VM) :
    fPush v s = .ok ((), s.setTask { s.task with f := s.task.f.push v }) := rfl
@[simp] theorem fPush2_apply (a b : F64) (s : VM) :
    fPush2 a b s = .ok ((), s.setTask { s.task with f := s.task.f.push2 a b }) := rfl
@[simp] theorem fPush3_apply (a b c : F64) (s : VM) :
    fPush3 a b c s = .ok ((), s.setTask { s.task with f := s.task.f.push3 a b c }) := rfl
@[simp] theorem fPop_apply (s : VM) :
    fPop s = .ok (s.task.f.pop.1, s.setTask { s.task with f := s.task.f.pop.2 }) := rfl
@[simp] theorem fPop2_apply (s : VM) :
    fPop2 s = .ok (s.task.f.pop2.1, s.setTask { s.task with f := s.task.f.pop2.2 }) := rfl
@[simp] theorem fPop3_apply (s : VM) :
    fPop3 s = .ok (s.task.f.pop3.1, s.setTask { s.task with f := s.task.f.pop3.2 }) := rfl
@[simp] theorem getWl_apply (s : VM) : getWl s = .ok (s.wl, s) := rfl
@[simp] theorem getRefs_apply (s : VM) : getRefs s = .ok (s.refs, s) := rfl
@[simp] theorem setError_apply (e : Option Exn) (s : VM) :
    setError e s = .ok ((), { s with lastError := e }) := rfl
@[simp] theorem getError_apply (s : VM) : getError s = .ok (s.lastError, s) := rfl
theorem wordAt_apply (i : Nat) (s : VM) : wordAt i s = match s.wl.words[i]? with
      | some w => .ok (w, s)
      | none => .error .panic := rfl
theorem wordAt_ok {i : Nat} {s : VM} {w : Word} (h : s.wl.words[i]? = some w) :
    wordAt i s = .ok (w, s) := by simp [wordAt_apply, h]
theorem modWord_apply (i : Nat) (f : Word → Word) (s : VM) :
    modWord i f s = match s.wl.words[i]? with
      | some w => .ok ((), { s with wl := { s.wl with words := s.wl.words.set i (f w) } })
      | none => .error .panic := rfl

namespace VM

@[simp] theorem task_setTask (s : VM) (t : Task) : (s.setTask t).task = t := by
  simp [task, setTask]
@[simp] theorem setTask_setTask (s : VM) (t u : Task) : (s.setTask t).setTask u = s.setTask u := by
  simp only [setTask, VM.mk.injEq, true_and, and_true]
  funext i; split <;> rfl
@[simp] theorem setTask_task (s : VM) : s.setTask s.task = s := by
  cases s
  simp only [setTask, task, VM.mk.injEq, true_and, and_true]
  funext i; split
  · next h => rw [h]
  · rfl
@[simp] theorem cur_setTask (s : VM) (t : Task) : (s.setTask t).cur = s.cur := rfl
@[simp] theorem lastError_setTask (s : VM) (t : Task) : (s.setTask t).lastError = s.lastError := rfl
@[simp] theorem handler_setTask (s : VM) (t : Task) : (s.setTask t).handler = s.handler := rfl
@[simp] theorem wl_setTask (s : VM) (t : Task) : (s.setTask t).wl = s.wl := rfl
@[simp] theorem ds_setTask (s : VM) (t : Task) : (s.setTask t).ds = s.ds := rfl
@[simp] theorem tkn_setTask (s : VM) (t : Task) : (s.setTask t).tkn = s.tkn := rfl
@[simp] theorem outbuf_setTask (s : VM) (t : Task) : (s.setTask t).outbuf = s.outbuf := rfl
@[simp] theorem hldbuf_setTask (s : VM) (t : Task) : (s.setTask t).hldbuf = s.hldbuf := rfl
@[simp] theorem refs_setTask (s : VM) (t : Task) : (s.setTask t).refs = s.refs := rfl
@[simp] theorem now_setTask (s : VM) (t : Task) : (s.setTask t).now = s.now := rfl
@[simp] theorem forward_setTask (s : VM) (t : Task) : (s.setTask t).forward = s.forward := rfl
@[simp] theorem resolved_setTask (s : VM) (t : Task) : (s.setTask t).resolved = s.resolved := rfl
@[simp] theorem labels_setTask (s : VM) (t : Task) : (s.setTask t).labels = s.labels := rfl
@[simp] theorem host_setTask (s : VM) (t : Task) : (s.setTask t).host = s.host := rfl
@[simp] theorem stdout_setTask (s : VM) (t : Task) : (s.setTask t).stdout = s.stdout := rfl
@[simp] theorem stderr_setTask (s : VM) (t : Task) : (s.setTask t).stderr = s.stderr := rfl
theorem tasks_setTask (s : VM) (t : Task) (i : Fin 5) :
    (s.setTask t).tasks i = if i = s.cur then t else s.tasks i := rfl
@[simp] theorem tasks_setTask_self (s : VM) (t : Task) : (s.setTask t).tasks s.cur = t := by
  simp [tasks_setTask]
theorem tasks_setTask_ne (s : VM) (t : Task) {i : Fin 5} (h : i ≠ s.cur) :
    (s.setTask t).tasks i = s.tasks i := by simp [tasks_setTask, h]

/-- Changing a shared field does not change the current task. -/
@[simp] theorem task_with_ds (s : VM) (d : DataSpace) : ({ s with ds := d } : VM).task = s.task := rfl
@[simp] theorem task_with_wl (s : VM) (w : Wordlist) : ({ s with wl := w } : VM).task = s.task := rfl
@[simp] theorem task_with_err (s : VM) (e : Option Exn) :
    ({ s with lastError := e } : VM).task = s.task := rfl
@[simp] theorem task_with_tkn (s : VM) (e : Option (List Char)) :
    ({ s with tkn := e } : VM).task = s.task := rfl
@[simp] theorem task_with_outbuf (s : VM) (e : Option (List Byte)) :
    ({ s with outbuf := e } : VM).task = s.task := rfl

theorem eq_task_self (s : VM) : s.tasks s.cur = s.task := rfl

end VM
end Verif
