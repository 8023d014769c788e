import Verif.Spec.Safe
import Verif.Lemmas.Setters
import Verif.Lemmas.NumberWords
import Verif.Lemmas.Definition

/-!
# Words that cannot crash
-/

namespace Verif
open Spec

theorem Spec.Beside.refl (s : VM) : Beside s s := ⟨rfl, rfl, rfl, rfl, rfl, rfl, rfl, rfl, rfl, rfl, rfl, rfl⟩

theorem Spec.Beside.trans {s t u : VM} (h : Beside s t) (k : Beside t u) : Beside s u :=
  ⟨k.wl.trans h.wl, k.ds.trans h.ds, k.handler.trans h.handler, k.tkn.trans h.tkn, k.refs.trans h.refs, k.cur.trans h.cur,
   k.mode.trans h.mode, k.ip.trans h.ip, k.sourceIndex.trans h.sourceIndex, k.sourceId.trans h.sourceId,
   k.inbuf.trans h.inbuf, k.lines.trans h.lines⟩

/-- A machine whose handler does nothing. -/
structure Quiet (s : VM) : Prop where
  space : SoundSpace s.ds
  handler : ∃ w, s.wl.words[s.handler]? = some w ∧ w.action = .core .noop

theorem Quiet.beside {s t : VM} (h : Quiet s) (k : Beside s t) : Quiet t :=
  ⟨by rw [k.ds]; exact h.space, by rw [k.wl, k.handler]; exact h.handler⟩

/-- `m` never faults on a quiet machine. -/
def Safe {α : Type} (m : M α) : Prop := ∀ s, Quiet s → ∃ a t, m s = .ok (a, t) ∧ Beside s t

namespace Safe
variable {α β : Type}

theorem pure (a : α) : Safe (Pure.pure a : M α) := fun s _ => ⟨a, s, rfl, .refl s⟩

theorem bind {m : M α} {f : α → M β} (h : Safe m) (k : ∀ a, Safe (f a)) : Safe (m >>= f) := by
  intro s hs
  obtain ⟨a, t, e, b⟩ := h s hs
  obtain ⟨c, u, e', b'⟩ := k a t (hs.beside b)
  exact ⟨c, u, (M.bind_ok e).trans e', b.trans b'⟩

theorem get {f : VM → α} : Safe (fun s => .ok (f s, s) : M α) := fun s _ => ⟨_, s, rfl, .refl s⟩

theorem getVM : Safe Verif.getVM := get
theorem getTask : Safe Verif.getTask := get
theorem getSt : Safe Verif.getSt := get
theorem getDs : Safe Verif.getDs := get
theorem getWl : Safe Verif.getWl := get
theorem getRefs : Safe Verif.getRefs := get
theorem getError : Safe Verif.getError := get

/-- Two tasks that differ in the stacks at most. -/
structure Beside (t u : Task) : Prop where
  mode : u.st.isCompiling = t.st.isCompiling
  ip : u.st.ip = t.st.ip
  sourceIndex : u.st.sourceIndex = t.st.sourceIndex
  sourceId : u.st.sourceId = t.st.sourceId
  inbuf : u.inbuf = t.inbuf
  lines : u.lines = t.lines

theorem set {s : VM} {t : Task} (h : Beside s.task t) : Spec.Beside s (s.setTask t) :=
  ⟨rfl, rfl, rfl, rfl, rfl, rfl, by rw [VM.task_setTask]; exact h.mode, by rw [VM.task_setTask]; exact h.ip,
   by rw [VM.task_setTask]; exact h.sourceIndex, by rw [VM.task_setTask]; exact h.sourceId,
   by rw [VM.task_setTask]; exact h.inbuf, by rw [VM.task_setTask]; exact h.lines⟩

theorem modTask {f : Task → Task} (h : ∀ t, Beside t (f t)) : Safe (Verif.modTask f) :=
  fun _ _ => ⟨(), _, rfl, set (h _)⟩


macro "beside" : tactic => `(tactic| exact fun _ => ⟨rfl, rfl, rfl, rfl, rfl, rfl⟩)

theorem modS (f : Stack Cell → Stack Cell) : Safe (Verif.modS f) := modTask (by beside)
theorem sPush (v : Cell) : Safe (Verif.sPush v) := modTask (by beside)
theorem sPush2 (a b : Cell) : Safe (Verif.sPush2 a b) := modTask (by beside)
theorem sPush3 (a b c : Cell) : Safe (Verif.sPush3 a b c) := modTask (by beside)
theorem fPush (v : F64) : Safe (Verif.fPush v) := modTask (by beside)
theorem fPush2 (a b : F64) : Safe (Verif.fPush2 a b) := modTask (by beside)
theorem fPush3 (a b c : F64) : Safe (Verif.fPush3 a b c) := modTask (by beside)
theorem sPop : Safe Verif.sPop := fun _ _ => ⟨_, _, rfl, set ⟨rfl, rfl, rfl, rfl, rfl, rfl⟩⟩
theorem sPop2 : Safe Verif.sPop2 := fun _ _ => ⟨_, _, rfl, set ⟨rfl, rfl, rfl, rfl, rfl, rfl⟩⟩
theorem sPop3 : Safe Verif.sPop3 := fun _ _ => ⟨_, _, rfl, set ⟨rfl, rfl, rfl, rfl, rfl, rfl⟩⟩
theorem fPop : Safe Verif.fPop := fun _ _ => ⟨_, _, rfl, set ⟨rfl, rfl, rfl, rfl, rfl, rfl⟩⟩
theorem fPop2 : Safe Verif.fPop2 := fun _ _ => ⟨_, _, rfl, set ⟨rfl, rfl, rfl, rfl, rfl, rfl⟩⟩
theorem fPop3 : Safe Verif.fPop3 := fun _ _ => ⟨_, _, rfl, set ⟨rfl, rfl, rfl, rfl, rfl, rfl⟩⟩
theorem rPop3 : Safe Verif.rPop3 := fun _ _ => ⟨_, _, rfl, set ⟨rfl, rfl, rfl, rfl, rfl, rfl⟩⟩
theorem clearStacks : Safe Verif.clearStacks := modTask (by beside)

theorem modVM {f : VM → VM} (h : ∀ s, Spec.Beside s (f s)) : Safe (Verif.modVM f) := fun s _ => ⟨(), _, rfl, h s⟩

theorem setError (e : Option Exn) : Safe (Verif.setError e) :=
  modVM fun _ => ⟨rfl, rfl, rfl, rfl, rfl, rfl, rfl, rfl, rfl, rfl, rfl, rfl⟩

theorem outBytes (bs : List Byte) : Safe (Verif.outBytes bs) :=
  modVM fun _ => ⟨rfl, rfl, rfl, rfl, rfl, rfl, rfl, rfl, rfl, rfl, rfl, rfl⟩

theorem flushOutput : Safe Verif.flushOutput := by
  refine modVM fun s => ?_
  split
  · split
    · exact ⟨rfl, rfl, rfl, rfl, rfl, rfl, rfl, rfl, rfl, rfl, rfl, rfl⟩
    · exact .refl s
  · exact .refl s

/-- Executing the handler does nothing. -/
def Mild (c : Ctx) : Prop := ∀ s, Quiet s → ∃ t, c.ex s.handler s = .ok ((), t) ∧ Spec.Beside s t

theorem mild {cfg : Cfg} {depth : Nat} : Mild ⟨cfg, execWord cfg (depth + 1)⟩ := by
  intro s hs
  obtain ⟨w, h1, h2⟩ := hs.handler
  refine ⟨s.setTask { s.task with st := { s.task.st with wp := s.handler } }, ?_, set ⟨rfl, rfl, rfl, rfl, rfl, rfl⟩⟩
  simp only [execWord, M.bind_apply, modSt_apply, getWl_apply]
  rw [show (s.setTask { s.task with st := { s.task.st with wp := s.handler } }).wl = s.wl from rfl, h1]
  simp only [h2]
  rfl

theorem abortWith {c : Ctx} (hc : Mild c) (e : Exn) : Safe (Verif.abortWith c e) := by
  intro s hs
  rw [abortWith_run]
  have hb : Spec.Beside s (s.aborted e) :=
    (set (t := { s.task with s := s.task.s.reset, f := s.task.f.reset, c := s.task.c.reset,
                             st := { s.task.st with abortedWp := s.task.st.wp } }) ⟨rfl, rfl, rfl, rfl, rfl, rfl⟩).trans
      ⟨rfl, rfl, rfl, rfl, rfl, rfl, rfl, rfl, rfl, rfl, rfl, rfl⟩
  obtain ⟨t, e1, b⟩ := hc (s.aborted e) (hs.beside hb)
  exact ⟨(), t, e1, hb.trans b⟩

theorem checkStacks {c : Ctx} (hc : Mild c) : Safe (Verif.checkStacks c) := by
  unfold Verif.checkStacks
  refine bind getTask fun t => ?_
  repeat' split
  all_goals first | exact abortWith hc _ | exact Safe.pure _

theorem cFetch {c : Ctx} (hc : Mild c) : Safe (Verif.cFetch c) := by
  unfold Verif.cFetch
  refine bind sPop fun a => ?_
  intro s hs
  rw [M.bind_ok (getDs_apply s)]
  split
  · rename_i h
    have : s.ds.getU8 a.toNat = .ok (s.ds.bytes a.toNat) := by
      simp only [DataSpace.getU8, DataSpace.valid]
      exact if_pos ⟨h.1, by omega⟩
    rw [M.bind_ok (dsRd_ok this)]
    exact sPush _ s hs
  · exact abortWith hc _ s hs

/-- One step of a proof that something is safe. -/
macro "safe_step" : tactic => `(tactic| first
  | with_reducible exact Safe.pure _
  | with_reducible exact Safe.getVM
  | with_reducible exact Safe.getTask
  | with_reducible exact Safe.getSt
  | with_reducible exact Safe.getDs
  | with_reducible exact Safe.getWl
  | with_reducible exact Safe.getRefs
  | with_reducible exact Safe.getError
  | with_reducible exact Safe.modS _
  | with_reducible exact Safe.sPush _
  | with_reducible exact Safe.sPush2 _ _
  | with_reducible exact Safe.sPush3 _ _ _
  | with_reducible exact Safe.fPush _
  | with_reducible exact Safe.fPush2 _ _
  | with_reducible exact Safe.fPush3 _ _ _
  | with_reducible exact Safe.sPop
  | with_reducible exact Safe.sPop2
  | with_reducible exact Safe.sPop3
  | with_reducible exact Safe.fPop
  | with_reducible exact Safe.fPop2
  | with_reducible exact Safe.fPop3
  | with_reducible exact Safe.rPop3
  | with_reducible exact Safe.clearStacks
  | with_reducible exact Safe.setError _
  | with_reducible exact Safe.outBytes _
  | with_reducible exact Safe.flushOutput
  | with_reducible exact Safe.abortWith ‹_› _
  | with_reducible exact Safe.checkStacks ‹_›
  | with_reducible exact Safe.cFetch ‹_›
  | (with_reducible refine Safe.bind ?_ fun _ => ?_)
  | (with_reducible refine Safe.modTask (fun _ => ⟨rfl, rfl, rfl, rfl, rfl, rfl⟩))
  | split)

theorem getHere : Safe Verif.getHere := get

theorem action {c : Ctx} (hc : Mild c) {p : Prim} (hp : safe p = true) : Safe (Verif.action c p) := by
  cases p with
  | core p =>
    cases p <;> first
      | (exact absurd hp (by decide))
      | (simp only [Verif.action, coreAction, Verif.unloop, Verif.toR, Verif.rFrom, Verif.rFetch, Verif.twoToR,
          Verif.twoRFrom, Verif.twoRFetch, Verif.depth, pop1Push, pop2Push, divOp, slashMod, Verif.here, pBase, within,
          toBody, toName, pError, dotError, compiling, dotToken, pSourceId, pSourceIdx, me]
         repeat' first | exact getHere | safe_step)
  | out p =>
    cases p <;> first
      | (exact absurd hp (by decide))
      | (simp only [Verif.action, outAction, emit]
         repeat' safe_step)
  | tool p =>
    cases p <;> first
      | (exact absurd hp (by decide))
      | (simp only [Verif.action, toolAction, dotS]
         repeat' safe_step)
  | env p =>
    cases p <;> (simp only [Verif.action, envAction, maxN, maxU, mtime, utime]; repeat' safe_step)
  | flt p =>
    cases p <;> first
      | (exact absurd hp (by decide))
      | (simp only [Verif.action, floatAction, f1, f2, fsincos, fswap, fnip, fdup, fdrop, frot, fover, fpick, sToF,
          fToS, fproximate, fTest, fLess, fminmax]
         repeat' safe_step)
  | unit p =>
    cases p <;> (simp only [Verif.action, unitAction, f1]; repeat' safe_step)
  | file p => simp [safe] at hp
  | load p => simp [safe] at hp
  | receive => simp [safe] at hp

theorem pending {s : VM} {e : Option Exn} : Spec.Beside s { s with lastError := e } :=
  ⟨rfl, rfl, rfl, rfl, rfl, rfl, rfl, rfl, rfl, rfl, rfl, rfl⟩

theorem evaluateNumber {c : Ctx} (hc : Mild c) {s : VM} {tok : List Char} (hs : Quiet s)
    (hi : s.task.st.isCompiling = false) :
    ∃ t, Verif.evaluateNumber c tok { s with tkn := none } = .ok ((), t) ∧ Spec.Beside { s with tkn := some tok } t := by
  have hb := baseCell_ok hs.space
  have hq : Quiet { s with tkn := none } := ⟨hs.space, hs.handler⟩
  have hcc : ({ s with tkn := none } : VM).task.st.isCompiling = false := hi
  cases hv : integerValue (s.ds.cellAt s.ds.baseAddr) (utf8 tok) with
  | some v =>
    refine ⟨_, evaluateNumber_int hs.space hv hcc, ?_⟩
    exact (set (s := { s with tkn := some tok }) (t := { s.task with s := s.task.s.push v })
      ⟨rfl, rfl, rfl, rfl, rfl, rfl⟩).trans ⟨rfl, rfl, rfl, rfl, rfl, rfl, rfl, rfl, rfl, rfl, rfl, rfl⟩
  | none =>
    cases hf : floatValue c.cfg.fops (utf8 tok) with
    | error e =>
      obtain ⟨_, t, h1, h2⟩ := abortWith hc .undefinedWord { s with tkn := some tok, lastError := some e }
        ⟨hs.space, hs.handler⟩
      exact ⟨t, (evaluateNumber_none (s := { s with tkn := none }) hs.space hv hf).trans h1,
        (pending (s := { s with tkn := some tok })).trans h2⟩
    | ok v =>
      by_cases hfl : s.refs.flit = 0
      · have : Verif.evaluateNumber c tok { s with tkn := none } =
            Verif.abortWith c .undefinedWord { s with tkn := some tok, lastError := some .unsupportedOperation } := by
          simp only [Verif.evaluateNumber, evaluateInteger, evaluateFloat, M.bind_apply, setError_apply, dsRd_apply, hb,
            hv, hf, getError_apply, getRefs_apply, hfl, if_true, Verif.putToken, modVM_apply]
        obtain ⟨_, t, h1, h2⟩ := abortWith hc .undefinedWord
          { s with tkn := some tok, lastError := some .unsupportedOperation } ⟨hs.space, hs.handler⟩
        exact ⟨t, this.trans h1, (pending (s := { s with tkn := some tok })).trans h2⟩
      · refine ⟨_, evaluateNumber_float hs.space hv hf hfl hcc, ?_⟩
        exact (set (s := { s with tkn := some tok }) (t := { s.task with f := s.task.f.push v })
          ⟨rfl, rfl, rfl, rfl, rfl, rfl⟩).trans ⟨rfl, rfl, rfl, rfl, rfl, rfl, rfl, rfl, rfl, rfl, rfl, rfl⟩

theorem execWord {cfg : Cfg} {depth i : Nat} {s : VM} {w : Word} (hs : Quiet s) (hw : s.wl.words[i]? = some w)
    (hsafe : safe w.action = true) :
    ∃ t, Verif.execWord cfg (depth + 2) i s = .ok ((), t) ∧ Spec.Beside s t := by
  have hb : Spec.Beside s (s.setTask { s.task with st := { s.task.st with wp := i } }) := set ⟨rfl, rfl, rfl, rfl, rfl, rfl⟩
  obtain ⟨_, t, h1, h2⟩ := action (c := ⟨cfg, Verif.execWord cfg (depth + 1)⟩) mild hsafe _ (hs.beside hb)
  refine ⟨t, ?_, hb.trans h2⟩
  rw [Verif.execWord]
  simp only [M.bind_apply, modSt_apply, getWl_apply]
  rw [show (s.setTask { s.task with st := { s.task.st with wp := i } }).wl = s.wl from rfl, hw]
  exact h1

theorem waiting_quiet {s : VM} (h : Waiting s) : Quiet s := ⟨h.space, h.handler⟩

theorem newest_beside {s t : VM} (hw : t.wl = s.wl) (hd : t.ds = s.ds) {nm : List Byte} {r : Option Nat}
    (h : Newest t nm r) : Newest s nm r := by
  cases r <;> simpa only [Newest, Visible, hw, hd] using h

theorem waiting_beside {s t : VM} (h : Waiting s) (b : Spec.Beside s t) : Waiting t where
  interpreting := by rw [b.mode]; exact h.interpreting
  token := by rw [b.tkn]; exact h.token
  idle := by
    have := h.idle
    simp only [Idle, pc, b.ip, b.ds] at this ⊢
    exact this
  dict := by
    obtain ⟨h1, h2, h3, h4, h5, h6⟩ := h.dict
    constructor <;> rw [b.wl] <;> try rw [b.ds]
    all_goals assumption
  space := by rw [b.ds]; exact h.space
  handler := by rw [b.wl, b.handler]; exact h.handler

end Safe
end Verif
