import Verif.Lemmas.Numbers
import Verif.Lemmas.MemoryWords

/-!
# Number tokens in the interpreter
-/

namespace Verif
open Spec Stack DataSpace

/-- `find` looks at the word list and the data space only. -/
theorem findLoop_congr {oc : Bool} {s s' : VM} (hw : s.wl = s'.wl) (hd : s.ds = s'.ds)
    (h : BitVec 32) (name : List Byte) : ∀ (fuel w : Nat),
    findLoop oc s h name fuel w = findLoop oc s' h name fuel w := by
  intro fuel
  induction fuel with
  | zero => intro w; rfl
  | succ fuel ih => intro w; simp only [findLoop, hw, hd, ih]

theorem find_congr {c : Ctx} {s s' : VM} {name : List Byte} {r : Option Nat} (hw : s.wl = s'.wl)
    (hd : s.ds = s'.ds) (h : find c name s = .ok (r, s)) : find c name s' = .ok (r, s') := by
  simp only [find, findLoop_congr hw hd, hw] at h ⊢
  split at h
  · simp only [Except.ok.injEq, Prod.mk.injEq, and_true] at h
    rw [h]
  · simp at h

theorem baseCell_ok {d : DataSpace} (h : SoundSpace d) :
    d.getCell d.baseAddr = .ok (d.cellAt d.baseAddr) := by
  have h1 := h.vars
  have h2 := h.inside
  have hv : d.valid d.baseAddr 8 := by unfold DataSpace.valid baseAddr limit; omega
  simp [getCell, hv]

/-- Result of a token that is an integer. -/
theorem evaluateNumber_int {c : Ctx} {s : VM} {tok : List Char} {v : Cell} (hd : SoundSpace s.ds)
    (hv : integerValue (s.ds.cellAt s.ds.baseAddr) (utf8 tok) = some v)
    (hc : s.task.st.isCompiling = false) :
    evaluateNumber c tok s = .ok ((), { withData s (s.task.s.push v) with
      tkn := some tok, lastError := none }) := by
  have hb := baseCell_ok hd
  simp only [evaluateNumber, evaluateInteger, M.bind_apply, setError_apply, dsRd_apply, hb, hv,
    getSt_apply, VM.task_with_err, hc, Bool.false_eq_true, if_false, sPush_apply, getError_apply,
    VM.lastError_setTask, putToken, modVM_apply]
  rfl

theorem evaluateNumber_float {c : Ctx} {s : VM} {tok : List Char} {v : F64} (hd : SoundSpace s.ds)
    (hi : integerValue (s.ds.cellAt s.ds.baseAddr) (utf8 tok) = none)
    (hv : floatValue c.cfg.fops (utf8 tok) = .ok v) (hflit : s.refs.flit ≠ 0)
    (hc : s.task.st.isCompiling = false) :
    evaluateNumber c tok s = .ok ((), { s.setTask { s.task with f := s.task.f.push v } with
      tkn := some tok, lastError := none }) := by
  have hb := baseCell_ok hd
  simp only [evaluateNumber, evaluateInteger, evaluateFloat, M.bind_apply, setError_apply,
    dsRd_apply, hb, hi, hv, hflit,
    getSt_apply, VM.task_with_err, hc, Bool.false_eq_true, if_false, fPush_apply, getError_apply,
    VM.lastError_setTask, putToken, modVM_apply, getRefs_apply]
  rfl

theorem evaluateNumber_none {c : Ctx} {s : VM} {tok : List Char} {e : Exn} (hd : SoundSpace s.ds)
    (hi : integerValue (s.ds.cellAt s.ds.baseAddr) (utf8 tok) = none)
    (hv : floatValue c.cfg.fops (utf8 tok) = .error e) :
    evaluateNumber c tok s =
      abortWith c .undefinedWord { s with tkn := some tok, lastError := some e } := by
  have hb := baseCell_ok hd
  simp only [evaluateNumber, evaluateInteger, evaluateFloat, M.bind_apply, setError_apply,
    dsRd_apply, hb, hi, hv, getError_apply, putToken, modVM_apply]

theorem interpretToken_none {c : Ctx} {s : VM} {tok : List Char} (ht : s.tkn = some tok)
    (hf : find c (utf8 tok) s = .ok (none, s)) :
    interpretToken c s = evaluateNumber c tok { s with tkn := none } := by
  have hf' : find c (utf8 tok) { s with tkn := none } = .ok (none, { s with tkn := none }) :=
    find_congr (s := s) rfl rfl hf
  simp only [interpretToken, M.bind_apply, takeToken, ht, hf']

/-- The number of blanks before a printed number. -/
theorem padding_ok {oc : Bool} {w : Cell} {k : Nat} (hl : k ≤ 65)
    (hw : -9223372036854775743 ≤ w.toInt) :
    padding oc w k = .ok (List.replicate (w.toInt - k).toNat 32) := by
  have hlen : (toCell k).toInt = k := by rw [toCell, toInt_ofNat_small (by omega)]
  have hlt := BitVec.toInt_lt (x := w)
  have hsub : isub oc w (toCell k) = .ok (w - toCell k) := by
    rw [isub, if_pos]
    simp only [inIsize, hlen]
    omega
  have hval : (w - toCell k).toInt = w.toInt - k := by
    rw [BitVec.toInt_sub, hlen]
    apply Int.bmod_eq_of_le_mul_two <;> omega
  simp only [padding, hsub, Except.ok_bind', hval]

/-- `.r` with a printable base. -/
theorem dotR_ok {c : Ctx} {s : VM} {n w : Cell} {l : List Cell} {o txt : List Byte}
    (hd : SoundSpace s.ds) (hi : s.task.s.items = w :: n :: l) (ho : s.outbuf = some o)
    (ht : fmtBase (s.ds.cellAt s.ds.baseAddr) n = some txt) {pad : List Byte}
    (hp : padding c.oc w txt.length = .ok pad) :
    ∃ st', dotR c s = .ok ((), { withData s st' with
        hldbuf := txt, outbuf := some (o ++ (pad ++ txt)) }) ∧ st'.items = l := by
  have hr := items_eq_iff.1 hi
  have e := hr.pop2_fst
  have hb := baseCell_ok hd
  refine ⟨_, ?_, items_eq_iff.2 hr.toPop2.rep⟩
  unfold dotR
  rw [M.bind_ok (dsRd_ok hb), M.bind_ok (sPop2_apply s), e]
  simp only
  generalize fmtBase (s.ds.cellAt s.ds.baseAddr) n = x at ht ⊢
  subst ht
  simp only [M.bind_apply, getVM_apply, VM.outbuf_setTask, ho, modVM_apply, hp, liftE_ok, outBytes,
    Option.map_some, withData]

end Verif
