import Verif.Lemmas.Simulate
import Verif.Lemmas.Define

/-!
# Compiling a structured program lays down its threaded code
-/

namespace Verif
open Spec Stack

/-! ### What compiling changes -/

/-- The parts of the machine that compiling changes: the data space and the control stack. -/
abbrev Buf := DataSpace × Stack Control

/-- The machine with these parts replaced. -/
def VM.code (s : VM) (x : Buf) : VM := { s.setTask { s.task with c := x.2 } with ds := x.1 }

@[simp] theorem VM.code_ds (s : VM) (x : Buf) : (s.code x).ds = x.1 := rfl
@[simp] theorem VM.code_wl (s : VM) (x : Buf) : (s.code x).wl = s.wl := rfl
@[simp] theorem VM.code_refs (s : VM) (x : Buf) : (s.code x).refs = s.refs := rfl
@[simp] theorem VM.code_task (s : VM) (x : Buf) : (s.code x).task = { s.task with c := x.2 } := by
  have : (s.code x).task = (s.setTask { s.task with c := x.2 }).task := rfl
  rw [this, VM.task_setTask]
@[simp] theorem VM.code_setC (s : VM) (x : Buf) (cs : Stack Control) :
    (s.code x).setTask { s.task with c := cs } = s.code (x.1, cs) := by
  have : (s.code x).setTask { s.task with c := cs } =
      { (s.setTask { s.task with c := x.2 }).setTask { s.task with c := cs } with ds := x.1 } := rfl
  rw [this, VM.setTask_setTask]; rfl
@[simp] theorem VM.code_setDs (s : VM) (x : Buf) (d : DataSpace) :
    { s.code x with ds := d } = s.code (d, x.2) := rfl

/-- The operation turns the one pair into the other, on every machine with these words. -/
def Gen (R : Refs) (wl : Wordlist) (m : M Unit) (x y : Buf) : Prop :=
  ∀ s : VM, s.refs = R → s.wl = wl → m (s.code x) = .ok ((), s.code y)

section
variable {c : Ctx} {R : Refs} {wl : Wordlist}

/-! ### Laying down cells -/

/-- What holds of every data space. -/
structure Space (d : DataSpace) : Prop where
  small : d.start + d.cap < 2 ^ 63
  inside : d.len ≤ d.cap

/-- The data space with one more cell. -/
def DataSpace.emit (d : DataSpace) (v : Cell) : DataSpace := { d.setCell d.here v with len := d.len + 8 }

@[simp] theorem DataSpace.emit_start (d : DataSpace) (v : Cell) : (d.emit v).start = d.start := rfl
@[simp] theorem DataSpace.emit_cap (d : DataSpace) (v : Cell) : (d.emit v).cap = d.cap := rfl
@[simp] theorem DataSpace.emit_limit (d : DataSpace) (v : Cell) : (d.emit v).limit = d.limit := rfl
@[simp] theorem DataSpace.emit_here (d : DataSpace) (v : Cell) : (d.emit v).here = d.here + 8 := by
  simp [DataSpace.emit, DataSpace.here]; omega
theorem DataSpace.emit_cell (d : DataSpace) (v : Cell) : (d.emit v).cellAt d.here = v :=
  DataSpace.cellAt_setCell d d.here v
theorem DataSpace.emit_bytes (d : DataSpace) (v : Cell) {x : Nat} (h : x < d.here ∨ d.here + 8 ≤ x) :
    (d.emit v).bytes x = d.bytes x := DataSpace.setCell_bytes_out h
theorem DataSpace.emit_cell_ne (d : DataSpace) (v : Cell) {b : Nat} (h : b + 8 ≤ d.here) :
    (d.emit v).cellAt b = d.cellAt b := DataSpace.cellAt_setCell_ne (.inl h)

theorem Space.emit {d : DataSpace} (h : Space d) (k : d.here + 8 ≤ d.limit) (v : Cell) : Space (d.emit v) :=
  ⟨h.small, by simp only [DataSpace.here, DataSpace.limit] at k; simp only [DataSpace.emit]; simp; omega⟩

theorem Space.setCell {d : DataSpace} (h : Space d) (a : Nat) (v : Cell) : Space (d.setCell a v) := ⟨h.1, h.2⟩

theorem emit_ok {oc : Bool} {d : DataSpace} (hd : Space d) (v : Cell) (h : d.here + 8 ≤ d.limit) :
    d.compileCell oc v = .ok (d.emit v) := by
  have hv : d.valid d.here 8 := ⟨by simp [DataSpace.here], h⟩
  have hsm := hd.small
  have hh : (toCell d.here).toInt = d.here := by
    exact toInt_ofNat_small (by simp only [DataSpace.here, DataSpace.limit] at *; omega)
  have hk' : (8 : Cell).toInt = 8 := by decide
  have hiadd : iadd oc (toCell d.here) 8 = .ok (toCell d.here + 8) := by
    simp only [iadd]; rw [if_pos]; rw [inIsize, hh, hk']; simp only [DataSpace.limit] at h; omega
  have hn : (toCell d.here + 8).toNat = d.here + 8 := by
    have : (8 : Cell).toNat = 8 := by decide
    simp only [toCell, BitVec.toNat_add, BitVec.toNat_ofNat, DataSpace.limit, DataSpace.here] at *
    omega
  rw [DataSpace.compileCell, if_pos h, DataSpace.putCell, if_pos hv, Except.ok_bind', DataSpace.allot,
    DataSpace.setCell_here, hiadd, Except.ok_bind', hn, DataSpace.setHere, if_pos]
  · simp only [DataSpace.emit, DataSpace.here, DataSpace.setCell_start, Except.ok.injEq,
      DataSpace.mk.injEq, true_and]
    omega
  · simp only [DataSpace.setCell_start, DataSpace.setCell_limit]
    exact ⟨by simp only [DataSpace.here]; omega, h⟩

variable {d : DataSpace} {cs base : Stack Control} {K : List Control}

theorem gen_cell (s : VM) (hd : Space d) (h : d.here + 8 ≤ d.limit) (v : Cell) :
    compileCell c v (s.code (d, cs)) = .ok ((), s.code (d.emit v, cs)) := by
  rw [compileCell, dsOp_ok (by rw [VM.code_ds]; exact emit_ok hd v h)]
  rfl

theorem gen_word (s : VM) (hd : Space d) (h : d.here + 8 ≤ d.limit) (i : Nat) :
    compileWord c i (s.code (d, cs)) = .ok ((), s.code (d.emit (toCell i), cs)) := gen_cell s hd h _

/-- Two cells. -/
def DataSpace.emit2 (d : DataSpace) (v w : Cell) : DataSpace := (d.emit v).emit w

@[simp] theorem DataSpace.emit2_start (d : DataSpace) (v w : Cell) : (d.emit2 v w).start = d.start := rfl
@[simp] theorem DataSpace.emit2_cap (d : DataSpace) (v w : Cell) : (d.emit2 v w).cap = d.cap := rfl
@[simp] theorem DataSpace.emit2_limit (d : DataSpace) (v w : Cell) : (d.emit2 v w).limit = d.limit := rfl
@[simp] theorem DataSpace.emit2_here (d : DataSpace) (v w : Cell) : (d.emit2 v w).here = d.here + 16 := by
  simp [DataSpace.emit2]
theorem DataSpace.emit2_fst (d : DataSpace) (v w : Cell) : (d.emit2 v w).cellAt d.here = v := by
  rw [DataSpace.emit2, DataSpace.emit_cell_ne _ _ (by simp), DataSpace.emit_cell]
theorem DataSpace.emit2_snd (d : DataSpace) (v w : Cell) : (d.emit2 v w).cellAt (d.here + 8) = w := by
  rw [DataSpace.emit2, ← DataSpace.emit_here d v, DataSpace.emit_cell]
theorem DataSpace.emit2_bytes (d : DataSpace) (v w : Cell) {x : Nat} (h : x < d.here) :
    (d.emit2 v w).bytes x = d.bytes x := by
  rw [DataSpace.emit2, DataSpace.emit_bytes _ _ (by simp; omega), DataSpace.emit_bytes _ _ (by omega)]
theorem Space.emit2 {d : DataSpace} (h : Space d) (k : d.here + 16 ≤ d.limit) (v w : Cell) :
    Space (d.emit2 v w) := (h.emit (by omega) v).emit (by simp; omega) w

theorem gen_branch (s : VM) (hd : Space d) (h : d.here + 16 ≤ d.limit) (b : Nat) :
    compileBranch c b (s.code (d, cs)) =
      .ok (d.here + 16, s.code (d.emit2 (toCell s.refs.branch) (toCell b), cs)) := by
  simp only [compileBranch, M.bind_apply, getRefs_apply, VM.code_refs]
  rw [gen_word s hd (by omega)]
  simp only
  rw [gen_cell s (hd.emit (by omega) _) (by simp; omega)]
  simp [getHere, DataSpace.emit2]

theorem gen_zeroBranch (s : VM) (hd : Space d) (h : d.here + 16 ≤ d.limit) (b : Nat) :
    compileZeroBranch c b (s.code (d, cs)) =
      .ok (d.here + 16, s.code (d.emit2 (toCell s.refs.zeroBranch) (toCell b), cs)) := by
  simp only [compileZeroBranch, M.bind_apply, getRefs_apply, VM.code_refs]
  rw [gen_word s hd (by omega)]
  simp only
  rw [gen_cell s (hd.emit (by omega) _) (by simp; omega)]
  simp [getHere, DataSpace.emit2]

theorem gen_patch (s : VM) (v part : Nat) (h1 : d.start + 8 ≤ part) (h2 : part ≤ d.limit) :
    patch c v part (s.code (d, cs)) = .ok ((), s.code (d.setCell (part - 8) (toCell v), cs)) := by
  simp only [patch, M.bind_apply]
  rw [usub_ok (by omega), liftE_ok]
  simp only
  rw [dsOp_ok (d := d.setCell (part - 8) (toCell v))]
  · rfl
  · rw [VM.code_ds, DataSpace.putCell, if_pos ⟨by simp only; omega, by simp only; omega⟩]

/-! ### The control stack -/

/-- The control stack holds `K`. -/
structure Ctl (base cs : Stack Control) (K : List Control) : Prop where
  like : LikeStack cs (holding base K)
  len : K.length ≤ 64
  guard : base.inner 255 = base.canary

theorem Ctl.rep (h : Ctl base cs K) : Rep cs K := by
  have := h.len
  exact items_eq_iff.mp (h.like.items.trans (holding_items _ (by omega)))

theorem Ctl.push (h : Ctl base cs K) (hk : K.length < 64) (x : Control) : Ctl base (cs.push x) (x :: K) := by
  refine ⟨?_, by simp; omega, h.guard⟩
  have := h.like.hold (x :: K) (by simp; omega)
  have e : holding cs (x :: K) = cs.push x := by
    rw [push_holding _ _ (by rw [h.rep.items_eq]; omega), h.rep.items_eq]
  rw [e] at this
  exact this.trans (LikeStack.holding2 _ (by simp [capacity]; omega) (by simp; omega))

theorem Ctl.pop {x : Control} (h : Ctl base cs (x :: K)) : cs.pop.1 = x ∧ Ctl base cs.pop.2 K := by
  have hl := h.len
  simp only [List.length_cons] at hl
  refine ⟨h.rep.pop_fst, ⟨?_, by omega, h.guard⟩⟩
  rw [pop_holding h.rep.items_eq]
  exact (h.like.hold K (by omega)).trans (LikeStack.holding2 _ (by simp [capacity]; omega) (by omega))

theorem Ctl.pop2 {x y : Control} (h : Ctl base cs (x :: y :: K)) :
    cs.pop2.1 = (y, x) ∧ Ctl base cs.pop2.2 K := by
  have hl := h.len
  simp only [List.length_cons] at hl
  refine ⟨h.rep.pop2_fst, ⟨?_, by omega, h.guard⟩⟩
  rw [pop2_holding h.rep.items_eq]
  exact (h.like.hold K (by omega)).trans (LikeStack.holding2 _ (by simp [capacity]; omega) (by omega))

theorem Ctl.noUnderflow (h : Ctl base cs K) : cs.underflow = false := by
  have h1 : cs.inner 255 = cs.canary := by
    rw [h.like.slots 255 (Or.inr (by decide)), h.like.canary]
    have := h.len
    simp only [holding]
    rw [if_neg (by simp; omega)]
    exact h.guard
  have := h.rep.1
  have := h.len
  simp only [Stack.underflow, h1]
  simp; omega

theorem gen_guard (s : VM) (h : Ctl base cs K) (m : M Unit) :
    cGuard c m (s.code (d, cs)) = m (s.code (d, cs)) := by
  simp [cGuard, h.noUnderflow]

/-! ### The control words -/

/-- Compiling is at address `a` with `K` on the control stack. -/
structure Ready (base : Stack Control) (K : List Control) (x : Buf) (a : Nat) : Prop where
  space : Space x.1
  here : x.1.here = a
  ctl : Ctl base x.2 K

/-- The data space is the same, except for bytes not in `S`. -/
structure Same (x y : Buf) (S : Nat → Prop) : Prop where
  start : y.1.start = x.1.start
  cap : y.1.cap = x.1.cap
  bytes : ∀ z, S z → y.1.bytes z = x.1.bytes z

theorem Same.limit {x y : Buf} {S : Nat → Prop} (h : Same x y S) : y.1.limit = x.1.limit := by
  simp only [DataSpace.limit, h.start, h.cap]

theorem Same.trans {x y z : Buf} {S T U : Nat → Prop} (h : Same x y S) (k : Same y z T)
    (h1 : ∀ z, U z → S z ∧ T z) : Same x z U :=
  ⟨k.start.trans h.start, k.cap.trans h.cap, fun z hz =>
    (k.bytes z (h1 z hz).2).trans (h.bytes z (h1 z hz).1)⟩

theorem Same.cell {x y : Buf} {S : Nat → Prop} (h : Same x y S) {a : Nat}
    (hS : ∀ z, a ≤ z → z < a + 8 → S z) : y.1.cellAt a = x.1.cellAt a :=
  DataSpace.cellAt_congr fun z h1 h2 => h.bytes z (hS z h1 h2)

variable {x y : Buf} {a : Nat}

/-- Two cells are laid down and a mark is left. -/
theorem Ready.mark (h : Ready base K x a) (room : a + 16 ≤ x.1.limit) (hk : K.length < 64)
    (v w : Cell) (m : Control) :
    Ready base (m :: K) (x.1.emit2 v w, x.2.push m) (a + 16) ∧
      Same x (x.1.emit2 v w, x.2.push m) (· < a) ∧ (x.1.emit2 v w).cellAt a = v ∧
      (x.1.emit2 v w).cellAt (a + 8) = w := by
  have hh := h.here
  refine ⟨⟨h.space.emit2 (by omega) _ _, by simp [hh], h.ctl.push hk m⟩, ⟨rfl, rfl, ?_⟩, ?_, ?_⟩
  · intro z hz; exact DataSpace.emit2_bytes _ _ _ (by omega)
  · rw [← hh]; exact DataSpace.emit2_fst _ _ _
  · rw [← hh]; exact DataSpace.emit2_snd _ _ _

theorem gen_if (h : Ready base K x a) (room : a + 16 ≤ x.1.limit) :
    Gen R wl (coreAction c .immIf) x
      (x.1.emit2 (toCell R.zeroBranch) 0, x.2.push (.if_ (a + 16))) := by
  intro s h1 _
  have hh := h.here
  simp only [coreAction, immIf, M.bind_apply]
  rw [gen_zeroBranch s h.space (by omega)]
  simp [h1, hh, toCell]

theorem gen_while (h : Ready base K x a) (room : a + 16 ≤ x.1.limit) :
    Gen R wl (coreAction c .immWhile) x
      (x.1.emit2 (toCell R.zeroBranch) 0, x.2.push (.while_ (a + 16))) := by
  intro s h1 _
  have hh := h.here
  simp only [coreAction, immWhile, M.bind_apply]
  rw [gen_zeroBranch s h.space (by omega)]
  simp [h1, hh, toCell]

theorem gen_do (h : Ready base K x a) (room : a + 16 ≤ x.1.limit) :
    Gen R wl (coreAction c .immDo) x
      (x.1.emit2 (toCell R.doRt) 0, x.2.push (.do_ (a + 16) (a + 16))) := by
  intro s h1 _
  have hh := h.here
  simp only [coreAction, immDo, M.bind_apply, getRefs_apply, VM.code_refs]
  rw [gen_word s h.space (by omega)]
  simp only
  rw [gen_cell s (h.space.emit (by omega) _) (by simp; omega)]
  simp [h1, hh, getHere, DataSpace.emit2]

theorem gen_qdo (h : Ready base K x a) (room : a + 16 ≤ x.1.limit) :
    Gen R wl (coreAction c .immQdo) x
      (x.1.emit2 (toCell R.qdoRt) 0, x.2.push (.do_ (a + 16) (a + 16))) := by
  intro s h1 _
  have hh := h.here
  simp only [coreAction, immQdo, M.bind_apply, getRefs_apply, VM.code_refs]
  rw [gen_word s h.space (by omega)]
  simp only
  rw [gen_cell s (h.space.emit (by omega) _) (by simp; omega)]
  simp [h1, hh, getHere, DataSpace.emit2]

theorem gen_begin (h : Ready base K x a) :
    Gen R wl (coreAction c .immBegin) x (x.1, x.2.push (.begin_ a)) := by
  intro s h1 _
  simp [coreAction, immBegin, getHere, h.here]

theorem gen_case : Gen R wl (coreAction c .immCase) x (x.1, x.2.push .case_) := by
  intro s h1 _
  simp [coreAction, immCase]

/-- A cell below is set. -/
theorem Ready.patch (h : Ready base K x a) (b : Nat) (v : Cell) :
    Ready base K (x.1.setCell b v, x.2) a ∧
      Same x (x.1.setCell b v, x.2) (fun z => z < b ∨ b + 8 ≤ z) ∧ (x.1.setCell b v).cellAt b = v :=
  ⟨⟨h.space.setCell _ _, h.here, h.ctl⟩, ⟨rfl, rfl, fun _ hz => DataSpace.setCell_bytes_out hz⟩,
    DataSpace.cellAt_setCell _ _ _⟩

/-- Two cells are laid down. -/
theorem Ready.emit2 (h : Ready base K x a) (room : a + 16 ≤ x.1.limit) (v w : Cell) :
    Ready base K (x.1.emit2 v w, x.2) (a + 16) ∧
      Same x (x.1.emit2 v w, x.2) (· < a) ∧ (x.1.emit2 v w).cellAt a = v ∧
      (x.1.emit2 v w).cellAt (a + 8) = w := by
  have hh := h.here
  refine ⟨⟨h.space.emit2 (by omega) _ _, by simp [hh], h.ctl⟩, ⟨rfl, rfl, ?_⟩, ?_, ?_⟩
  · intro z hz; exact DataSpace.emit2_bytes _ _ _ (by omega)
  · rw [← hh]; exact DataSpace.emit2_fst _ _ _
  · rw [← hh]; exact DataSpace.emit2_snd _ _ _

/-- One cell is laid down. -/
theorem Ready.emit (h : Ready base K x a) (room : a + 8 ≤ x.1.limit) (v : Cell) :
    Ready base K (x.1.emit v, x.2) (a + 8) ∧
      Same x (x.1.emit v, x.2) (· < a) ∧ (x.1.emit v).cellAt a = v := by
  have hh := h.here
  refine ⟨⟨h.space.emit (by omega) _, by simp [hh], h.ctl⟩, ⟨rfl, rfl, ?_⟩, ?_⟩
  · intro z hz; exact DataSpace.emit_bytes _ _ (by omega)
  · rw [← hh]; exact DataSpace.emit_cell _ _

theorem Ready.pop {m : Control} (h : Ready base (m :: K) x a) : Ready base K (x.1, x.2.pop.2) a :=
  ⟨h.space, h.here, h.ctl.pop.2⟩

theorem Ready.push (h : Ready base K x a) (hk : K.length < 64) (m : Control) :
    Ready base (m :: K) (x.1, x.2.push m) a := ⟨h.space, h.here, h.ctl.push hk m⟩

theorem Ready.le (h : Ready base K x a) : a ≤ x.1.limit := by
  have h1 := h.space.inside; have h2 := h.here
  simp only [DataSpace.here, DataSpace.limit] at *; omega

theorem gen_then_if {part : Nat} (h : Ready base (.if_ part :: K) x a) (h1 : x.1.start + 8 ≤ part)
    (h2 : part ≤ a) :
    Gen R wl (coreAction c .immThen) x (x.1.setCell (part - 8) (toCell a), x.2.pop.2) := by
  intro s _ _
  have := h.le
  simp only [coreAction, immThen, M.bind_apply, cPop_apply, VM.code_task, h.ctl.pop.1]
  rw [VM.code_setC, gen_guard s h.ctl.pop.2]
  simp only [M.bind_apply, getHere, VM.code_ds, h.here]
  rw [gen_patch s a part h1 (by omega)]

theorem gen_then_else {part : Nat} (h : Ready base (.else_ part :: K) x a) (h1 : x.1.start + 8 ≤ part)
    (h2 : part ≤ a) :
    Gen R wl (coreAction c .immThen) x (x.1.setCell (part - 8) (toCell a), x.2.pop.2) := by
  intro s _ _
  have := h.le
  simp only [coreAction, immThen, M.bind_apply, cPop_apply, VM.code_task, h.ctl.pop.1]
  rw [VM.code_setC, gen_guard s h.ctl.pop.2]
  simp only [M.bind_apply, getHere, VM.code_ds, h.here]
  rw [gen_patch s a part h1 (by omega)]

theorem gen_else {part : Nat} (h : Ready base (.if_ part :: K) x a) (h1 : x.1.start + 8 ≤ part)
    (h2 : part ≤ a) (room : a + 16 ≤ x.1.limit) :
    Gen R wl (coreAction c .immElse) x
      ((x.1.emit2 (toCell R.branch) 0).setCell (part - 8) (toCell (a + 16)),
        x.2.pop.2.push (.else_ (a + 16))) := by
  intro s hR _
  have := h.le
  have hh := h.here
  simp only [coreAction, immElse, M.bind_apply, cPop_apply, VM.code_task, h.ctl.pop.1]
  rw [VM.code_setC, gen_guard s h.ctl.pop.2]
  simp only [M.bind_apply]
  rw [gen_branch s h.space (by omega)]
  simp only [cPush_apply, VM.code_task]
  rw [VM.code_setC]
  simp only
  rw [gen_patch (d := x.1.emit2 _ _) s _ part h1 (by rw [DataSpace.emit2_limit]; omega)]
  simp [hR, hh, toCell]

theorem gen_endof {part : Nat} (h : Ready base (.of_ part :: K) x a) (h1 : x.1.start + 8 ≤ part)
    (h2 : part ≤ a) (room : a + 16 ≤ x.1.limit) :
    Gen R wl (coreAction c .immEndof) x
      ((x.1.emit2 (toCell R.branch) 0).setCell (part - 8) (toCell (a + 16)),
        x.2.pop.2.push (.endof (a + 16))) := by
  intro s hR _
  have := h.le
  have hh := h.here
  simp only [coreAction, immEndof, M.bind_apply, cPop_apply, VM.code_task, h.ctl.pop.1]
  rw [VM.code_setC, gen_guard s h.ctl.pop.2]
  simp only [M.bind_apply]
  rw [gen_branch s h.space (by omega)]
  simp only [cPush_apply, VM.code_task]
  rw [VM.code_setC]
  simp only
  rw [gen_patch (d := x.1.emit2 _ _) s _ part h1 (by rw [DataSpace.emit2_limit]; omega)]
  simp [hR, hh, toCell]

theorem gen_until {b : Nat} (h : Ready base (.begin_ b :: K) x a) (room : a + 16 ≤ x.1.limit) :
    Gen R wl (coreAction c .immUntil) x
      (x.1.emit2 (toCell R.zeroBranch) (toCell b), x.2.pop.2) := by
  intro s hR _
  have hh := h.here
  simp only [coreAction, immUntil, M.bind_apply, cPop_apply, VM.code_task, h.ctl.pop.1]
  rw [VM.code_setC, gen_guard s h.ctl.pop.2]
  simp only [M.bind_apply]
  rw [gen_zeroBranch s h.space (by omega)]
  simp [hR]

theorem gen_again {b : Nat} (h : Ready base (.begin_ b :: K) x a) (room : a + 16 ≤ x.1.limit) :
    Gen R wl (coreAction c .immAgain) x
      (x.1.emit2 (toCell R.branch) (toCell b), x.2.pop.2) := by
  intro s hR _
  have hh := h.here
  simp only [coreAction, immAgain, M.bind_apply, cPop_apply, VM.code_task, h.ctl.pop.1]
  rw [VM.code_setC, gen_guard s h.ctl.pop.2]
  simp only [M.bind_apply]
  rw [gen_branch s h.space (by omega)]
  simp [hR]

theorem gen_repeat {b part : Nat} (h : Ready base (.while_ part :: .begin_ b :: K) x a)
    (h1 : x.1.start + 8 ≤ part) (h2 : part ≤ a) (room : a + 16 ≤ x.1.limit) :
    Gen R wl (coreAction c .immRepeat) x
      ((x.1.emit2 (toCell R.branch) (toCell b)).setCell (part - 8) (toCell (a + 16)), x.2.pop2.2) := by
  intro s hR _
  have hh := h.here
  simp only [coreAction, immRepeat, VM.code_task, h.ctl.pop2.1]
  rw [VM.code_setC, gen_guard s h.ctl.pop2.2]
  simp only [M.bind_apply]
  rw [gen_branch s h.space (by omega)]
  simp only
  rw [gen_patch (d := x.1.emit2 _ _) s _ part h1 (by rw [DataSpace.emit2_limit]; omega)]
  simp [hR, hh]

theorem gen_loop {part q : Nat} (h : Ready base (.do_ part q :: K) x a)
    (h1 : x.1.start + 8 ≤ part) (h2 : part ≤ a) (room : a + 16 ≤ x.1.limit) (plus : Bool) :
    Gen R wl (coreAction c (if plus then .immPlusLoop else .immLoop)) x
      ((x.1.emit2 (toCell (if plus then R.plusLoopRt else R.loopRt)) (toCell part)).setCell (part - 8)
        (toCell (a + 16)), x.2.pop.2) := by
  intro s hR _
  have hh := h.here
  have key : ∀ sel : Refs → Nat, immLoopWith c sel (s.code x) = .ok ((), s.code
      ((x.1.emit2 (toCell (sel R)) (toCell part)).setCell (part - 8) (toCell (a + 16)), x.2.pop.2)) := by
    intro sel
    simp only [immLoopWith, M.bind_apply, cPop_apply, VM.code_task, h.ctl.pop.1]
    rw [VM.code_setC, gen_guard s h.ctl.pop.2]
    simp only [M.bind_apply, getRefs_apply, VM.code_refs]
    rw [gen_word s h.space (by omega)]
    simp only
    rw [gen_cell s (h.space.emit (by omega) _) (by simp; omega)]
    simp only [getHere, VM.code_ds]
    rw [show (x.1.emit (toCell (sel s.refs))).emit (toCell part) =
      x.1.emit2 (toCell (sel s.refs)) (toCell part) from rfl]
    rw [gen_patch (d := x.1.emit2 _ _) s _ part h1 (by rw [DataSpace.emit2_limit]; omega)]
    simp [hR, hh]
  cases plus with
  | true => exact key Refs.plusLoopRt
  | false => exact key Refs.loopRt

/-- `OF` lays down five cells. -/
def DataSpace.emitOf (d : DataSpace) (R : Refs) : DataSpace :=
  (((d.emit (toCell R.over)).emit (toCell R.equal)).emit2 (toCell R.zeroBranch) 0).emit (toCell R.drop)

theorem Ready.of (h : Ready base K x a) (room : a + 40 ≤ x.1.limit) (hk : K.length < 64)
    (R : Refs) :
    Ready base (.of_ (a + 32) :: K) (x.1.emitOf R, x.2.push (.of_ (a + 32))) (a + 40) ∧
      Same x (x.1.emitOf R, x.2.push (.of_ (a + 32))) (· < a) ∧
      (x.1.emitOf R).cellAt a = toCell R.over ∧ (x.1.emitOf R).cellAt (a + 8) = toCell R.equal ∧
      (x.1.emitOf R).cellAt (a + 16) = toCell R.zeroBranch ∧
      (x.1.emitOf R).cellAt (a + 32) = toCell R.drop := by
  obtain ⟨a1, a2, a3⟩ := h.emit (by omega) (toCell R.over)
  obtain ⟨b1, b2, b3⟩ := a1.emit (by simp; omega) (toCell R.equal)
  obtain ⟨c1, c2, c3, c4⟩ := b1.emit2 (by simp; omega) (toCell R.zeroBranch) 0
  obtain ⟨d1, d2, d3⟩ := c1.emit (by simp; omega) (toCell R.drop)
  have s2 : Same x _ (· < a) := ((a2.trans b2 (U := (· < a)) (by intro z hz; omega)).trans c2 (U := (· < a))
    (by intro z hz; omega)).trans d2 (U := (· < a)) (by intro z hz; omega)
  refine ⟨d1.push hk _, ⟨s2.1, s2.2, s2.3⟩, ?_, ?_, ?_, ?_⟩
  · exact (d2.cell (by intro z _ _; omega)).trans ((c2.cell (by intro z _ _; omega)).trans
      ((b2.cell (by intro z _ _; omega)).trans a3))
  · exact (d2.cell (by intro z _ _; omega)).trans ((c2.cell (by intro z _ _; omega)).trans b3)
  · exact (d2.cell (by intro z _ _; omega)).trans c3
  · exact d3

theorem gen_of {m : Control} (hm : m = .case_ ∨ ∃ n, m = .endof n) (h : Ready base (m :: K) x a)
    (room : a + 40 ≤ x.1.limit) :
    Gen R wl (coreAction c .immOf) x
      (x.1.emitOf R, (x.2.pop.2.push m).push (.of_ (a + 32))) := by
  intro s hR _
  have hh := h.here
  have hl := h.ctl.len
  simp only [List.length_cons] at hl
  have hc := h.ctl.pop.2.push (by omega) m
  have tail : immOfTail c (s.code (x.1, x.2.pop.2.push m)) = .ok ((), s.code
      (x.1.emitOf R, (x.2.pop.2.push m).push (.of_ (a + 32)))) := by
    rw [immOfTail, gen_guard s hc]
    simp only [M.bind_apply, getRefs_apply, VM.code_refs]
    rw [gen_word s h.space (by omega)]
    simp only
    rw [gen_word s (h.space.emit (by omega) _) (by simp; omega)]
    simp only
    rw [gen_zeroBranch s ((h.space.emit (by omega) _).emit (by simp; omega) _) (by simp; omega)]
    simp only [cPush_apply, VM.code_task]
    rw [VM.code_setC]
    simp only
    rw [gen_word s (((h.space.emit (by omega) _).emit (by simp; omega) _).emit2 (by simp; omega) _ _)
      (by simp; omega)]
    simp [hR, hh, toCell, DataSpace.emitOf]
  simp only [coreAction, immOf, M.bind_apply, cPop_apply, VM.code_task, h.ctl.pop.1]
  rcases hm with rfl | ⟨n, rfl⟩
  · simp only [M.bind_apply, cPush_apply, VM.code_setC, VM.code_task]
    exact tail
  · simp only [M.bind_apply, cPush_apply, VM.code_setC, VM.code_task]
    exact tail

/-- The cells that wait for the end of the `CASE`, latest first. -/
structure Chain (lower upper : Nat) (ch : List Nat) : Prop where
  ge : ∀ p ∈ ch, lower + 8 ≤ p
  le : ∀ p ∈ ch, p ≤ upper
  apart : ch.Pairwise fun p q => q + 8 ≤ p

/-- Outside of the waiting cells. -/
def Off (ch : List Nat) (z : Nat) : Prop := ∀ p ∈ ch, z < p - 8 ∨ p ≤ z

theorem gen_endcaseLoop : ∀ (ch : List Nat) (fuel : Nat) (x : Buf), ch.length < fuel →
    Chain x.1.start a ch → Ready base (ch.map .endof ++ .case_ :: K) x a →
    ∃ y, (∀ (c : Ctx) (s : VM), endcaseLoop c fuel (s.code x) = .ok ((), s.code y)) ∧ Ready base K y a ∧
      Same x y (Off ch) ∧ ∀ p ∈ ch, y.1.cellAt (p - 8) = toCell a
  | [], fuel, x, hf, hc, h => by
    obtain ⟨fuel, rfl⟩ : ∃ f, fuel = f + 1 := ⟨fuel - 1, by simp at hf; omega⟩
    have h' : Ready base (.case_ :: K) x a := h
    refine ⟨(x.1, x.2.pop.2), fun c s => ?_, h'.pop, ⟨rfl, rfl, fun _ _ => rfl⟩, by simp⟩
    simp only [endcaseLoop, M.bind_apply, cPop_apply, VM.code_task, h'.ctl.pop.1, getTask_apply]
    simp only [VM.code_setC, VM.code_task, h'.ctl.pop.2.noUnderflow]
    simp
  | p :: ch, fuel, x, hf, hc, h => by
    obtain ⟨fuel, rfl⟩ : ∃ f, fuel = f + 1 := ⟨fuel - 1, by simp at hf; omega⟩
    have h' : Ready base (.endof p :: (ch.map .endof ++ .case_ :: K)) x a := h
    have hp := h'.pop
    have hge := hc.ge p (by simp)
    have hle := hc.le p (by simp)
    have := h'.le
    obtain ⟨b1, b2, b3⟩ := hp.patch (p - 8) (toCell a)
    have hap := List.pairwise_cons.1 hc.apart
    obtain ⟨y, c1, c2, c3, c4⟩ := gen_endcaseLoop ch fuel (x.1.setCell (p - 8) (toCell a), x.2.pop.2)
      (by simp at hf; omega) ⟨fun q hq => hc.ge q (by simp [hq]), fun q hq => hc.le q (by simp [hq]), hap.2⟩ b1
    refine ⟨y, fun c s => ?_, c2, ⟨c3.start, c3.cap, fun z hz => ?_⟩, fun q hq => ?_⟩
    · simp only [endcaseLoop, M.bind_apply, cPop_apply, VM.code_task, h'.ctl.pop.1]
      rw [VM.code_setC, gen_guard s h'.ctl.pop.2]
      simp only [M.bind_apply, getHere, VM.code_ds, h'.here]
      rw [gen_patch s a p hge (by omega)]
      exact c1 c s
    · have := hz p (by simp)
      rw [c3.bytes z (fun q hq => hz q (by simp [hq]))]
      exact b2.bytes z (by omega)
    · rcases List.mem_cons.1 hq with rfl | hq
      · rw [c3.cell (fun z h1 h2 r hr => ?_)]
        · exact b3
        · have := hap.1 r hr
          omega
      · exact c4 q hq

theorem gen_endcase {ch : List Nat} (h : Ready base (ch.map .endof ++ .case_ :: K) x a)
    (hc : Chain x.1.start a ch) (room : a + 8 ≤ x.1.limit) :
    ∃ y, (∀ c : Ctx, Gen R wl (coreAction c .immEndcase) x y) ∧ Ready base K y (a + 8) ∧
      Same x y (fun z => z < a ∧ Off ch z) ∧ (∀ p ∈ ch, y.1.cellAt (p - 8) = toCell (a + 8)) ∧
      y.1.cellAt a = toCell R.drop := by
  obtain ⟨a1, a2, a3⟩ := h.emit room (toCell R.drop)
  have hl := h.ctl.len
  simp only [List.length_append, List.length_map, List.length_cons] at hl
  obtain ⟨y, c1, c2, c3, c4⟩ := gen_endcaseLoop (a := a + 8) ch 1024
    (x.1.emit (toCell R.drop), x.2) (by omega) ⟨hc.ge, fun p hp => by have := hc.le p hp; omega, hc.apart⟩ a1
  refine ⟨y, ?_, c2, a2.trans c3 (fun z hz => hz), c4, ?_⟩
  · intro c s hR _
    have hh := h.here
    simp only [coreAction, immEndcase, M.bind_apply, getRefs_apply, VM.code_refs]
    rw [gen_word s h.space (by omega), hR]
    exact c1 c s
  · rw [c3.cell (fun z h1 h2 r hr => ?_)]
    · exact a3
    · have := hc.le r hr
      omega

/-! ### Words, numbers, strings -/

theorem gen_call (h : Ready base K x a) (room : a + 8 ≤ x.1.limit) {i : Nat} (hw : Plain wl i) :
    Gen R wl (Item.run c (.word i)) x (x.1.emit (toCell i), x.2) := by
  intro s _ hwl
  have hh := h.here
  obtain ⟨w, h1, h2⟩ := hw
  simp only [Item.run, M.bind_apply]
  rw [wordAt_ok (w := w) (by rw [VM.code_wl, hwl, h1])]
  simp only [h2, compSemRun]
  exact gen_word s h.space (by omega) i

theorem asList_reverse {α : Type} (st : Stack α) : st.asList.reverse = st.items := by
  have h := rep_items st
  apply List.ext_getElem?
  intro i
  by_cases hi : i < st.items.length
  · have hlen := h.1
    rw [List.getElem?_eq_getElem hi]
    have e : st.asList.length = st.len.toNat := by simp [Stack.asList]
    rw [List.getElem?_reverse (by omega), e]
    simp only [Stack.asList, List.getElem?_map]
    rw [List.getElem?_range (by omega)]
    simp only [Option.map_some]
    congr 1
    have := h.2 i hi
    rw [← this]
  · have := h.1
    rw [List.getElem?_eq_none (by simp [Stack.asList]; omega), List.getElem?_eq_none (by omega)]

theorem leavePart_some {s : VM} {p q : Nat} (h : Control.do_ p q ∈ s.task.c.items) :
    ∃ l, leavePart s = .ok (some l, s) := by
  unfold leavePart
  rw [asList_reverse]
  have : (s.task.c.items.findSome? fun
    | .do_ _ l => some l
    | _ => none).isSome := by
    rw [List.findSome?_isSome_iff]
    exact ⟨_, h, rfl⟩
  obtain ⟨l, hl⟩ := Option.isSome_iff_exists.1 this
  exact ⟨l, by rw [← hl]; rfl⟩

theorem gen_leave (h : Ready base K x a) (room : a + 8 ≤ x.1.limit) {i : Nat}
    (hw : ∃ w, wl.words[i]? = some w ∧ w.compSem = .leave) (hd : ∃ p q, Control.do_ p q ∈ K) :
    Gen R wl (Item.run c (.word i)) x (x.1.emit (toCell i), x.2) := by
  intro s _ hwl
  have hh := h.here
  obtain ⟨w, h1, h2⟩ := hw
  obtain ⟨p, q, hd⟩ := hd
  simp only [Item.run, M.bind_apply]
  rw [wordAt_ok (w := w) (by rw [VM.code_wl, hwl, h1])]
  obtain ⟨l, hl⟩ := leavePart_some (s := s.code x) (p := p) (q := q)
    (by rw [VM.code_task, h.ctl.rep.items_eq]; exact hd)
  simp only [h2, compSemRun, compileLeave, M.bind_apply, hl]
  exact gen_word s h.space (by omega) i

theorem gen_lit (h : Ready base K x a) (room : a + 16 ≤ x.1.limit) (v : Cell) :
    Gen R wl (Item.run c (.lit v)) x (x.1.emit2 (toCell R.lit) v, x.2) := by
  intro s hR _
  have hh := h.here
  simp only [Item.run, compileInteger, M.bind_apply, getRefs_apply, VM.code_refs]
  rw [gen_word s h.space (by omega)]
  simp only
  rw [gen_cell s (h.space.emit (by omega) _) (by simp; omega), hR]
  rfl

theorem align_ok {oc : Bool} {d : DataSpace} (hd : Space d) (h : roundUp8 d.here ≤ d.limit) :
    d.align oc = .ok { d with len := roundUp8 d.here - d.start } := by
  have h1 := hd.small
  have h2 := roundUp8_le d.here
  have hum : usizeMod = 2 ^ 64 := rfl
  have h3 : d.start ≤ d.here := by simp [DataSpace.here]
  simp only [DataSpace.limit] at h
  rw [DataSpace.align, aligned_eq (by omega), Except.ok_bind', DataSpace.setHere,
    if_pos ⟨by omega, by simp only [DataSpace.limit]; omega⟩]

/-- Going to the next multiple of 8. -/
theorem Ready.align (h : Ready base K x a) (room : roundUp8 a ≤ x.1.limit) :
    Ready base K ({ x.1 with len := roundUp8 a - x.1.start }, x.2) (roundUp8 a) := by
  have hh := h.here
  have h2 := roundUp8_le a
  have h3 : x.1.start ≤ x.1.here := by simp [DataSpace.here]
  refine ⟨⟨h.space.small, ?_⟩, ?_, h.ctl⟩
  · simp only [DataSpace.limit] at room ⊢; omega
  · simp only [DataSpace.here] at hh ⊢; omega

theorem gen_flt (h : Ready base K x a) (room : roundUp8 (a + 8) + 8 ≤ x.1.limit) (v : F64) :
    ∃ y, (∀ c : Ctx, Gen R wl (Item.run c (.flt v)) x y) ∧ Ready base K y (roundUp8 (a + 8) + 8) ∧ Same x y (· < a) ∧
      y.1.cellAt a = toCell R.flit ∧ y.1.cellAt (roundUp8 (a + 8)) = v := by
  have hh := h.here
  have hr := roundUp8_le (a + 8)
  obtain ⟨a1, a2, a3⟩ := h.emit (by omega) (toCell R.flit)
  have b1 := a1.align (by simp only [DataSpace.emit_limit]; omega)
  obtain ⟨c1, c2, c3⟩ := b1.emit (by simp only [DataSpace.emit, DataSpace.limit] at room ⊢; exact room) v
  refine ⟨_, ?_, c1, ?_, ?_, c3⟩
  · intro c s hR _
    simp only [Item.run, compileFloat, M.bind_apply, getRefs_apply, VM.code_refs]
    rw [gen_word s h.space (by omega), hR]
    simp only
    rw [dsOp_ok (by
      rw [VM.code_ds]
      exact align_ok a1.space (by rw [a1.here]; simp only [DataSpace.emit_limit]; omega))]
    simp only [a1.here]
    exact gen_cell s b1.space (by
      rw [b1.here]; simp only [DataSpace.emit, DataSpace.limit] at room ⊢; exact room) v
  · refine ⟨c2.start, c2.cap, fun z hz => ?_⟩
    rw [c2.bytes z (by omega)]
    exact a2.bytes z hz
  · rw [c2.cell (by intro z _ _; omega)]
    exact a3

theorem compileU8_ok {oc : Bool} {d : DataSpace} (hd : Space d) (v : Byte) (h : d.here < d.limit) :
    d.compileU8 oc v = .ok { d.setByte d.here v with len := d.len + 1 } := by
  have hv : d.valid d.here 1 := ⟨by simp [DataSpace.here], h⟩
  have hsm := hd.small
  have hh : (toCell d.here).toInt = d.here := by
    exact toInt_ofNat_small (by simp only [DataSpace.here, DataSpace.limit] at *; omega)
  have hk' : (1 : Cell).toInt = 1 := by decide
  have hiadd : iadd oc (toCell d.here) 1 = .ok (toCell d.here + 1) := by
    simp only [iadd]; rw [if_pos]; rw [inIsize, hh, hk']; simp only [DataSpace.limit] at h; omega
  have hn : (toCell d.here + 1).toNat = d.here + 1 := by
    have : (1 : Cell).toNat = 1 := by decide
    simp only [toCell, BitVec.toNat_add, BitVec.toNat_ofNat, DataSpace.limit, DataSpace.here] at *
    omega
  rw [DataSpace.compileU8, if_pos h, DataSpace.putU8, if_pos hv, Except.ok_bind', DataSpace.allot,
    DataSpace.setByte_here, hiadd, Except.ok_bind', hn, DataSpace.setHere, if_pos]
  · simp only [DataSpace.here, DataSpace.setByte_start, Except.ok.injEq, DataSpace.mk.injEq, true_and]
    omega
  · simp only [DataSpace.setByte_start, DataSpace.setByte_limit]
    exact ⟨by simp only [DataSpace.here]; omega, h⟩

theorem compileBytes_ok {oc : Bool} : ∀ (bs : List Byte) {d : DataSpace}, Space d →
    d.here + bs.length ≤ d.limit → ∃ d', d.compileBytes oc bs = .ok d'
  | [], d, _, _ => ⟨d, rfl⟩
  | b :: bs, d, hd, h => by
    simp only [List.length_cons] at h
    have h1 := compileU8_ok (oc := oc) hd b (by omega)
    have hl : d.len + 1 ≤ d.cap := by simp only [DataSpace.here, DataSpace.limit] at h; omega
    obtain ⟨d', h2⟩ := compileBytes_ok (oc := oc) bs
      (d := { d.setByte d.here b with len := d.len + 1 }) ⟨hd.small, hl⟩
      (by simp only [DataSpace.here, DataSpace.limit, DataSpace.setByte] at h ⊢; omega)
    exact ⟨d', by rw [DataSpace.compileBytes, h1, Except.ok_bind', h2]⟩

theorem compileStr_ok {oc : Bool} {bs : List Byte} {d : DataSpace} (hd : Space d)
    (h : d.here + bs.length + 8 ≤ d.limit) : ∃ d', d.compileStr oc bs = .ok (d.here, d') := by
  have h1 := emit_ok (oc := oc) hd (toCell bs.length) (by omega)
  obtain ⟨d', h2⟩ := compileBytes_ok (oc := oc) bs (hd.emit (by omega) (toCell bs.length))
    (by simp; omega)
  exact ⟨d', by rw [DataSpace.compileStr, if_pos h, h1, Except.ok_bind', h2, Except.ok_bind']⟩

theorem gen_str (oc : Bool) (h : Ready base K x a) {bs : List Byte} (room : roundUp8 (a + 16 + bs.length) ≤ x.1.limit)
    (hw : Plain wl R.sQuote) :
    ∃ y, (∀ c : Ctx, c.oc = oc → Gen R wl (Item.run c (.str bs)) x y) ∧ Ready base K y (roundUp8 (a + 16 + bs.length)) ∧
      Same x y (· < a) ∧ y.1.cellAt a = toCell R.sQuote ∧ y.1.cellAt (a + 8) = toCell bs.length ∧
      y.1.bytesAt (a + 16) bs.length = bs := by
  have hh := h.here
  have hr := roundUp8_le (a + 16 + bs.length)
  obtain ⟨w, w1, w2⟩ := hw
  obtain ⟨a1, a2, a3⟩ := h.emit (by omega) (toCell R.sQuote)
  obtain ⟨d2, hd2⟩ : ∃ d2, (x.1.emit (toCell R.sQuote)).compileStr oc bs = .ok (a + 8, d2) := by
    have := compileStr_ok (oc := oc) (bs := bs) a1.space (by
      rw [a1.here]; simp only [DataSpace.emit_limit]; omega)
    rwa [a1.here] at this
  obtain ⟨e1, e2, e3, e4, e5, e6, e7, e8⟩ := compileStr_spec a1.space.small hd2
  have b1 : Ready base K (d2, x.2) (a + 16 + bs.length) := by
    refine ⟨⟨by rw [e2, e3]; exact a1.space.small, e5⟩, ?_, a1.ctl⟩
    have := a1.here
    simp only [DataSpace.here] at this e4 e2 ⊢
    omega
  have el : d2.limit = x.1.limit := by simp only [DataSpace.limit, e2, e3]; rfl
  have b2 := b1.align (by rw [el]; omega)
  refine ⟨_, ?_, b2, ?_, ?_, ?_, ?_⟩
  · intro c hoc s hR hwl
    simp only [Item.run, M.bind_apply, getRefs_apply, VM.code_refs]
    rw [wordAt_ok (w := w) (by rw [VM.code_wl, hwl, hR, w1])]
    simp only [w2, compSemRun]
    rw [gen_word s h.space (by omega), hR]
    simp only [compileStrM, VM.code_ds, hoc, hd2]
    rw [dsOp_ok (by
      exact align_ok b1.space (by rw [b1.here, el]; omega))]
    rw [b1.here]
    rfl
  · refine ⟨e2, e3, fun z hz => ?_⟩
    have := e8 z (by rw [a1.here]; omega)
    exact this.trans (a2.bytes z hz)
  · have : d2.cellAt a = (x.1.emit (toCell R.sQuote)).cellAt a :=
      DataSpace.cellAt_congr fun z h1 h2 => e8 z (by rw [a1.here]; omega)
    exact this.trans a3
  · exact e6
  · exact e7

/-! ### Code depends only on its bytes -/

theorem cellIs_congr {d e : DataSpace} {a n : Nat} (h : CellIs d a n)
    (hb : ∀ z, a ≤ z → z < a + 8 → e.bytes z = d.bytes z) : CellIs e a n := by
  rw [CellIs, DataSpace.cellAt_congr hb]; exact h

mutual
theorem Spec.Stmt.At.congr {lv : Nat} {d e : DataSpace} : ∀ {p : Stmt} {a : Nat}, p.At R lv d a →
    (∀ z, a ≤ z → z < p.next a → e.bytes z = d.bytes z) → p.At R lv e a
  | .skip, _, h, _ => h
  | .seq p q, a, h, hb => by
    simp only [Stmt.At, Stmt.next] at h hb ⊢
    have := p.le_next a; have := q.le_next (p.next a)
    exact ⟨h.1.congr fun z h1 h2 => hb z (by omega) (by omega),
      h.2.congr fun z h1 h2 => hb z (by omega) (by omega)⟩
  | .word _, a, h, hb => by
    simp only [Stmt.At, Stmt.next] at h hb ⊢
    exact cellIs_congr h hb
  | .lit v, a, h, hb => by
    simp only [Stmt.At, Stmt.next] at h hb ⊢
    refine ⟨cellIs_congr h.1 fun z h1 h2 => hb z (by omega) (by omega), ?_⟩
    rw [DataSpace.cellAt_congr fun z h1 h2 => hb z (by omega) (by omega)]; exact h.2
  | .flt v, a, h, hb => by
    simp only [Stmt.At, Stmt.next] at h hb ⊢
    have := roundUp8_le (a + 8)
    refine ⟨cellIs_congr h.1 fun z h1 h2 => hb z (by omega) (by omega), ?_⟩
    rw [DataSpace.cellAt_congr fun z h1 h2 => hb z (by omega) (by omega)]; exact h.2
  | .str _ bs, a, h, hb => by
    simp only [Stmt.At, Stmt.next] at h hb ⊢
    have := roundUp8_le (a + 16 + bs.length)
    refine ⟨cellIs_congr h.1 fun z h1 h2 => hb z (by omega) (by omega),
      cellIs_congr h.2.1 fun z h1 h2 => hb z (by omega) (by omega), ?_, h.2.2.2⟩
    rw [bytesAt_same fun z h1 h2 => hb z (by omega) (by omega)]; exact h.2.2.1
  | .exit, a, h, hb => by
    simp only [Stmt.At, Stmt.next] at h hb ⊢
    exact cellIs_congr h hb
  | .leave, a, h, hb => by
    simp only [Stmt.At, Stmt.next] at h hb ⊢
    exact cellIs_congr h hb
  | .ifThen p, a, h, hb => by
    simp only [Stmt.At, Stmt.next] at h hb ⊢
    have := p.le_next (a + 16)
    exact ⟨cellIs_congr h.1 fun z h1 h2 => hb z (by omega) (by omega),
      cellIs_congr h.2.1 fun z h1 h2 => hb z (by omega) (by omega),
      h.2.2.congr fun z h1 h2 => hb z (by omega) (by omega)⟩
  | .ifElse p q, a, h, hb => by
    simp only [Stmt.At, Stmt.next] at h hb ⊢
    have := p.le_next (a + 16); have := q.le_next (p.next (a + 16) + 16)
    obtain ⟨c1, c2, c3, c4, c5, c6⟩ := h
    exact ⟨cellIs_congr c1 fun z h1 h2 => hb z (by omega) (by omega),
      cellIs_congr c2 fun z h1 h2 => hb z (by omega) (by omega),
      c3.congr fun z h1 h2 => hb z (by omega) (by omega),
      cellIs_congr c4 fun z h1 h2 => hb z (by omega) (by omega),
      cellIs_congr c5 fun z h1 h2 => hb z (by omega) (by omega),
      c6.congr fun z h1 h2 => hb z (by omega) (by omega)⟩
  | .untilLoop p, a, h, hb => by
    simp only [Stmt.At, Stmt.next] at h hb ⊢
    have := p.le_next a
    exact ⟨h.1.congr fun z h1 h2 => hb z (by omega) (by omega),
      cellIs_congr h.2.1 fun z h1 h2 => hb z (by omega) (by omega),
      cellIs_congr h.2.2 fun z h1 h2 => hb z (by omega) (by omega)⟩
  | .againLoop p, a, h, hb => by
    simp only [Stmt.At, Stmt.next] at h hb ⊢
    have := p.le_next a
    exact ⟨h.1.congr fun z h1 h2 => hb z (by omega) (by omega),
      cellIs_congr h.2.1 fun z h1 h2 => hb z (by omega) (by omega),
      cellIs_congr h.2.2 fun z h1 h2 => hb z (by omega) (by omega)⟩
  | .whileLoop p q, a, h, hb => by
    simp only [Stmt.At, Stmt.next] at h hb ⊢
    have := p.le_next a; have := q.le_next (p.next a + 16)
    obtain ⟨c1, c2, c3, c4, c5, c6⟩ := h
    exact ⟨c1.congr fun z h1 h2 => hb z (by omega) (by omega),
      cellIs_congr c2 fun z h1 h2 => hb z (by omega) (by omega),
      cellIs_congr c3 fun z h1 h2 => hb z (by omega) (by omega),
      c4.congr fun z h1 h2 => hb z (by omega) (by omega),
      cellIs_congr c5 fun z h1 h2 => hb z (by omega) (by omega),
      cellIs_congr c6 fun z h1 h2 => hb z (by omega) (by omega)⟩
  | .loop _ _ _ p, a, h, hb => by
    simp only [Stmt.At, Stmt.next] at h hb ⊢
    have := p.le_next (a + 16)
    obtain ⟨c0, c1, c2, c3, c4, c5⟩ := h
    exact ⟨c0, cellIs_congr c1 fun z h1 h2 => hb z (by omega) (by omega),
      cellIs_congr c2 fun z h1 h2 => hb z (by omega) (by omega),
      c3.congr fun z h1 h2 => hb z (by omega) (by omega),
      cellIs_congr c4 fun z h1 h2 => hb z (by omega) (by omega),
      cellIs_congr c5 fun z h1 h2 => hb z (by omega) (by omega)⟩
  | .case r, a, h, hb => by
    simp only [Stmt.At, Stmt.next] at h hb ⊢
    exact h.congr hb

theorem Spec.Arms.At.congr {lv : Nat} {d e : DataSpace} : ∀ {r : Arms} {fin a : Nat}, r.At R lv d fin a →
    (∀ z, a ≤ z → z < r.next a → e.bytes z = d.bytes z) → r.At R lv e fin a
  | .default p, fin, a, h, hb => by
    simp only [Arms.At, Arms.next] at h hb ⊢
    have := p.le_next a
    exact ⟨h.1.congr fun z h1 h2 => hb z (by omega) (by omega),
      cellIs_congr h.2 fun z h1 h2 => hb z (by omega) (by omega)⟩
  | .arm t b r, fin, a, h, hb => by
    simp only [Arms.At, Arms.next] at h hb ⊢
    have := t.le_next a; have := b.le_next (t.next a + 40)
    have := r.le_next (b.next (t.next a + 40) + 16)
    obtain ⟨c1, c2, c3, c4, c5, c6, c7, c8, c9, c10⟩ := h
    exact ⟨c1.congr fun z h1 h2 => hb z (by omega) (by omega),
      cellIs_congr c2 fun z h1 h2 => hb z (by omega) (by omega),
      cellIs_congr c3 fun z h1 h2 => hb z (by omega) (by omega),
      cellIs_congr c4 fun z h1 h2 => hb z (by omega) (by omega),
      cellIs_congr c5 fun z h1 h2 => hb z (by omega) (by omega),
      cellIs_congr c6 fun z h1 h2 => hb z (by omega) (by omega),
      c7.congr fun z h1 h2 => hb z (by omega) (by omega),
      cellIs_congr c8 fun z h1 h2 => hb z (by omega) (by omega),
      cellIs_congr c9 fun z h1 h2 => hb z (by omega) (by omega),
      c10.congr fun z h1 h2 => hb z (by omega) (by omega)⟩
end

mutual
@[simp] theorem Spec.Stmt.place_next : ∀ (p : Stmt) (a b : Nat), (p.place a).next b = p.next b
  | .skip, _, _ => rfl
  | .seq p q, a, b => by simp only [Stmt.place, Stmt.next, p.place_next, q.place_next]
  | .word _, _, _ => rfl
  | .lit _, _, _ => rfl
  | .flt _, _, _ => rfl
  | .str _ _, _, _ => rfl
  | .exit, _, _ => rfl
  | .leave, _, _ => rfl
  | .ifThen p, a, b => by simp only [Stmt.place, Stmt.next, p.place_next]
  | .ifElse p q, a, b => by simp only [Stmt.place, Stmt.next, p.place_next, q.place_next]
  | .untilLoop p, a, b => by simp only [Stmt.place, Stmt.next, p.place_next]
  | .againLoop p, a, b => by simp only [Stmt.place, Stmt.next, p.place_next]
  | .whileLoop p q, a, b => by simp only [Stmt.place, Stmt.next, p.place_next, q.place_next]
  | .loop _ _ _ p, a, b => by simp only [Stmt.place, Stmt.next, p.place_next]
  | .case r, a, b => by simp only [Stmt.place, Stmt.next, r.place_next]

@[simp] theorem Spec.Arms.place_next : ∀ (r : Arms) (a b : Nat), (r.place a).next b = r.next b
  | .default p, a, b => by simp only [Arms.place, Arms.next, p.place_next]
  | .arm t q r, a, b => by
    simp only [Arms.place, Arms.next, t.place_next, q.place_next, r.place_next]
end

end

end Verif
