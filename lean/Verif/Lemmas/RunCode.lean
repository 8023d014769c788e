import Verif.Lemmas.Like
import Verif.Lemmas.Loop

/-!
# Running compiled code does what the structured program means
-/

namespace Verif
open Spec Stack

/-! ### Sizes -/

mutual
theorem Spec.Stmt.le_next : ∀ (p : Stmt) (a : Nat), a ≤ p.next a
  | .skip, a => by simp [Stmt.next]
  | .seq p q, a => by
    have := p.le_next a; have := q.le_next (p.next a); simp only [Stmt.next]; omega
  | .word _, a => by simp [Stmt.next]
  | .lit _, a => by simp [Stmt.next]
  | .flt _, a => by simp only [Stmt.next, roundUp8]; omega
  | .str _ bs, a => by simp only [Stmt.next, roundUp8]; omega
  | .exit, a => by simp [Stmt.next]
  | .leave, a => by simp [Stmt.next]
  | .ifThen p, a => by have := p.le_next (a + 16); simp only [Stmt.next]; omega
  | .ifElse p q, a => by
    have := p.le_next (a + 16); have := q.le_next (p.next (a + 16) + 16); simp only [Stmt.next]; omega
  | .untilLoop p, a => by have := p.le_next a; simp only [Stmt.next]; omega
  | .againLoop p, a => by have := p.le_next a; simp only [Stmt.next]; omega
  | .whileLoop p q, a => by
    have := p.le_next a; have := q.le_next (p.next a + 16); simp only [Stmt.next]; omega
  | .loop _ _ _ p, a => by have := p.le_next (a + 16); simp only [Stmt.next]; omega
  | .case r, a => by have := r.le_next a; simp only [Stmt.next]; omega

theorem Spec.Arms.le_next : ∀ (r : Arms) (a : Nat), a + 8 ≤ r.next a
  | .default p, a => by have := p.le_next a; simp only [Arms.next]; omega
  | .arm t b r, a => by
    have := t.le_next a
    have := b.le_next (t.next a + 40)
    have := r.le_next (b.next (t.next a + 40) + 16)
    simp only [Arms.next]; omega
end

/-! ### One step -/

theorem Spec.Steps.trans {cfg : Cfg} {n : Nat} {s t u : VM} (h : Steps cfg n s t) (k : Steps cfg n t u) :
    Steps cfg n s u := by
  induction k with
  | refl => exact h
  | tail _ e ih => exact .tail ih e

theorem Spec.Steps.one {cfg : Cfg} {n : Nat} {s t : VM} (h : step cfg n s = .ok (true, t)) :
    Steps cfg n s t := .tail (.refl s) h

section
variable {R : Refs} {wl : Wordlist} {lv lo hi : Nat} {k : Fin 5} {d : DataSpace} {s t : VM}

theorem Spec.Loaded.congr (h : Loaded R lv wl lo hi k d s) (h1 : t.cur = s.cur) (h2 : t.ds = s.ds)
    (h3 : t.wl = s.wl) : Loaded R lv wl lo hi k d t :=
  ⟨h1.trans h.cur, by rw [h2]; exact h.start, by rw [h2]; exact h.cap, by rw [h2]; exact h.code,
    by rw [h3]; exact h.words, by rw [h3]; exact h.kept⟩

theorem Spec.Loaded.like (h : Loaded R lv wl lo hi k d s) (l : Like t s) : Loaded R lv wl lo hi k d t :=
  h.congr l.cur l.ds l.wl

theorem Spec.Loaded.setTask (h : Loaded R lv wl lo hi k d s) (x : Task) : Loaded R lv wl lo hi k d (s.setTask x) :=
  h.congr rfl rfl rfl

theorem Spec.Loaded.cell (h : Loaded R lv wl lo hi k d s) (g : Region d lo hi) {a : Nat} (h1 : lo ≤ a)
    (h2 : a + 8 ≤ hi) : s.ds.getCell a = .ok (d.cellAt a) := by
  have hv : s.ds.valid a 8 := by
    have := g.lower; have := g.upper; have := h.start; have := h.cap
    simp only [DataSpace.valid, DataSpace.limit]; omega
  rw [DataSpace.getCell, if_pos hv,
    DataSpace.cellAt_congr (d := d) (fun x k1 k2 => h.code x (by omega) (by omega))]

/-- A step at a cell that holds the number of a word executes the word. -/
theorem step_exec {cfg : Cfg} {n : Nat} (h : Loaded R lv wl lo hi k d s) (g : Region d lo hi) {a i : Nat}
    (hp : pc s = a) (h1 : lo ≤ a) (h2 : a + 8 ≤ hi) (hc : CellIs d a i) :
    step cfg n s = (execWord cfg n i >>= fun _ => pure true) (s.at (a + 8) s.task.st.wp) := by
  have := g.lower; have := g.upper; have := g.small; have := h.start; have := h.cap
  have hum : usizeMod = 2 ^ 64 := rfl
  have ho : ipOk cfg.overflowChecks s.ds a = .ok true := by
    have hr : s.ds.start ≤ a ∧ a + 8 ≤ s.ds.limit := by simp only [DataSpace.limit]; omega
    simp only [ipOk, rangeOk, if_pos hr.1]
    rw [uadd_ok (by omega)]
    simp only [bind, Except.bind, decide_eq_true hr.2]
  have hc' : (d.cellAt a).toNat = i := hc
  rw [pc] at hp
  unfold step
  simp only [M.bind_apply, getSt_apply]
  rw [hp, dsRd_ok ho]
  simp only [if_true]
  simp only [M.bind_apply]
  rw [dsRd_ok (h.cell g h1 h2)]
  simp only [uadd_ok (show a + 8 < usizeMod by omega), liftE_ok, hc']
  have e : setIp (a + 8) s = .ok ((), s.at (a + 8) s.task.st.wp) := rfl
  rw [e]

theorem step_word {cfg : Cfg} {n : Nat} (h : Loaded R lv wl lo hi k d s) (g : Region d lo hi) {a i : Nat}
    (hp : pc s = a) (h1 : lo ≤ a) (h2 : a + 8 ≤ hi) (hc : CellIs d a i) {u : VM}
    (hx : execWord cfg n i (s.at (a + 8) s.task.st.wp) = .ok ((), u)) :
    step cfg n s = .ok (true, u) := by
  rw [step_exec h g hp h1 h2 hc, M.bind_apply, hx]; rfl

/-- Executing a word known to the dictionary. -/
theorem exec_word {cfg : Cfg} {n i : Nat} {w : Word} (hw : s.wl.words[i]? = some w) :
    execWord cfg (n + 1) i s = action ⟨cfg, execWord cfg n⟩ w.action (s.at s.task.st.ip i) := by
  rw [execWord]
  simp only [M.bind_apply, modSt_apply, getWl_apply, VM.wl_setTask, hw]
  rfl

/-- A step at a cell that holds the number of one of the words the compiler uses. -/
theorem step_role {cfg : Cfg} {n : Nat} (h : Loaded R lv wl lo hi k d s) (g : Region d lo hi) {a i : Nat}
    {p : CorePrim} (hr : (i, p) ∈ roles R lv) (hp : pc s = a) (h1 : lo ≤ a) (h2 : a + 8 ≤ hi)
    (hc : CellIs d a i) {u : VM}
    (hx : coreAction ⟨cfg, execWord cfg n⟩ p (s.at (a + 8) i) = .ok ((), u)) :
    step cfg (n + 1) s = .ok (true, u) := by
  obtain ⟨w, hw, ha⟩ := h.words _ hr
  refine step_word h g hp h1 h2 hc ?_
  rw [exec_word (by exact hw), ha]
  simp only [VM.at, VM.setTask_setTask] at hx ⊢
  simpa [VM.task_setTask, action] using hx

/-! ### The words the compiler uses -/

variable {cfg : Cfg} {n : Nat} {s1 : VM} {a b : Nat}

theorem toCell_toNat (v : Cell) : toCell v.toNat = v := by simp [toCell]

/-- The machine after a step that leaves the stacks `ds`, `rs`, `fs` and the instruction pointer
`ip`. -/
def VM.put (s : VM) (ds rs : Stack Cell) (fs : Stack F64) (ip wp : Nat) : VM :=
  s.setTask { s.task with s := ds, r := rs, f := fs, st := { s.task.st with ip := ip, wp := wp } }

/-- A step that executes a word the compiler uses. -/
theorem one_role {p : CorePrim} {i : Nat} (hl : Like s1 s) (h : Loaded R lv wl lo hi k d s)
    (g : Region d lo hi) (hr : (i, p) ∈ roles R lv) (hp : pc s1 = a) (h1 : lo ≤ a) (h2 : a + 8 ≤ hi)
    (hc : CellIs d a i) {ds ds' rs rs' : Stack Cell} {fs fs' : Stack F64}
    (hx : coreAction ⟨cfg, execWord cfg n⟩ p (s1.at (a + 8) i) = .ok ((), s1.put ds rs fs b i))
    (hs : LikeStack ds ds') (hrs : LikeStack rs rs') (hf : LikeStack fs fs')
    (ht : t = s.setTask { s.task with s := ds', r := rs', f := fs' }) :
    ∃ u, step cfg (n + 1) s1 = .ok (true, u) ∧ Like u t ∧ pc u = b := by
  subst ht
  exact ⟨_, step_role (h.like hl) g hr hp h1 h2 hc hx, hl.update hs hrs hf b i, by simp [pc, VM.put]⟩

theorem run_role {p : CorePrim} {i : Nat} (hl : Like s1 s) (h : Loaded R lv wl lo hi k d s)
    (g : Region d lo hi) (hr : (i, p) ∈ roles R lv) (hp : pc s1 = a) (h1 : lo ≤ a) (h2 : a + 8 ≤ hi)
    (hc : CellIs d a i) {ds ds' rs rs' : Stack Cell} {fs fs' : Stack F64}
    (hx : coreAction ⟨cfg, execWord cfg n⟩ p (s1.at (a + 8) i) = .ok ((), s1.put ds rs fs b i))
    (hs : LikeStack ds ds') (hrs : LikeStack rs rs') (hf : LikeStack fs fs')
    (ht : t = s.setTask { s.task with s := ds', r := rs', f := fs' }) :
    ∃ u, Steps cfg (n + 1) s1 u ∧ Like u t ∧ pc u = b :=
  (one_role hl h g hr hp h1 h2 hc hx hs hrs hf ht).imp fun _ e => ⟨.one e.1, e.2⟩

theorem same_task (s : VM) : s = s.setTask { s.task with s := s.task.s, r := s.task.r, f := s.task.f } :=
  (VM.setTask_task s).symm

theorem one_branch (hl : Like s1 s) (h : Loaded R lv wl lo hi k d s) (g : Region d lo hi)
    (hp : pc s1 = a) (h1 : lo ≤ a) (h2 : a + 16 ≤ hi) (hc : CellIs d a R.branch)
    (hb : CellIs d (a + 8) b) : ∃ u, step cfg (n + 1) s1 = .ok (true, u) ∧ Like u s ∧ pc u = b := by
  refine one_role (p := .branch) hl h g (by simp [roles]) hp h1 (by omega) hc ?_ hl.s hl.r hl.f
    (same_task s)
  simp only [coreAction, branch, M.bind_apply, getSt_apply, VM.at_task]
  rw [dsRd_ok (s := s1.at (a + 8) R.branch) ((h.like hl).cell g (by omega) (by omega))]
  have hb' : (d.cellAt (a + 8)).toNat = b := hb
  simp [setIp, VM.at, VM.put, hb']

theorem run_branch (hl : Like s1 s) (h : Loaded R lv wl lo hi k d s) (g : Region d lo hi)
    (hp : pc s1 = a) (h1 : lo ≤ a) (h2 : a + 16 ≤ hi) (hc : CellIs d a R.branch)
    (hb : CellIs d (a + 8) b) : ∃ u, Steps cfg (n + 1) s1 u ∧ Like u s ∧ pc u = b :=
  (one_branch hl h g hp h1 h2 hc hb).imp fun _ e => ⟨.one e.1, e.2⟩

theorem ipAdd8_ok {c : Ctx} {s : VM} (h : s.task.st.ip + 8 < usizeMod) :
    ipAdd8 c s = .ok ((), s.at (s.task.st.ip + 8) s.task.st.wp) := by
  simp [ipAdd8, uadd_ok h, VM.at]

theorem one_zero (hl : Like s1 s) (h : Loaded R lv wl lo hi k d s) (g : Region d lo hi)
    (hp : pc s1 = a) (h1 : lo ≤ a) (h2 : a + 16 ≤ hi) (hc : CellIs d a R.zeroBranch)
    (hb : CellIs d (a + 8) b) {l : List Cell} (hd : data s = 0 :: l) :
    ∃ u, step cfg (n + 1) s1 = .ok (true, u) ∧ Like u (setData s l) ∧ pc u = b := by
  have hd1 : s1.task.s.items = 0 :: l := hl.data.trans hd
  have hll : l.length < 256 := by have := items_length_lt s1.task.s; rw [hd1] at this; simp at this; omega
  refine one_role (p := .zeroBranch) (ds := s1.task.s.pop.2) hl h g (by simp [roles]) hp h1 (by omega)
    hc ?_ (by rw [pop_holding hd1]; exact hl.s.hold l hll) hl.r hl.f rfl
  have hb' : (d.cellAt (a + 8)).toNat = b := hb
  simp only [coreAction, zeroBranch, M.bind_apply, sPop_apply, VM.at_task,
    (items_eq_iff.mp hd1).pop_fst, if_true]
  simp only [branch, M.bind_apply, getSt_apply, VM.task_setTask]
  rw [dsRd_ok ((h.like hl).cell (a := a + 8) g (by omega) (by omega))]
  simp [setIp, VM.at, VM.put, hb']

theorem run_zero (hl : Like s1 s) (h : Loaded R lv wl lo hi k d s) (g : Region d lo hi)
    (hp : pc s1 = a) (h1 : lo ≤ a) (h2 : a + 16 ≤ hi) (hc : CellIs d a R.zeroBranch)
    (hb : CellIs d (a + 8) b) {l : List Cell} (hd : data s = 0 :: l) :
    ∃ u, Steps cfg (n + 1) s1 u ∧ Like u (setData s l) ∧ pc u = b :=
  (one_zero hl h g hp h1 h2 hc hb hd).imp fun _ e => ⟨.one e.1, e.2⟩

theorem one_nonzero (hl : Like s1 s) (h : Loaded R lv wl lo hi k d s) (g : Region d lo hi)
    (hp : pc s1 = a) (h1 : lo ≤ a) (h2 : a + 16 ≤ hi) (hc : CellIs d a R.zeroBranch)
    {l : List Cell} {f : Cell} (hd : data s = f :: l) (hf : f ≠ 0) :
    ∃ u, step cfg (n + 1) s1 = .ok (true, u) ∧ Like u (setData s l) ∧ pc u = a + 16 := by
  have hd1 : s1.task.s.items = f :: l := hl.data.trans hd
  have hll : l.length < 256 := by have := items_length_lt s1.task.s; rw [hd1] at this; simp at this; omega
  have := g.upper; have := g.small
  have hum : usizeMod = 2 ^ 64 := rfl
  refine one_role (p := .zeroBranch) (ds := s1.task.s.pop.2) hl h g (by simp [roles]) hp h1 (by omega)
    hc ?_ (by rw [pop_holding hd1]; exact hl.s.hold l hll) hl.r hl.f rfl
  simp only [coreAction, zeroBranch, M.bind_apply, sPop_apply, VM.at_task,
    (items_eq_iff.mp hd1).pop_fst, if_neg hf]
  rw [ipAdd8_ok (by simp; omega)]
  simp [VM.at, VM.put]

theorem run_nonzero (hl : Like s1 s) (h : Loaded R lv wl lo hi k d s) (g : Region d lo hi)
    (hp : pc s1 = a) (h1 : lo ≤ a) (h2 : a + 16 ≤ hi) (hc : CellIs d a R.zeroBranch)
    {l : List Cell} {f : Cell} (hd : data s = f :: l) (hf : f ≠ 0) :
    ∃ u, Steps cfg (n + 1) s1 u ∧ Like u (setData s l) ∧ pc u = a + 16 :=
  (one_nonzero hl h g hp h1 h2 hc hd hf).imp fun _ e => ⟨.one e.1, e.2⟩

theorem one_drop (hl : Like s1 s) (h : Loaded R lv wl lo hi k d s) (g : Region d lo hi)
    (hp : pc s1 = a) (h1 : lo ≤ a) (h2 : a + 8 ≤ hi) (hc : CellIs d a R.drop)
    {l : List Cell} {x : Cell} (hd : data s = x :: l) :
    ∃ u, step cfg (n + 1) s1 = .ok (true, u) ∧ Like u (setData s l) ∧ pc u = a + 8 := by
  have hd1 : s1.task.s.items = x :: l := hl.data.trans hd
  have hll : l.length < 256 := by have := items_length_lt s1.task.s; rw [hd1] at this; simp at this; omega
  refine one_role (p := .drop) (ds := s1.task.s.pop.2) hl h g (by simp [roles]) hp h1 (by omega)
    hc ?_ (by rw [pop_holding hd1]; exact hl.s.hold l hll) hl.r hl.f rfl
  simp [coreAction, modS, VM.at, VM.put, Stack.drop, Stack.pop]

theorem run_drop (hl : Like s1 s) (h : Loaded R lv wl lo hi k d s) (g : Region d lo hi)
    (hp : pc s1 = a) (h1 : lo ≤ a) (h2 : a + 8 ≤ hi) (hc : CellIs d a R.drop)
    {l : List Cell} {x : Cell} (hd : data s = x :: l) :
    ∃ u, Steps cfg (n + 1) s1 u ∧ Like u (setData s l) ∧ pc u = a + 8 :=
  (one_drop hl h g hp h1 h2 hc hd).imp fun _ e => ⟨.one e.1, e.2⟩

theorem one_lit (hl : Like s1 s) (h : Loaded R lv wl lo hi k d s) (g : Region d lo hi)
    (hp : pc s1 = a) (h1 : lo ≤ a) (h2 : a + 16 ≤ hi) (hc : CellIs d a R.lit) {v : Cell}
    (hv : d.cellAt (a + 8) = v) (hd : (data s).length < capacity) :
    ∃ u, step cfg (n + 1) s1 = .ok (true, u) ∧ Like u (setData s (v :: data s)) ∧ pc u = a + 16 := by
  have hd1 : s1.task.s.items = data s := hl.data
  have := g.upper; have := g.small
  have hum : usizeMod = 2 ^ 64 := rfl
  simp only [capacity] at hd
  have hp1 := push_holding s1.task.s v (by rw [hd1]; omega)
  rw [hd1] at hp1
  refine one_role (p := .lit) (ds := s1.task.s.push v) hl h g (by simp [roles]) hp h1 (by omega)
    hc ?_ (by rw [hp1]; exact hl.s.hold _ (by simp; omega)) hl.r hl.f rfl
  simp only [coreAction, lit, M.bind_apply, getSt_apply, VM.at_task]
  rw [dsRd_ok (s := s1.at _ _) ((h.like hl).cell (a := a + 8) g (by omega) (by omega))]
  simp only [sPush_apply, VM.at_task]
  rw [ipAdd8_ok (by simp; omega)]
  simp [VM.at, VM.put, hv]

theorem run_lit (hl : Like s1 s) (h : Loaded R lv wl lo hi k d s) (g : Region d lo hi)
    (hp : pc s1 = a) (h1 : lo ≤ a) (h2 : a + 16 ≤ hi) (hc : CellIs d a R.lit) {v : Cell}
    (hv : d.cellAt (a + 8) = v) (hd : (data s).length < capacity) :
    ∃ u, Steps cfg (n + 1) s1 u ∧ Like u (setData s (v :: data s)) ∧ pc u = a + 16 :=
  (one_lit hl h g hp h1 h2 hc hv hd).imp fun _ e => ⟨.one e.1, e.2⟩

theorem roundUp8_le (x : Nat) : x ≤ roundUp8 x ∧ roundUp8 x < x + 8 := by unfold roundUp8; omega

theorem aligned_eq {oc : Bool} {x : Nat} (h : x + 8 < usizeMod) :
    DataSpace.aligned oc x = .ok (roundUp8 x) := by
  rw [DataSpace.aligned_ok h]; rfl

theorem run_flt (hl : Like s1 s) (h : Loaded R lv wl lo hi k d s) (g : Region d lo hi)
    (hp : pc s1 = a) (h1 : lo ≤ a) (h2 : roundUp8 (a + 8) + 8 ≤ hi) (hc : CellIs d a R.flit) {v : F64}
    (hv : d.cellAt (roundUp8 (a + 8)) = v) (hd : (floats s).length < capacity) :
    ∃ u, Steps cfg (n + 1) s1 u ∧ Like u (setFloats s (v :: floats s)) ∧
      pc u = roundUp8 (a + 8) + 8 := by
  have hd1 : s1.task.f.items = floats s := hl.floats
  have := g.upper; have := g.small; have := roundUp8_le (a + 8)
  have hum : usizeMod = 2 ^ 64 := rfl
  simp only [capacity] at hd
  have hp1 := push_holding s1.task.f v (by rw [hd1]; omega)
  rw [hd1] at hp1
  refine run_role (p := .flit) (fs := s1.task.f.push v) hl h g (by simp [roles]) hp h1 (by omega)
    hc ?_ hl.s hl.r (by rw [hp1]; exact hl.f.hold _ (by simp; omega)) rfl
  simp only [coreAction, flit, M.bind_apply, getSt_apply, VM.at_task]
  rw [aligned_eq (by omega), liftE_ok]
  simp only
  rw [dsRd_ok (s := s1.at _ _) ((h.like hl).cell (a := roundUp8 (a + 8)) g (by omega) (by omega))]
  simp only [fPush_apply, VM.at_task]
  rw [uadd_ok (by omega), liftE_ok]
  simp [setIp, VM.at, VM.put, hv]

theorem bytesAt_same {d e : DataSpace} {a n : Nat} (h : ∀ x, a ≤ x → x < a + n → e.bytes x = d.bytes x) :
    e.bytesAt a n = d.bytesAt a n := by
  unfold DataSpace.bytesAt
  apply List.map_congr_left
  intro i hi
  rw [List.mem_range] at hi
  exact h _ (by omega) (by omega)

theorem run_str (hl : Like s1 s) (h : Loaded R lv wl lo hi k d s) (g : Region d lo hi)
    (hp : pc s1 = a) (h1 : lo ≤ a) {bs : List Byte} (h2 : roundUp8 (a + 16 + bs.length) ≤ hi)
    (hc : CellIs d a R.sQuote) (hn : CellIs d (a + 8) bs.length)
    (hb : d.bytesAt (a + 16) bs.length = bs) (hd : (data s).length + 1 < capacity) :
    ∃ u, Steps cfg (n + 1) s1 u ∧
      Like u (setData s (BitVec.ofNat 64 bs.length :: BitVec.ofNat 64 (a + 16) :: data s)) ∧
      pc u = roundUp8 (a + 16 + bs.length) := by
  have hd1 : s1.task.s.items = data s := hl.data
  have := g.upper; have := g.small; have := g.lower; have := roundUp8_le (a + 16 + bs.length)
  have hum : usizeMod = 2 ^ 64 := rfl
  have hL := h.like hl
  have := hL.start; have := hL.cap
  simp only [capacity] at hd
  have hp1 := push2_holding s1.task.s (BitVec.ofNat 64 (a + 16)) (BitVec.ofNat 64 bs.length)
    (by rw [hd1]; omega)
  rw [hd1] at hp1
  have hn' : (d.cellAt (a + 8)).toNat = bs.length := hn
  have hbytes : s1.ds.getBytes (a + 16) bs.length = .ok bs := by
    by_cases h0 : bs.length = 0
    · rw [DataSpace.getBytes, if_pos h0, List.eq_nil_of_length_eq_zero h0]
    · have hv : s1.ds.valid (a + 16) bs.length := by
        simp only [DataSpace.valid, DataSpace.limit]; omega
      rw [DataSpace.getBytes, if_neg h0, if_pos hv,
        bytesAt_same (d := d) (fun x k1 k2 => hL.code x (by omega) (by omega)), hb]
  have hstr : s1.ds.getStr cfg.overflowChecks (a + 8) = .ok bs := by
    have e1 : uadd cfg.overflowChecks (a + 8) 8 = .ok (a + 16) := uadd_ok (by omega)
    rw [DataSpace.getStr, hL.cell g (a := a + 8) (by omega) (by omega), Except.ok_bind', e1,
      Except.ok_bind', hn', hbytes]
  refine run_role (p := .sQuoteRt) (ds := s1.task.s.push2 (BitVec.ofNat 64 (a + 16))
    (BitVec.ofNat 64 bs.length)) hl h g (by simp [roles]) hp h1 (by omega)
    hc ?_ (by rw [hp1]; exact hl.s.hold _ (by simp; omega)) hl.r hl.f rfl
  simp only [coreAction, sQuoteRt, M.bind_apply, getSt_apply, VM.at_task]
  rw [dsRd_ok (s := s1.at _ _) hstr]
  simp only
  rw [uadd_ok (by omega), liftE_ok]
  simp only [sPush2_apply, VM.at_task]
  rw [uadd_ok (by omega), liftE_ok]
  simp only
  rw [show a + 8 + 8 = a + 16 by omega, aligned_eq (by omega), liftE_ok]
  simp [setIp, VM.at, VM.put, toCell]

theorem run_over (hl : Like s1 s) (h : Loaded R lv wl lo hi k d s) (g : Region d lo hi)
    (hp : pc s1 = a) (h1 : lo ≤ a) (h2 : a + 8 ≤ hi) (hc : CellIs d a R.over)
    {l : List Cell} {x y : Cell} (hd : data s = y :: x :: l) (hr : l.length + 2 < capacity) :
    ∃ u, Steps cfg (n + 1) s1 u ∧ Like u (setData s (x :: y :: x :: l)) ∧ pc u = a + 8 := by
  have hd1 : s1.task.s.items = y :: x :: l := hl.data.trans hd
  simp only [capacity] at hr
  refine run_role (p := .over) (ds := s1.task.s.over) hl h g (by simp [roles]) hp h1 (by omega)
    hc ?_ (hl.s.of_to ((items_eq_iff.mp hd1).toOver (by omega)) (by simp; omega) (by simp; omega))
    hl.r hl.f rfl
  simp [coreAction, modS, VM.at, VM.put]

theorem run_equal (hl : Like s1 s) (h : Loaded R lv wl lo hi k d s) (g : Region d lo hi)
    (hp : pc s1 = a) (h1 : lo ≤ a) (h2 : a + 8 ≤ hi) (hc : CellIs d a R.equal)
    {l : List Cell} {x y : Cell} (hd : data s = y :: x :: l) (hr : l.length + 2 ≤ capacity) :
    ∃ u, Steps cfg (n + 1) s1 u ∧ Like u (setData s ((if x = y then -1 else 0) :: l)) ∧
      pc u = a + 8 := by
  have hd1 : s1.task.s.items = y :: x :: l := hl.data.trans hd
  simp only [capacity] at hr
  have e : s1.task.s.pop2.1 = (x, y) := (items_eq_iff.mp hd1).pop2_fst
  refine run_role (p := .equals) (ds := s1.task.s.pop2.2.push (flag (decide (y = x)))) hl h g
    (by simp [roles]) hp h1 (by omega)
    hc ?_ ?_ hl.r hl.f rfl
  · simp [coreAction, pop2Push, VM.at, VM.put, e]
  · have := hl.s.of_to ((items_eq_iff.mp hd1).toPop2Push (flag (decide (y = x)))) (by simp; omega)
      (by simp; omega)
    have e2 : flag (decide (y = x)) = (if x = y then (-1 : Cell) else 0) := by
      by_cases hh : x = y
      · simp [flag, hh]
      · simp [flag, hh, Ne.symm hh]
    rw [← e2]
    exact this

theorem one_exit (hl : Like s1 s) (h : Loaded R lv wl lo hi k d s) (g : Region d lo hi)
    (hp : pc s1 = a) (h1 : lo ≤ a) (h2 : a + 8 ≤ hi) (hc : CellIs d a R.exit)
    {l : List Cell} {x : Cell} (hd : ret s = x :: l) :
    ∃ u, step cfg (n + 1) s1 = .ok (true, u) ∧ Like u (setRet s l) ∧ pc u = x.toNat := by
  have hd1 : s1.task.r.items = x :: l := hl.ret.trans hd
  have hll : l.length < 256 := by have := items_length_lt s1.task.r; rw [hd1] at this; simp at this; omega
  refine one_role (p := .exit) (rs := s1.task.r.pop.2) hl h g (by simp [roles]) hp h1 (by omega)
    hc ?_ hl.s (by rw [pop_holding hd1]; exact hl.r.hold l hll) hl.f rfl
  simp [coreAction, exit, setIp, VM.at, VM.put, (items_eq_iff.mp hd1).pop_fst]

theorem run_exit (hl : Like s1 s) (h : Loaded R lv wl lo hi k d s) (g : Region d lo hi)
    (hp : pc s1 = a) (h1 : lo ≤ a) (h2 : a + 8 ≤ hi) (hc : CellIs d a R.exit)
    {l : List Cell} {x : Cell} (hd : ret s = x :: l) :
    ∃ u, Steps cfg (n + 1) s1 u ∧ Like u (setRet s l) ∧ pc u = x.toNat :=
  (one_exit hl h g hp h1 h2 hc hd).imp fun _ e => ⟨.one e.1, e.2⟩

theorem run_leave (hl : Like s1 s) (h : Loaded R lv wl lo hi k d s) (g : Region d lo hi)
    (hp : pc s1 = a) (h1 : lo ≤ a) (h2 : a + 8 ≤ hi) (hc : CellIs d a lv) {tok : Nat}
    (ht1 : lo ≤ tok) (ht2 : tok + 8 ≤ hi) (hb : CellIs d tok b)
    {l : List Cell} {x y : Cell} (hd : ret s = x :: y :: BitVec.ofNat 64 tok :: l)
    (hlen : l.length ≤ capacity) (hcan : s.task.r.inner 255 = s.task.r.canary) :
    ∃ u, Steps cfg (n + 1) s1 u ∧ Like u (setRet s l) ∧ pc u = b := by
  have hd1 : s1.task.r.items = x :: y :: BitVec.ofNat 64 tok :: l := hl.ret.trans hd
  have hll : l.length < 256 := by have := items_length_lt s1.task.r; rw [hd1] at this; simp at this; omega
  have := g.upper; have := g.small
  have rep := items_eq_iff.mp hd1
  have e : s1.task.r.pop3.1 = (BitVec.ofNat 64 tok, y, x) := rep.pop3_fst
  simp only [capacity] at hlen
  have hu : s1.task.r.pop3.2.underflow = false := by
    have h255 : s1.task.r.inner 255 = s1.task.r.canary := by
      rw [hl.r.slots 255 (Or.inr (by decide)), hl.r.canary, hcan]
    have hl2 := rep.pop3_snd.1
    simp only [Stack.pop3] at hl2 ⊢
    simp only [Stack.underflow, h255, hl2]
    simp; omega
  refine run_role (p := .leave) (rs := s1.task.r.pop3.2) hl h g (by simp [roles]) hp h1 (by omega)
    hc ?_ hl.s (by rw [pop3_holding hd1]; exact hl.r.hold l hll) hl.f rfl
  have et : (BitVec.ofNat 64 tok).toNat = tok := by rw [BitVec.toNat_ofNat]; omega
  have hb' : (d.cellAt tok).toNat = b := hb
  simp only [coreAction, leave, M.bind_apply, rPop3_apply, getTask_apply, VM.at_task, e,
    VM.task_setTask, hu]
  simp only [Bool.false_eq_true, if_false, M.bind_apply, et]
  rw [dsRd_ok ((h.like hl).cell (a := tok) g (by omega) (by omega))]
  simp [setIp, VM.at, VM.put, hb']

theorem push_push2 {α : Type} (st : Stack α) (x y z : α) (h : st.items.length < 253) :
    (st.push x).push2 y z = holding st (z :: y :: x :: st.items) := by
  have r1 := (rep_items st).push (by omega) x
  have r2 := r1.push2 (by simp; omega) y z
  refine eq_holding r2 rfl ?_
  intro i hi
  have := (rep_items st).1
  simp only [List.length_cons] at hi
  simp only [Stack.push, Stack.push2, setSlot]
  rw [if_neg (by bv_omega), if_neg (by bv_omega), if_neg (by bv_omega)]

theorem run_do (hl : Like s1 s) (h : Loaded R lv wl lo hi k d s) (g : Region d lo hi)
    (hp : pc s1 = a) (h1 : lo ≤ a) (h2 : a + 16 ≤ hi) (hc : CellIs d a R.doRt)
    {l : List Cell} {lim start : Cell} (hd : data s = start :: lim :: l)
    (hr : (ret s).length + 2 < capacity) :
    ∃ u, Steps cfg (n + 1) s1 u ∧ Like u (setRet (setData s l)
        (params lim start ++ BitVec.ofNat 64 (a + 8) :: ret s)) ∧ pc u = a + 16 := by
  have hd1 : s1.task.s.items = start :: lim :: l := hl.data.trans hd
  have hr1 : s1.task.r.items = ret s := hl.ret
  have hll : l.length < 256 := by have := items_length_lt s1.task.s; rw [hd1] at this; simp at this; omega
  have := g.upper; have := g.small
  have hum : usizeMod = 2 ^ 64 := rfl
  simp only [capacity] at hr
  have e : s1.task.s.pop2.1 = (lim, start) := (items_eq_iff.mp hd1).pop2_fst
  have hpp := push_push2 s1.task.r (BitVec.ofNat 64 (a + 8)) (start - (cellMin + start - lim))
    (cellMin + start - lim) (by rw [hr1]; omega)
  rw [hr1] at hpp
  refine run_role (p := .doRt) (ds := s1.task.s.pop2.2)
    (rs := (s1.task.r.push (BitVec.ofNat 64 (a + 8))).push2 (start - (cellMin + start - lim))
      (cellMin + start - lim)) hl h g (by simp [roles]) hp h1 (by omega)
    hc ?_ (by rw [pop2_holding hd1]; exact hl.s.hold l hll)
    (by rw [hpp]; exact hl.r.hold _ (by simp; omega)) hl.f ?_
  · simp only [coreAction, doRt, M.bind_apply, getSt_apply, rPush_apply, VM.at_task]
    rw [ipAdd8_ok (by simp; omega)]
    simp [VM.at, VM.put, e, toCell]
  · rw [params_eq]
    simp [setRet, setData, ret]

theorem run_qdo (hl : Like s1 s) (h : Loaded R lv wl lo hi k d s) (g : Region d lo hi)
    (hp : pc s1 = a) (h1 : lo ≤ a) (h2 : a + 16 ≤ hi) (hc : CellIs d a R.qdoRt)
    {l : List Cell} {lim start : Cell} (hd : data s = start :: lim :: l) (hne : start ≠ lim)
    (hr : (ret s).length + 2 < capacity) :
    ∃ u, Steps cfg (n + 1) s1 u ∧ Like u (setRet (setData s l)
        (params lim start ++ BitVec.ofNat 64 (a + 8) :: ret s)) ∧ pc u = a + 16 := by
  have hd1 : s1.task.s.items = start :: lim :: l := hl.data.trans hd
  have hr1 : s1.task.r.items = ret s := hl.ret
  have hll : l.length < 256 := by have := items_length_lt s1.task.s; rw [hd1] at this; simp at this; omega
  have := g.upper; have := g.small
  have hum : usizeMod = 2 ^ 64 := rfl
  simp only [capacity] at hr
  have e : s1.task.s.pop2.1 = (lim, start) := (items_eq_iff.mp hd1).pop2_fst
  have hpp := push_push2 s1.task.r (BitVec.ofNat 64 (a + 8)) (start - (cellMin + start - lim))
    (cellMin + start - lim) (by rw [hr1]; omega)
  rw [hr1] at hpp
  refine run_role (p := .qdoRt) (ds := s1.task.s.pop2.2)
    (rs := (s1.task.r.push (BitVec.ofNat 64 (a + 8))).push2 (start - (cellMin + start - lim))
      (cellMin + start - lim)) hl h g (by simp [roles]) hp h1 (by omega)
    hc ?_ (by rw [pop2_holding hd1]; exact hl.s.hold l hll)
    (by rw [hpp]; exact hl.r.hold _ (by simp; omega)) hl.f ?_
  · simp only [coreAction, qdoRt, M.bind_apply, sPop2_apply, VM.at_task, e, if_neg (Ne.symm hne),
      getSt_apply, rPush_apply, VM.task_setTask]
    rw [ipAdd8_ok (by simp; omega)]
    simp [VM.at, VM.put, toCell]
  · rw [params_eq]
    simp [setRet, setData, ret]

theorem run_qdo_none (hl : Like s1 s) (h : Loaded R lv wl lo hi k d s) (g : Region d lo hi)
    (hp : pc s1 = a) (h1 : lo ≤ a) (h2 : a + 16 ≤ hi) (hc : CellIs d a R.qdoRt)
    (hb : CellIs d (a + 8) b) {l : List Cell} {x : Cell} (hd : data s = x :: x :: l) :
    ∃ u, Steps cfg (n + 1) s1 u ∧ Like u (setData s l) ∧ pc u = b := by
  have hd1 : s1.task.s.items = x :: x :: l := hl.data.trans hd
  have hll : l.length < 256 := by have := items_length_lt s1.task.s; rw [hd1] at this; simp at this; omega
  have e : s1.task.s.pop2.1 = (x, x) := (items_eq_iff.mp hd1).pop2_fst
  refine run_role (p := .qdoRt) (ds := s1.task.s.pop2.2) hl h g (by simp [roles]) hp h1 (by omega)
    hc ?_ (by rw [pop2_holding hd1]; exact hl.s.hold l hll) hl.r hl.f rfl
  have hb' : (d.cellAt (a + 8)).toNat = b := hb
  simp only [coreAction, qdoRt, M.bind_apply, sPop2_apply, VM.at_task, e, if_true]
  simp only [branch, M.bind_apply, getSt_apply, VM.task_setTask]
  rw [dsRd_ok ((h.like hl).cell (a := a + 8) g (by omega) (by omega))]
  simp [setIp, VM.at, VM.put, hb']

/-- The common part of `LOOP` and `+LOOP`, going on. -/
theorem loopStep_next {c : Ctx} {u : VM} {rt x : Cell} (h : inIsize (rt.toInt + x.toInt)) {v : Cell}
    (hv : u.ds.getCell u.task.st.ip = .ok v) :
    loopStep c rt x u = .ok ((), u.put u.task.s (u.task.r.push (rt + x)) u.task.f v.toNat
      u.task.st.wp) := by
  unfold loopStep
  rw [if_pos h]
  simp only [M.bind_apply, rPush_apply, branch, getSt_apply, VM.task_setTask]
  rw [dsRd_ok hv]
  simp [setIp, VM.put]

/-- The common part of `LOOP` and `+LOOP`, leaving the loop. -/
theorem loopStep_end {c : Ctx} {u : VM} {rt x : Cell} (h : ¬ inIsize (rt.toInt + x.toInt))
    (hv : u.task.st.ip + 8 < usizeMod) :
    loopStep c rt x u = .ok ((), u.put u.task.s u.task.r.pop2.2 u.task.f (u.task.st.ip + 8)
      u.task.st.wp) := by
  unfold loopStep
  rw [if_neg h]
  simp only [M.bind_apply, rPop2_apply]
  rw [ipAdd8_ok (by simpa using hv)]
  simp [VM.put, VM.at]

theorem push_pop_holding {α : Type} {st : Stack α} {x : α} {l : List α} (h : st.items = x :: l) (y : α) :
    st.pop.2.push y = holding st (y :: l) := by
  have hll := items_length_lt st
  rw [h] at hll
  simp only [List.length_cons] at hll
  have e : st.pop.2.items = l := (items_eq_iff.mp h).pop_snd.items_eq
  rw [push_holding _ _ (by rw [e]; omega), e, pop_holding h, holding_holding _ (by simp)]

theorem run_loop_next (hl : Like s1 s) (h : Loaded R lv wl lo hi k d s) (g : Region d lo hi)
    (hp : pc s1 = a) (h1 : lo ≤ a) (h2 : a + 16 ≤ hi) (hc : CellIs d a R.loopRt)
    (hb : CellIs d (a + 8) b) {l : List Cell} {lim idx : Cell} (hd : ret s = params lim idx ++ l)
    (hne : idx + 1 ≠ lim) :
    ∃ u, Steps cfg (n + 1) s1 u ∧ Like u (setRet s (params lim (idx + 1) ++ l)) ∧ pc u = b := by
  have hd1 := hl.ret.trans hd
  rw [params_eq] at hd1
  simp only [List.cons_append, List.nil_append] at hd1
  have hll := items_length_lt s1.task.r
  rw [hd1] at hll
  simp only [List.length_cons] at hll
  have hin : inIsize ((cellMin + idx - lim).toInt + (1 : Cell).toInt) := by
    have := (crosses_iff lim idx 1).symm
    rw [crosses_one] at this
    exact Decidable.byContradiction fun hh => hne (this.mp hh)
  have hb' : (d.cellAt (a + 8)).toNat = b := hb
  refine run_role (p := .loopRt) (rs := s1.task.r.pop.2.push (cellMin + idx - lim + 1)) hl h g
    (by simp [roles]) hp h1 (by omega) hc ?_ hl.s
    (by rw [push_pop_holding hd1]; exact hl.r.hold _ (by simp; omega)) hl.f
    (by rw [params_add]; rfl)
  simp only [coreAction, loopRt, M.bind_apply, rPop_apply, VM.at_task, (items_eq_iff.mp hd1).pop_fst]
  rw [loopStep_next hin (v := d.cellAt (a + 8))]
  · simp [VM.put, VM.at, hb']
  · simp only [VM.task_setTask, VM.ds_setTask, VM.at_ds]
    exact (h.like hl).cell g (by omega) (by omega)

theorem run_loop_end (hl : Like s1 s) (h : Loaded R lv wl lo hi k d s) (g : Region d lo hi)
    (hp : pc s1 = a) (h1 : lo ≤ a) (h2 : a + 16 ≤ hi) (hc : CellIs d a R.loopRt)
    {l : List Cell} {lim idx tok : Cell} (hd : ret s = params lim idx ++ tok :: l)
    (hne : idx + 1 = lim) :
    ∃ u, Steps cfg (n + 1) s1 u ∧ Like u (setRet s l) ∧ pc u = a + 16 := by
  have hd1 := hl.ret.trans hd
  rw [params_eq] at hd1
  simp only [List.cons_append, List.nil_append] at hd1
  have hll := items_length_lt s1.task.r
  rw [hd1] at hll
  simp only [List.length_cons] at hll
  have := g.upper; have := g.small
  have hum : usizeMod = 2 ^ 64 := rfl
  have hin : ¬ inIsize ((cellMin + idx - lim).toInt + (1 : Cell).toInt) :=
    (crosses_iff lim idx 1).mp ((crosses_one lim idx).mpr hne)
  have e2 : s1.task.r.pop.2.pop2.2 = s1.task.r.pop3.2 := by
    simp only [Stack.pop, Stack.pop2, Stack.pop3, Stack.mk.injEq, true_and, and_true]
    bv_omega
  refine run_role (p := .loopRt) (rs := s1.task.r.pop.2.pop2.2) hl h g
    (by simp [roles]) hp h1 (by omega) hc ?_ hl.s
    (by rw [e2, pop3_holding hd1]; exact hl.r.hold l (by omega)) hl.f rfl
  simp only [coreAction, loopRt, M.bind_apply, rPop_apply, VM.at_task, (items_eq_iff.mp hd1).pop_fst]
  rw [loopStep_end hin (by simp; omega)]
  simp [VM.put, VM.at]

theorem run_plus_next (hl : Like s1 s) (h : Loaded R lv wl lo hi k d s) (g : Region d lo hi)
    (hp : pc s1 = a) (h1 : lo ≤ a) (h2 : a + 16 ≤ hi) (hc : CellIs d a R.plusLoopRt)
    (hb : CellIs d (a + 8) b) {l ks : List Cell} {lim idx x : Cell} (hd : ret s = params lim idx ++ l)
    (hk : data s = x :: ks) (hne : ¬ Crosses lim idx x) :
    ∃ u, Steps cfg (n + 1) s1 u ∧ Like u (setRet (setData s ks) (params lim (idx + x) ++ l)) ∧
      pc u = b := by
  have hd1 := hl.ret.trans hd
  have hk1 : s1.task.s.items = x :: ks := hl.data.trans hk
  have hkk := items_length_lt s1.task.s
  rw [hk1] at hkk
  rw [params_eq] at hd1
  simp only [List.cons_append, List.nil_append] at hd1
  have hll := items_length_lt s1.task.r
  rw [hd1] at hll
  simp only [List.length_cons] at hll hkk
  have hin : inIsize ((cellMin + idx - lim).toInt + x.toInt) :=
    Decidable.byContradiction fun hh => hne ((crosses_iff lim idx x).mpr hh)
  have hb' : (d.cellAt (a + 8)).toNat = b := hb
  refine run_role (p := .plusLoopRt) (ds := s1.task.s.pop.2)
    (rs := s1.task.r.pop.2.push (cellMin + idx - lim + x)) hl h g
    (by simp [roles]) hp h1 (by omega) hc ?_
    (by rw [pop_holding hk1]; exact hl.s.hold ks (by omega))
    (by rw [push_pop_holding hd1]; exact hl.r.hold _ (by simp; omega)) hl.f
    (by rw [params_add]; simp [setRet, setData])
  simp only [coreAction, plusLoopRt, M.bind_apply, rPop_apply, sPop_apply, VM.at_task,
    (items_eq_iff.mp hd1).pop_fst, VM.task_setTask, (items_eq_iff.mp hk1).pop_fst]
  rw [loopStep_next hin (v := d.cellAt (a + 8))]
  · simp [VM.put, VM.at, hb']
  · simp only [VM.task_setTask, VM.ds_setTask, VM.at_ds]
    exact (h.like hl).cell g (by omega) (by omega)

theorem run_plus_end (hl : Like s1 s) (h : Loaded R lv wl lo hi k d s) (g : Region d lo hi)
    (hp : pc s1 = a) (h1 : lo ≤ a) (h2 : a + 16 ≤ hi) (hc : CellIs d a R.plusLoopRt)
    {l ks : List Cell} {lim idx tok x : Cell} (hd : ret s = params lim idx ++ tok :: l)
    (hk : data s = x :: ks) (hne : Crosses lim idx x) :
    ∃ u, Steps cfg (n + 1) s1 u ∧ Like u (setRet (setData s ks) l) ∧ pc u = a + 16 := by
  have hd1 := hl.ret.trans hd
  have hk1 : s1.task.s.items = x :: ks := hl.data.trans hk
  have hkk := items_length_lt s1.task.s
  rw [hk1] at hkk
  rw [params_eq] at hd1
  simp only [List.cons_append, List.nil_append] at hd1
  have hll := items_length_lt s1.task.r
  rw [hd1] at hll
  simp only [List.length_cons] at hll hkk
  have := g.upper; have := g.small
  have hum : usizeMod = 2 ^ 64 := rfl
  have hin : ¬ inIsize ((cellMin + idx - lim).toInt + x.toInt) := (crosses_iff lim idx x).mp hne
  have e2 : s1.task.r.pop.2.pop2.2 = s1.task.r.pop3.2 := by
    simp only [Stack.pop, Stack.pop2, Stack.pop3, Stack.mk.injEq, true_and, and_true]
    bv_omega
  refine run_role (p := .plusLoopRt) (ds := s1.task.s.pop.2) (rs := s1.task.r.pop.2.pop2.2) hl h g
    (by simp [roles]) hp h1 (by omega) hc ?_
    (by rw [pop_holding hk1]; exact hl.s.hold ks (by omega))
    (by rw [e2, pop3_holding hd1]; exact hl.r.hold l (by omega)) hl.f (by simp [setRet, setData])
  simp only [coreAction, plusLoopRt, M.bind_apply, rPop_apply, sPop_apply, VM.at_task,
    (items_eq_iff.mp hd1).pop_fst, VM.task_setTask, (items_eq_iff.mp hk1).pop_fst]
  rw [loopStep_end hin (by simp; omega)]
  simp [VM.put, VM.at]

end

end Verif
