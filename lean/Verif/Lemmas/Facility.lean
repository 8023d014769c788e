import Verif.Spec.Facility
import Verif.Lemmas.LibraryCalls
import Verif.Props.Tasks

/-!
# Steps through `get` and `release`
-/

namespace Verif
open Spec Stack

section
variable {R : Refs} {wl : Wordlist} {lv lo hi n i : Nat} {k : Fin 5} {d : DataSpace} {s t : VM} {cfg : Cfg}
  {l r : List Cell} {m : DataSpace} {ix : String → Nat} {a b p : Nat}

theorem doing_me (hb : Builtin wl i "me") (hl : l.length < capacity) (hr : r.length ≤ capacity) :
    Doing cfg n R lv wl lo hi k d i (shape s l r m) (shape s (mark s.cur :: l) r m) := by
  obtain ⟨w, hw, hp⟩ := hb
  have hp' := prim_inj hp (p := .core .me) rfl
  simp only [capacity] at hl
  refine doing_data hw (by simp [capacity]; omega) hr (by simp [capacity]; omega)
    (fun u v k1 k2 k3 k4 k5 k6 _ k8 => ?_)
  refine ⟨u.task.s.push (mark s.cur), ?_, by rw [push_holding _ _ (by rw [k1]; omega), k1]; exact .refl _⟩
  rw [hp']
  have : u.cur = s.cur := k8.cur
  simp [action, coreAction, me, this, mark, M.bind_apply, getVM_apply]

/-- A step of the task that is in control, which stays in control, that leaves the others alone. -/
structure Moved (s t : VM) (p : Nat) (l r : List Cell) (m : DataSpace) : Prop where
  cur : t.cur = s.cur
  others : ∀ j, j ≠ s.cur → t.tasks j = s.tasks j
  place : place t s.cur = p
  data : dataOf t s.cur = l
  ret : retOf t s.cur = r
  ds : t.ds = m
  wl : t.wl = s.wl

theorem Spec.Like.moved (h : Like t (shape s l r m)) (hl : l.length ≤ capacity) (hr : r.length ≤ capacity) (hp : pc t = p) :
    Moved s t p l r m := by
  have hc : t.cur = s.cur := h.cur
  refine ⟨hc, ?_, ?_, ?_, ?_, h.ds, h.wl⟩
  · intro j hj
    obtain ⟨ip, wp, ds, rs, fs, -, -, -, rfl⟩ := h
    simp only [VM.setTask, shape_eq]
    rw [if_neg (show j ≠ s.cur from hj)]
    rw [if_neg (show j ≠ s.cur from hj)]
  · rw [← hc]; exact hp
  · rw [← hc]; exact h.data.trans (shape_data hl)
  · rw [← hc]; exact h.ret.trans (shape_ret hr)


theorem doing_moved {l' r' : List Cell} {m' : DataSpace} (h : Loaded R lv wl lo hi k d s) (g : Region d lo hi)
    (hp : pc s = a) (h1 : lo ≤ a) (h2 : a + 8 ≤ hi) (hc : CellIs d a i) (hd : data s = l) (hr : ret s = r)
    (hl' : l'.length ≤ capacity) (hr' : r'.length ≤ capacity)
    (h' : Doing cfg n R lv wl lo hi k d i (shape s l r s.ds) (shape s l' r' m')) :
    ∃ t, step cfg (n + 1) s = .ok (true, t) ∧ Moved s t (a + 8) l' r' m' ∧ Loaded R lv wl lo hi k d t := by
  subst hd hr
  rw [shape_self] at h'
  obtain ⟨e1, e2⟩ := h' h
  obtain ⟨t, t1, t2, t3⟩ := e1 (s.at (a + 8) s.task.st.wp) ((Like.refl s).at _ _)
  exact ⟨t, step_word h g hp h1 h2 hc t1, t2.moved hl' hr' (by rw [t3]; simp [pc]), e2.like t2⟩

theorem branch_moved (h : Loaded R lv wl lo hi k d s) (g : Region d lo hi) (hp : pc s = a) (h1 : lo ≤ a) (h2 : a + 16 ≤ hi)
    (hc : CellIs d a R.branch) (hb : CellIs d (a + 8) b) (hd : data s = l) (hr : ret s = r)
    (hl : l.length ≤ capacity) (hr' : r.length ≤ capacity) :
    ∃ t, step cfg (n + 1) s = .ok (true, t) ∧ Moved s t b l r s.ds ∧ Loaded R lv wl lo hi k d t := by
  subst hd hr
  obtain ⟨t, t1, t2, t3⟩ := one_branch (cfg := cfg) (n := n) (Like.refl s) h g hp h1 h2 hc hb
  exact ⟨t, t1, Like.moved (by rw [shape_self]; exact t2) hl hr' t3, h.like t2⟩

theorem zero_moved (h : Loaded R lv wl lo hi k d s) (g : Region d lo hi) (hp : pc s = a) (h1 : lo ≤ a) (h2 : a + 16 ≤ hi)
    (hc : CellIs d a R.zeroBranch) (hb : CellIs d (a + 8) b) (hd : data s = 0 :: l) (hr : ret s = r)
    (hl : l.length ≤ capacity) (hr' : r.length ≤ capacity) :
    ∃ t, step cfg (n + 1) s = .ok (true, t) ∧ Moved s t b l r s.ds ∧ Loaded R lv wl lo hi k d t := by
  subst hr
  obtain ⟨t, t1, t2, t3⟩ := one_zero (cfg := cfg) (n := n) (Like.refl s) h g hp h1 h2 hc hb hd
  rw [← shape_setData] at t2
  exact ⟨t, t1, t2.moved hl hr' t3, h.congr t2.cur t2.ds t2.wl⟩

theorem nonzero_moved {v : Cell} (h : Loaded R lv wl lo hi k d s) (g : Region d lo hi) (hp : pc s = a) (h1 : lo ≤ a)
    (h2 : a + 16 ≤ hi) (hc : CellIs d a R.zeroBranch) (hd : data s = v :: l) (hv : v ≠ 0) (hr : ret s = r)
    (hl : l.length ≤ capacity) (hr' : r.length ≤ capacity) :
    ∃ t, step cfg (n + 1) s = .ok (true, t) ∧ Moved s t (a + 16) l r s.ds ∧ Loaded R lv wl lo hi k d t := by
  subst hr
  obtain ⟨t, t1, t2, t3⟩ := one_nonzero (cfg := cfg) (n := n) (Like.refl s) h g hp h1 h2 hc hd hv
  rw [← shape_setData] at t2
  exact ⟨t, t1, t2.moved hl hr' t3, h.congr t2.cur t2.ds t2.wl⟩

theorem lit_moved {v : Cell} (h : Loaded R lv wl lo hi k d s) (g : Region d lo hi) (hp : pc s = a) (h1 : lo ≤ a)
    (h2 : a + 16 ≤ hi) (hc : CellIs d a R.lit) (hv : d.cellAt (a + 8) = v) (hd : data s = l) (hr : ret s = r)
    (hl : l.length < capacity) (hr' : r.length ≤ capacity) :
    ∃ t, step cfg (n + 1) s = .ok (true, t) ∧ Moved s t (a + 16) (v :: l) r s.ds ∧ Loaded R lv wl lo hi k d t := by
  subst hr hd
  obtain ⟨t, t1, t2, t3⟩ := one_lit (cfg := cfg) (n := n) (Like.refl s) h g hp h1 h2 hc hv hl
  rw [← shape_setData] at t2
  exact ⟨t, t1, t2.moved (by simp; omega) hr' t3, h.congr t2.cur t2.ds t2.wl⟩

theorem exit_moved {z : Cell} (h : Loaded R lv wl lo hi k d s) (g : Region d lo hi) (hp : pc s = a) (h1 : lo ≤ a)
    (h2 : a + 8 ≤ hi) (hc : CellIs d a R.exit) (hd : data s = l) (hr : ret s = z :: r)
    (hl : l.length ≤ capacity) (hr' : r.length ≤ capacity) :
    ∃ t, step cfg (n + 1) s = .ok (true, t) ∧ Moved s t z.toNat l r s.ds ∧ Loaded R lv wl lo hi k d t := by
  subst hd
  obtain ⟨t, t1, t2, t3⟩ := one_exit (cfg := cfg) (n := n) (Like.refl s) h g hp h1 h2 hc hr
  have e : setRet s r = shape s (data s) r s.ds := by rw [shape, setData_self]; rfl
  rw [e] at t2
  exact ⟨t, t1, t2.moved hl hr' t3, h.congr t2.cur t2.ds t2.wl⟩

theorem pause_moved (h : Loaded R lv wl lo hi k d s) (g : Region d lo hi) (hp : pc s = a) (h1 : lo ≤ a) (h2 : a + 8 ≤ hi)
    (hb : Builtin wl i "pause") (hc : CellIs d a i) (hn : step cfg (n + 1) s = .ok (true, t)) :
    ∃ j, t = { s.at (a + 8) i with cur := j } := by
  obtain ⟨w, hw, hp'⟩ := hb
  have hpr := prim_inj hp' (p := .core .pause) rfl
  obtain ⟨x, x1, x2, x3⟩ := h.kept _ _ hw
  rw [step_exec h g hp h1 h2 hc, M.bind_apply, exec_word (w := x) (by exact x1), x2, hpr] at hn
  cases e : action ⟨cfg, execWord cfg n⟩ (.core .pause)
      ((s.at (a + 8) s.task.st.wp).at (s.at (a + 8) s.task.st.wp).task.st.ip i) with
  | error _ => rw [e] at hn; cases hn
  | ok u =>
    rw [e] at hn
    cases hn
    obtain ⟨j, -, hj⟩ := (C34_pause _).1 e
    refine ⟨j, ?_⟩
    rw [hj]
    simp [VM.at, VM.setTask_setTask]

end

section
variable {lv lo hi g r A n : Nat} {ix : String → Nat} {b s t : VM} {cfg : Cfg}

theorem Spec.HasFacilities.getCells (h : HasFacilities lv lo hi g r ix b) :
    CellIs b.ds g (ix "dup") ∧ CellIs b.ds (g + 8) (ix "@") ∧ CellIs b.ds (g + 16) b.refs.zeroBranch ∧
    CellIs b.ds (g + 24) (g + 56) ∧ CellIs b.ds (g + 32) (ix "pause") ∧ CellIs b.ds (g + 40) b.refs.branch ∧
    CellIs b.ds (g + 48) g ∧ CellIs b.ds (g + 56) (ix "me") ∧ CellIs b.ds (g + 64) (ix "swap") ∧
    CellIs b.ds (g + 72) (ix "!") ∧ CellIs b.ds (g + 80) b.refs.exit := by
  have := h.getAt
  simp [getCode, code, Stmt.all, Part.code, Stmt.place, Stmt.At, Stmt.next, Nat.add_assoc] at this
  obtain ⟨⟨⟨⟨a1, a2⟩, a3, a4, a5, a6, a7⟩, a8, a9, a10⟩, a11⟩ := this
  exact ⟨a1, a2, a3, a4, a5, a6, a7, a8, a9, a10, a11⟩

theorem Spec.HasFacilities.releaseCells (h : HasFacilities lv lo hi g r ix b) :
    CellIs b.ds r (ix "dup") ∧ CellIs b.ds (r + 8) (ix "@") ∧ CellIs b.ds (r + 16) (ix "me") ∧
    CellIs b.ds (r + 24) (ix "=") ∧ CellIs b.ds (r + 32) b.refs.zeroBranch ∧ CellIs b.ds (r + 40) (r + 96) ∧
    CellIs b.ds (r + 48) b.refs.lit ∧ b.ds.cellAt (r + 56) = 0 ∧ CellIs b.ds (r + 64) (ix "swap") ∧
    CellIs b.ds (r + 72) (ix "!") ∧ CellIs b.ds (r + 80) b.refs.branch ∧ CellIs b.ds (r + 88) (r + 104) ∧
    CellIs b.ds (r + 96) (ix "drop") ∧ CellIs b.ds (r + 104) b.refs.exit := by
  have := h.releaseAt
  simp [releaseCode, code, Stmt.all, Part.code, Stmt.place, Stmt.At, Stmt.next, Nat.add_assoc] at this
  obtain ⟨⟨a1, a2, a3, a4, a5, a6, ⟨⟨a7, a8⟩, a9, a10⟩, a11, a12, a13⟩, a14⟩ := this
  exact ⟨a1, a2, a3, a4, a5, a6, a7, a8, a9, a10, a11, a12, a13, a14⟩

/-- What is on the stacks at the beginning of either word. -/
structure Args (lo hi g r A : Nat) (d : DataSpace) (x : Cell) (l : List Cell) (z : Cell) (rs : List Cell) : Prop where
  fac : Facility lo hi A d x
  room : l.length + 3 ≤ capacity
  away : Elsewhere g r z.toNat
  rroom : rs.length < capacity

/-- Where a task can be and what it has found out. Only the task in control is in the middle of a word, except
where `get` waits. -/
inductive Spot (lo hi g r A : Nat) (d : DataSpace) (on : Bool) (c : Cell) (m : DataSpace) : Nat → List Cell → List Cell → Prop
  | out {p : Nat} {l rs : List Cell} : Elsewhere g r p → Spot lo hi g r A d on c m p l rs
  | g0 {x z : Cell} {l rs : List Cell} : Args lo hi g r A d x l z rs → Spot lo hi g r A d on c m g (x :: l) (z :: rs)
  | g8 {x z : Cell} {l rs : List Cell} : Args lo hi g r A d x l z rs → on = true →
      Spot lo hi g r A d on c m (g + 8) (x :: x :: l) (z :: rs)
  | g16 {x z : Cell} {l rs : List Cell} : Args lo hi g r A d x l z rs → on = true →
      Spot lo hi g r A d on c m (g + 16) (m.cellAt x.toNat :: x :: l) (z :: rs)
  | g32 {x z : Cell} {l rs : List Cell} : Args lo hi g r A d x l z rs → on = true →
      Spot lo hi g r A d on c m (g + 32) (x :: l) (z :: rs)
  | g40 {x z : Cell} {l rs : List Cell} : Args lo hi g r A d x l z rs → Spot lo hi g r A d on c m (g + 40) (x :: l) (z :: rs)
  | g56 {x z : Cell} {l rs : List Cell} : Args lo hi g r A d x l z rs → on = true → m.cellAt x.toNat = 0 →
      Spot lo hi g r A d on c m (g + 56) (x :: l) (z :: rs)
  | g64 {x z : Cell} {l rs : List Cell} : Args lo hi g r A d x l z rs → on = true → m.cellAt x.toNat = 0 →
      Spot lo hi g r A d on c m (g + 64) (c :: x :: l) (z :: rs)
  | g72 {x z : Cell} {l rs : List Cell} : Args lo hi g r A d x l z rs → on = true → m.cellAt x.toNat = 0 →
      Spot lo hi g r A d on c m (g + 72) (x :: c :: l) (z :: rs)
  | g80 {x z : Cell} {l rs : List Cell} : Args lo hi g r A d x l z rs → on = true → Spot lo hi g r A d on c m (g + 80) l (z :: rs)
  | r0 {x z : Cell} {l rs : List Cell} : Args lo hi g r A d x l z rs → Spot lo hi g r A d on c m r (x :: l) (z :: rs)
  | r8 {x z : Cell} {l rs : List Cell} : Args lo hi g r A d x l z rs → on = true →
      Spot lo hi g r A d on c m (r + 8) (x :: x :: l) (z :: rs)
  | r16 {x z : Cell} {l rs : List Cell} : Args lo hi g r A d x l z rs → on = true →
      Spot lo hi g r A d on c m (r + 16) (m.cellAt x.toNat :: x :: l) (z :: rs)
  | r24 {x z : Cell} {l rs : List Cell} : Args lo hi g r A d x l z rs → on = true →
      Spot lo hi g r A d on c m (r + 24) (c :: m.cellAt x.toNat :: x :: l) (z :: rs)
  | r32 {x z : Cell} {l rs : List Cell} : Args lo hi g r A d x l z rs → on = true →
      Spot lo hi g r A d on c m (r + 32) (truth (m.cellAt x.toNat = c) :: x :: l) (z :: rs)
  | r48 {x z : Cell} {l rs : List Cell} : Args lo hi g r A d x l z rs → on = true → m.cellAt x.toNat = c →
      Spot lo hi g r A d on c m (r + 48) (x :: l) (z :: rs)
  | r64 {x z : Cell} {l rs : List Cell} : Args lo hi g r A d x l z rs → on = true → m.cellAt x.toNat = c →
      Spot lo hi g r A d on c m (r + 64) (0 :: x :: l) (z :: rs)
  | r72 {x z : Cell} {l rs : List Cell} : Args lo hi g r A d x l z rs → on = true → m.cellAt x.toNat = c →
      Spot lo hi g r A d on c m (r + 72) (x :: 0 :: l) (z :: rs)
  | r80 {x z : Cell} {l rs : List Cell} : Args lo hi g r A d x l z rs → on = true → Spot lo hi g r A d on c m (r + 80) l (z :: rs)
  | r96 {x z : Cell} {l rs : List Cell} : Args lo hi g r A d x l z rs → on = true →
      Spot lo hi g r A d on c m (r + 96) (x :: l) (z :: rs)
  | r104 {x z : Cell} {l rs : List Cell} : Args lo hi g r A d x l z rs → on = true →
      Spot lo hi g r A d on c m (r + 104) l (z :: rs)

/-- A task that is not in control has not found out anything. -/
theorem Spot.idle {d m m' : DataSpace} {c c' : Cell} {on : Bool} {p : Nat} {l rs : List Cell} (h : Spot lo hi g r A d false c m p l rs) :
    Spot lo hi g r A d on c' m' p l rs := by
  cases h <;> first | contradiction | exact .out (by assumption) | exact .g0 (by assumption) | exact .g40 (by assumption) |
    exact .r0 (by assumption)

/-- What a step in one of the words comes to. -/
inductive Outcome (lo hi g r A : Nat) (d : DataSpace) (s t : VM) : Prop
  | quiet {p : Nat} {l rs : List Cell} : Moved s t p l rs s.ds → Spot lo hi g r A d true (mark s.cur) s.ds p l rs →
      place s s.cur ≠ g + 72 → place s s.cur ≠ r + 72 → Outcome lo hi g r A d s t
  | took {x z : Cell} {l rs : List Cell} : Args lo hi g r A d x l z rs →
      Moved s t (g + 80) l (z :: rs) (s.ds.setCell x.toNat (mark s.cur)) → s.ds.cellAt x.toNat = 0 →
      dataOf s s.cur = x :: mark s.cur :: l → place s s.cur = g + 72 → Outcome lo hi g r A d s t
  | gave {x z : Cell} {l rs : List Cell} : Args lo hi g r A d x l z rs →
      Moved s t (r + 80) l (z :: rs) (s.ds.setCell x.toNat 0) → s.ds.cellAt x.toNat = mark s.cur →
      dataOf s s.cur = x :: 0 :: l → place s s.cur = r + 72 → Outcome lo hi g r A d s t
  | waits {j : Fin 5} {wp : Nat} {x z : Cell} {l rs : List Cell} : Args lo hi g r A d x l z rs → t = { s.at (g + 40) wp with cur := j } →
      dataOf s s.cur = x :: l → retOf s s.cur = z :: rs → place s s.cur = g + 32 → Outcome lo hi g r A d s t

theorem step_inside (h : HasFacilities lv lo hi g r ix b) (hL : Loaded b.refs lv b.wl lo hi s.cur b.ds s)
    (sp : Spot lo hi g r A b.ds true (mark s.cur) s.ds (pc s) (data s) (ret s)) (hn : ¬Elsewhere g r (pc s))
    (hs : step cfg (n + 1) s = .ok (true, t)) :
    Outcome lo hi g r A b.ds s t ∧ (Loaded b.refs lv b.wl lo hi s.cur b.ds t ∨ pc s = g + 32) := by
  obtain ⟨c0, c8, c16, c24, c32, c40, c48, c56, c64, c72, c80⟩ := h.getCells
  obtain ⟨e0, e8, e16, e24, e32, e40, e48, e56, e64, e72, e80, e88, e96, e104⟩ := h.releaseCells
  have ⟨lg, lr⟩ := h.lower
  have ⟨ug, ur⟩ := h.upper
  have hap := h.apart
  have hreg := h.region
  have u : ∀ name, name ∈ facilityUses → Builtin b.wl (ix name) name := h.uses
  have k1 : s.ds.start = b.ds.start := hL.start
  have k2 : s.ds.limit = b.ds.limit := by simp only [DataSpace.limit]; rw [hL.start, hL.cap]
  have fin : ∀ {p : Nat} {l rs : List Cell},
      (∃ t, step cfg (n + 1) s = .ok (true, t) ∧ Moved s t p l rs s.ds ∧ Loaded b.refs lv b.wl lo hi s.cur b.ds t) →
      Spot lo hi g r A b.ds true (mark s.cur) s.ds p l rs → pc s ≠ g + 72 → pc s ≠ r + 72 →
      Outcome lo hi g r A b.ds s t ∧ (Loaded b.refs lv b.wl lo hi s.cur b.ds t ∨ pc s = g + 32) := by
    rintro p l rs ⟨t', q1, q2, q3⟩ q4 q5 q6
    rw [hs] at q1
    cases q1
    exact ⟨.quiet q2 q4 q5 q6, .inl q3⟩
  generalize hp : pc s = p at *
  generalize hd : data s = l at *
  generalize hr : ret s = rs at *
  have hc : capacity = 64 := rfl
  cases sp with
  | out q => exact absurd q hn
  | g0 q =>
    have := q.room; have := q.rroom
    exact fin (doing_moved hL hreg hp (by omega) (by omega) c0 hd hr (by len) (by len)
      (doing_effect 1 rfl (u "dup" (by decide)) rfl (by len) (by len) (by len))) (.g8 q rfl) (by omega) (by omega)
  | g8 q hon =>
    have := q.room; have := q.rroom; have := q.fac.lower; have := q.fac.upper
    exact fin (doing_moved hL hreg hp (by omega) (by omega) c8 hd hr (by len) (by len)
      (doing_fetch hreg (u "@" (by decide)) (by len) (by len) (by omega) (by omega))) (.g16 q rfl) (by omega) (by omega)
  | g16 q hon =>
    rename_i x z l rs
    have := q.room; have := q.rroom
    by_cases hz : s.ds.cellAt x.toNat = 0
    · exact fin (zero_moved hL hreg hp (by omega) (by omega) c16 c24 (hz ▸ hd) hr (by len) (by len)) (.g56 q rfl hz)
        (by omega) (by omega)
    · exact fin (nonzero_moved hL hreg hp (by omega) (by omega) c16 hd hz hr (by len) (by len)) (.g32 q rfl) (by omega) (by omega)
  | g32 q hon =>
    obtain ⟨j, hj⟩ := pause_moved hL hreg hp (by omega) (by omega) (u "pause" (by decide)) c32 hs
    exact ⟨.waits q hj hd hr hp, .inr rfl⟩
  | g40 q =>
    have := q.room; have := q.rroom
    exact fin (branch_moved hL hreg hp (by omega) (by omega) c40 c48 hd hr (by len) (by len)) (.g0 q) (by omega) (by omega)
  | g56 q hon hz =>
    have := q.room; have := q.rroom
    exact fin (doing_moved hL hreg hp (by omega) (by omega) c56 hd hr (by len) (by len)
      (doing_me (u "me" (by decide)) (by len) (by len))) (.g64 q rfl hz) (by omega) (by omega)
  | g64 q hon hz =>
    have := q.room; have := q.rroom
    exact fin (doing_moved hL hreg hp (by omega) (by omega) c64 hd hr (by len) (by len)
      (doing_effect 3 rfl (u "swap" (by decide)) rfl (by len) (by len) (by len))) (.g72 q rfl hz) (by omega) (by omega)
  | g72 q hon hz =>
    have := q.room; have := q.rroom; have := q.fac.lower; have := q.fac.upper; have := q.fac.noCode
    obtain ⟨t', q1, q2, q3⟩ := doing_moved (cfg := cfg) (n := n) hL hreg hp (by omega) (by omega) c72 hd hr (by len) (by len)
      (doing_store hreg (u "!" (by decide)) (by len) (by len) (by omega) (by omega) (by omega))
    rw [hs] at q1
    cases q1
    exact ⟨.took q q2 hz hd hp, .inl q3⟩
  | g80 q hon =>
    have := q.room; have := q.rroom
    exact fin (exit_moved hL hreg hp (by omega) (by omega) c80 hd hr (by len) (by len)) (.out q.away) (by omega) (by omega)
  | r0 q =>
    have := q.room; have := q.rroom
    exact fin (doing_moved hL hreg hp (by omega) (by omega) e0 hd hr (by len) (by len)
      (doing_effect 1 rfl (u "dup" (by decide)) rfl (by len) (by len) (by len))) (.r8 q rfl) (by omega) (by omega)
  | r8 q hon =>
    have := q.room; have := q.rroom; have := q.fac.lower; have := q.fac.upper
    exact fin (doing_moved hL hreg hp (by omega) (by omega) e8 hd hr (by len) (by len)
      (doing_fetch hreg (u "@" (by decide)) (by len) (by len) (by omega) (by omega))) (.r16 q rfl) (by omega) (by omega)
  | r16 q hon =>
    have := q.room; have := q.rroom
    exact fin (doing_moved hL hreg hp (by omega) (by omega) e16 hd hr (by len) (by len)
      (doing_me (u "me" (by decide)) (by len) (by len))) (.r24 q rfl) (by omega) (by omega)
  | r24 q hon =>
    have := q.room; have := q.rroom
    exact fin (doing_moved hL hreg hp (by omega) (by omega) e24 hd hr (by len) (by len)
      (doing_effect 23 rfl (u "=" (by decide)) rfl (by len) (by len) (by len))) (.r32 q rfl) (by omega) (by omega)
  | r32 q hon =>
    rename_i x z l rs
    have := q.room; have := q.rroom
    by_cases hz : s.ds.cellAt x.toNat = mark s.cur
    · exact fin (nonzero_moved hL hreg hp (by omega) (by omega) e32 hd (truth_ne hz) hr (by len) (by len)) (.r48 q rfl hz)
        (by omega) (by omega)
    · rw [truth_zero hz] at hd
      exact fin (zero_moved hL hreg hp (by omega) (by omega) e32 e40 hd hr (by len) (by len)) (.r96 q rfl) (by omega) (by omega)
  | r48 q hon hz =>
    have := q.room; have := q.rroom
    exact fin (lit_moved hL hreg hp (by omega) (by omega) e48 e56 hd hr (by len) (by len)) (.r64 q rfl hz) (by omega) (by omega)
  | r64 q hon hz =>
    have := q.room; have := q.rroom
    exact fin (doing_moved hL hreg hp (by omega) (by omega) e64 hd hr (by len) (by len)
      (doing_effect 3 rfl (u "swap" (by decide)) rfl (by len) (by len) (by len))) (.r72 q rfl hz) (by omega) (by omega)
  | r72 q hon hz =>
    have := q.room; have := q.rroom; have := q.fac.lower; have := q.fac.upper; have := q.fac.noCode
    obtain ⟨t', q1, q2, q3⟩ := doing_moved (cfg := cfg) (n := n) hL hreg hp (by omega) (by omega) e72 hd hr (by len) (by len)
      (doing_store hreg (u "!" (by decide)) (by len) (by len) (by omega) (by omega) (by omega))
    rw [hs] at q1
    cases q1
    exact ⟨.gave q q2 hz hd hp, .inl q3⟩
  | r80 q hon =>
    have := q.room; have := q.rroom
    exact fin (branch_moved hL hreg hp (by omega) (by omega) e80 e88 hd hr (by len) (by len)) (.r104 q rfl) (by omega) (by omega)
  | r96 q hon =>
    have := q.room; have := q.rroom
    exact fin (doing_moved hL hreg hp (by omega) (by omega) e96 hd hr (by len) (by len)
      (doing_effect 2 rfl (u "drop" (by decide)) rfl (by len) (by len) (by len))) (.r104 q rfl) (by omega) (by omega)
  | r104 q hon =>
    have := q.room; have := q.rroom
    exact fin (exit_moved hL hreg hp (by omega) (by omega) e104 hd hr (by len) (by len)) (.out q.away) (by omega) (by omega)

end
end Verif
