import Verif.Lemmas.Basic
import Verif.Lemmas.Alike

/-!
# Running the compiled library

Rules for programs whose words may do anything that keeps the code, and the built-in words the library is
made of.
-/

namespace Verif
open Spec Stack

/-- The machine with the given data stack, return stack and memory. -/
def Spec.shape (s : VM) (l r : List Cell) (m : DataSpace) : VM := { setRet (setData s l) r with ds := m }

theorem shape_eq (s : VM) (l r : List Cell) (m : DataSpace) : shape s l r m =
    { s.setTask { s.task with s := holding s.task.s l, r := holding s.task.r r } with ds := m } := by
  simp [shape, setRet, setData]

theorem shape_task (s : VM) (l r : List Cell) (m : DataSpace) :
    (shape s l r m).task = { s.task with s := holding s.task.s l, r := holding s.task.r r } := by
  rw [shape_eq]; exact VM.task_setTask s _

theorem shape_ds (s : VM) (l r : List Cell) (m : DataSpace) : (shape s l r m).ds = m := rfl
theorem shape_wl (s : VM) (l r : List Cell) (m : DataSpace) : (shape s l r m).wl = s.wl := rfl
theorem shape_cur (s : VM) (l r : List Cell) (m : DataSpace) : (shape s l r m).cur = s.cur := rfl

theorem shape_data {s : VM} {l r : List Cell} {m : DataSpace} (h : l.length ≤ capacity) : data (shape s l r m) = l := by
  simp only [capacity] at h
  rw [data, shape_task]; exact holding_items _ (by omega)

theorem shape_ret {s : VM} {l r : List Cell} {m : DataSpace} (h : r.length ≤ capacity) : ret (shape s l r m) = r := by
  simp only [capacity] at h
  rw [ret, shape_task]; exact holding_items _ (by omega)

theorem shape_setData (s : VM) (l : List Cell) : shape s l (ret s) s.ds = setData s l := by
  rw [shape_eq, ret, holding_self]; rfl

theorem shape_self (s : VM) : shape s (data s) (ret s) s.ds = s := by
  rw [shape_setData, setData_self]

theorem VM.setTask_with_ds (s : VM) (m : DataSpace) (x : Task) :
    VM.setTask { s with ds := m } x = { s.setTask x with ds := m } := rfl

/-- Changing the stacks and the memory. -/
theorem Spec.Like.remake {s t : VM} (h : Like s t) {ds ds' rs rs' : Stack Cell}
    (h1 : LikeStack ds ds') (h2 : LikeStack rs rs') (m : DataSpace) (ip wp : Nat) :
    Like { s.setTask { s.task with s := ds, r := rs, st := { s.task.st with ip := ip, wp := wp } } with ds := m }
      { t.setTask { t.task with s := ds', r := rs' } with ds := m } := by
  have hu := h.update h1 h2 h.f ip wp
  obtain ⟨ip', wp', ds0, rs0, fs0, u1, u2, u3, u4⟩ := hu
  refine ⟨ip', wp', ds0, rs0, fs0, u1, u2, u3, ?_⟩
  rw [show s.setTask { s.task with s := ds, r := rs, st := { s.task.st with ip := ip, wp := wp } } = _ from u4]
  rfl

theorem like_shape {s : VM} {l r l' r' : List Cell} {m m' : DataSpace} {ds rs : Stack Cell} {u : VM}
    (hl : l.length ≤ capacity) (hr : r.length ≤ capacity) (hl' : l'.length ≤ capacity) (hr' : r'.length ≤ capacity)
    (h : Like u (shape s l r m)) (h1 : LikeStack ds (holding u.task.s l')) (h2 : LikeStack rs (holding u.task.r r'))
    (ip wp : Nat) :
    Like { u.setTask { u.task with s := ds, r := rs, st := { u.task.st with ip := ip, wp := wp } } with ds := m' }
      (shape s l' r' m') := by
  have hc : capacity = 64 := rfl
  have e1 : LikeStack ds (holding s.task.s l') := by
    refine h1.trans ((h.s.hold l' (by omega)).trans ?_)
    rw [shape_task]; exact LikeStack.holding2 _ hl (by omega)
  have e2 : LikeStack rs (holding s.task.r r') := by
    refine h2.trans ((h.r.hold r' (by omega)).trans ?_)
    rw [shape_task]; exact LikeStack.holding2 _ hr (by omega)
  have := h.remake e1 e2 m' ip wp
  rw [shape_eq s l' r']
  refine this.trans ?_
  rw [shape_task]
  rw [shape_eq]
  simp only [VM.setTask_with_ds, VM.setTask_setTask]
  exact Like.refl _

section
variable {R : Refs} {wl : Wordlist} {lv lo hi n i : Nat} {k : Fin 5} {d : DataSpace} {s : VM} {cfg : Cfg}

/-- Calling word `i` leads from `s` to `t`. -/
def Spec.Calling (cfg : Cfg) (n : Nat) (R : Refs) (lv : Nat) (wl : Wordlist) (lo hi : Nat) (k : Fin 5) (d : DataSpace)
    (i : Nat) (s t : VM) : Prop :=
  Loaded R lv wl lo hi k d s → Acts cfg (n + 1) i s t ∧ Loaded R lv wl lo hi k d t

/-- Word `i`, which is no colon definition, leads from `s` to `t` in one step. -/
def Spec.Doing (cfg : Cfg) (n : Nat) (R : Refs) (lv : Nat) (wl : Wordlist) (lo hi : Nat) (k : Fin 5) (d : DataSpace)
    (i : Nat) (s t : VM) : Prop :=
  Loaded R lv wl lo hi k d s → (∀ s1, Like s1 s → ∃ t1, execWord cfg (n + 1) i s1 = .ok ((), t1) ∧ Like t1 t ∧
    pc t1 = pc s1) ∧ Loaded R lv wl lo hi k d t

/-- The code of `p` leads from `s` to `t`. -/
def Spec.Going (cfg : Cfg) (n : Nat) (R : Refs) (lv : Nat) (wl : Wordlist) (lo hi : Nat) (k : Fin 5) (d : DataSpace)
    (p : Stmt) (s t : VM) : Prop :=
  Loaded R lv wl lo hi k d s → Loaded R lv wl lo hi k d t ∧ ∀ a s1, p.At R lv d a → lo ≤ a → p.next a ≤ hi →
    Like s1 s → pc s1 = a → ∃ t1, Steps cfg (n + 1) s1 t1 ∧ Like t1 t ∧ pc t1 = p.next a

local notation "Call" => Calling cfg n R lv wl lo hi k d
local notation "Go" => Going cfg n R lv wl lo hi k d
local notation "Do" => Doing cfg n R lv wl lo hi k d

theorem Spec.Doing.calling {s t : VM} (h : Do i s t) (he : t.lastError = s.lastError) : Call i s t := by
  intro hL
  obtain ⟨e1, e2⟩ := h hL
  refine ⟨fun s1 hl _ => ?_, e2⟩
  obtain ⟨t1, f1, f2, f3⟩ := e1 s1 hl
  refine ⟨t1, t1, f1, ?_, .refl _, f2, f3⟩
  have h1 : t1.lastError = t.lastError := by obtain ⟨_, _, _, _, _, _, _, _, rfl⟩ := f2; rfl
  have h2 : s1.lastError = s.lastError := by obtain ⟨_, _, _, _, _, _, _, _, rfl⟩ := hl; rfl
  rw [h1, h2, he]

theorem Spec.Acts.like {s s' t t' : VM} (h : Acts cfg n i s t) (h1 : Like s' s) (h2 : Like t t') :
    Acts cfg n i s' t' := by
  intro s1 hl hp
  obtain ⟨s2, t1, e1, e2, e3, e4, e5⟩ := h s1 (hl.trans h1) hp
  exact ⟨s2, t1, e1, e2, e3, e4.trans h2, e5⟩

theorem Spec.Calling.like {s s' t t' : VM} (h : Call i s t) (h1 : Like s' s) (h2 : Like t t') : Call i s' t' := by
  intro hL
  obtain ⟨e1, e2⟩ := h (hL.like h1.symm)
  exact ⟨e1.like h1 h2, e2.like h2.symm⟩

theorem Spec.Going.like {p : Stmt} {s s' t t' : VM} (h : Go p s t) (h1 : Like s' s) (h2 : Like t t') : Go p s' t' := by
  intro hL
  obtain ⟨e1, e2⟩ := h (hL.like h1.symm)
  refine ⟨e1.like h2.symm, fun a s1 f1 f2 f3 f4 f5 => ?_⟩
  obtain ⟨t1, k1, k2, k3⟩ := e2 a s1 f1 f2 f3 (f4.trans h1) f5
  exact ⟨t1, k1, k2.trans h2, k3⟩

theorem Spec.Going.skip : Go .skip s s := fun hL => ⟨hL, fun _ s1 _ _ _ hl hp => ⟨s1, .refl _, hl, hp⟩⟩

theorem Spec.Going.seq {p q : Stmt} {s t u : VM} (h1 : Go p s t) (h2 : Go q t u) : Go (.seq p q) s u := by
  intro hL
  obtain ⟨e1, e2⟩ := h1 hL
  obtain ⟨f1, f2⟩ := h2 e1
  refine ⟨f1, fun a s1 hat ha hn hl hp => ?_⟩
  simp only [Stmt.next] at hn ⊢
  have := q.le_next (p.next a); have := p.le_next a
  obtain ⟨t1, k1, k2, k3⟩ := e2 a s1 hat.1 ha (by omega) hl hp
  obtain ⟨u1, l1, l2, l3⟩ := f2 _ t1 hat.2 (by omega) hn k2 k3
  exact ⟨u1, k1.trans l1, l2, l3⟩

theorem like_setData {s : VM} {l r l' : List Cell} {m : DataSpace} (hl : l.length ≤ capacity) (hr : r.length ≤ capacity)
    (hl' : l'.length ≤ capacity) : Like (setData (shape s l r m) l') (shape s l' r m) := by
  have e : (shape s l r m).task.r = holding (shape s l r m).task.r r := by
    have := holding_self (shape s l r m).task.r
    rw [show (shape s l r m).task.r.items = r from shape_ret hr] at this
    exact this.symm
  have := like_shape (m' := m) hl hr hl' hr (Like.refl (shape s l r m)) (.refl (holding (shape s l r m).task.s l')) (.refl _)
    (shape s l r m).task.st.ip (shape s l r m).task.st.wp
  rw [← e] at this
  exact this

theorem alikeRet {s t : VM} (h : Like s t) {l : List Cell} (hl : l.length < 256) : Like (setRet s l) (setRet t l) := by
  have := h.update (h.s) (h.r.hold l hl) h.f s.task.st.ip s.task.st.wp
  exact this

theorem like_setRet {s : VM} {l r r' : List Cell} {m : DataSpace} (hl : l.length ≤ capacity) (hr : r.length ≤ capacity)
    (hr' : r'.length ≤ capacity) : Like (setRet (shape s l r m) r') (shape s l r' m) := by
  have e : (shape s l r m).task.s = holding (shape s l r m).task.s l := by
    have := holding_self (shape s l r m).task.s
    rw [show (shape s l r m).task.s.items = l from shape_data hl] at this
    exact this.symm
  have := like_shape (m' := m) hl hr hl hr' (Like.refl (shape s l r m)) (.refl _) (.refl (holding (shape s l r m).task.r r'))
    (shape s l r m).task.st.ip (shape s l r m).task.st.wp
  rw [← e] at this
  exact this

theorem Spec.Loaded.stacks {l r l' r' : List Cell} {m : DataSpace} (h : Loaded R lv wl lo hi k d (shape s l r m)) :
    Loaded R lv wl lo hi k d (shape s l' r' m) := h.congr rfl rfl rfl

variable {l r : List Cell} {m : DataSpace} {p q : Stmt} {t : VM}

theorem Spec.Going.word (g : Region d lo hi) (h : Call i s t) : Go (.word i) s t := by
  intro hL
  obtain ⟨e1, e2⟩ := h hL
  refine ⟨e2, fun a s1 hat ha hn hl hp => ?_⟩
  simp only [Stmt.next] at hn ⊢
  have hlt : a + 8 < 2 ^ 64 := by have := g.upper; have := g.small; omega
  obtain ⟨s2, t1, f1, -, f3, f4, f5⟩ := e1 (s1.at (a + 8) s1.task.st.wp) (hl.at _ _) (by simp [pc]; omega)
  exact ⟨t1, Steps.trans (.one (step_word (hL.like hl) g hp ha hn hat f1)) f3, f4, by rw [f5]; simp [pc]⟩

theorem Spec.Going.doing (g : Region d lo hi) (h : Do i s t) : Go (.word i) s t := by
  intro hL
  obtain ⟨e1, e2⟩ := h hL
  refine ⟨e2, fun a s1 hat ha hn hl hp => ?_⟩
  simp only [Stmt.next] at hn ⊢
  obtain ⟨t1, f1, f4, f5⟩ := e1 (s1.at (a + 8) s1.task.st.wp) (hl.at _ _)
  exact ⟨t1, .one (step_word (hL.like hl) g hp ha hn hat f1), f4, by rw [f5]; simp [pc]⟩

theorem Spec.Going.lit (g : Region d lo hi) {v : Cell} (hl : l.length < capacity) (hr : r.length ≤ capacity) :
    Go (.lit v) (shape s l r m) (shape s (v :: l) r m) := by
  intro hL
  refine ⟨hL.stacks, fun a s1 hat ha hn hli hp => ?_⟩
  simp only [Stmt.next] at hn ⊢
  have hd : data (shape s l r m) = l := shape_data (by omega)
  obtain ⟨u, u1, u2, u3⟩ := run_lit (cfg := cfg) (n := n) hli hL g hp ha hn hat.1 hat.2 (by rw [hd]; exact hl)
  rw [hd] at u2
  exact ⟨u, u1, u2.trans (like_setData (by omega) hr (by simp; omega)), u3⟩

theorem Spec.Going.ifTrue (g : Region d lo hi) {f : Cell} (hl : l.length < capacity) (hr : r.length ≤ capacity) (hf : f ≠ 0)
    (h : Go p (shape s l r m) t) : Go (.ifThen p) (shape s (f :: l) r m) t := by
  intro hL
  obtain ⟨e1, e2⟩ := h hL.stacks
  refine ⟨e1, fun a s1 hat ha hn hli hp => ?_⟩
  simp only [Stmt.next] at hn ⊢
  have := p.le_next (a + 16)
  obtain ⟨u, u1, u2, u3⟩ := run_nonzero (cfg := cfg) (n := n) hli hL g hp ha (by omega) hat.1
    (shape_data (by simp; omega)) hf
  obtain ⟨t1, k1, k2, k3⟩ := e2 _ u hat.2.2 (by omega) hn (u2.trans (like_setData (by simp; omega) hr (by omega))) u3
  exact ⟨t1, u1.trans k1, k2, k3⟩

theorem Spec.Going.ifFalse (g : Region d lo hi) (hl : l.length < capacity) (hr : r.length ≤ capacity) :
    Go (.ifThen p) (shape s (0 :: l) r m) (shape s l r m) := by
  intro hL
  refine ⟨hL.stacks, fun a s1 hat ha hn hli hp => ?_⟩
  simp only [Stmt.next] at hn ⊢
  have := p.le_next (a + 16)
  obtain ⟨u, u1, u2, u3⟩ := run_zero (cfg := cfg) (n := n) hli hL g hp ha (by omega) hat.1 hat.2.1
    (shape_data (by simp; omega))
  exact ⟨u, u1, u2.trans (like_setData (by simp; omega) hr (by omega)), u3⟩

theorem Spec.Going.elseTrue (g : Region d lo hi) {f : Cell} (hl : l.length < capacity) (hr : r.length ≤ capacity) (hf : f ≠ 0)
    (h : Go p (shape s l r m) t) : Go (.ifElse p q) (shape s (f :: l) r m) t := by
  intro hL
  obtain ⟨e1, e2⟩ := h hL.stacks
  refine ⟨e1, fun a s1 hat ha hn hli hp => ?_⟩
  simp only [Stmt.next] at hn ⊢
  obtain ⟨c1, c2, c3, c4, c5, c6⟩ := hat
  have := p.le_next (a + 16); have := q.le_next (p.next (a + 16) + 16)
  obtain ⟨u, u1, u2, u3⟩ := run_nonzero (cfg := cfg) (n := n) hli hL g hp ha (by omega) c1
    (shape_data (by simp; omega)) hf
  obtain ⟨t1, k1, k2, k3⟩ := e2 _ u c3 (by omega) (by omega) (u2.trans (like_setData (by simp; omega) hr (by omega))) u3
  obtain ⟨v, v1, v2, v3⟩ := run_branch (cfg := cfg) (n := n) k2 e1 g k3 (by omega) (by omega) c4 c5
  exact ⟨v, (u1.trans k1).trans v1, v2, v3⟩

theorem Spec.Going.elseFalse (g : Region d lo hi) (hl : l.length < capacity) (hr : r.length ≤ capacity)
    (h : Go q (shape s l r m) t) : Go (.ifElse p q) (shape s (0 :: l) r m) t := by
  intro hL
  obtain ⟨e1, e2⟩ := h hL.stacks
  refine ⟨e1, fun a s1 hat ha hn hli hp => ?_⟩
  simp only [Stmt.next] at hn ⊢
  obtain ⟨c1, c2, c3, c4, c5, c6⟩ := hat
  have := p.le_next (a + 16); have := q.le_next (p.next (a + 16) + 16)
  obtain ⟨u, u1, u2, u3⟩ := run_zero (cfg := cfg) (n := n) hli hL g hp ha (by omega) c1 c2
    (shape_data (by simp; omega))
  obtain ⟨t1, k1, k2, k3⟩ := e2 _ u c6 (by omega) (by omega) (u2.trans (like_setData (by simp; omega) hr (by omega))) u3
  exact ⟨t1, u1.trans k1, k2, k3⟩

theorem Spec.Going.whileEnd (g : Region d lo hi) (hl : l.length < capacity) (hr : r.length ≤ capacity)
    (h : Go p t (shape s (0 :: l) r m)) : Go (.whileLoop p q) t (shape s l r m) := by
  intro hL
  obtain ⟨e1, e2⟩ := h hL
  refine ⟨e1.stacks, fun a s1 hat ha hn hli hp => ?_⟩
  simp only [Stmt.next] at hn ⊢
  obtain ⟨c1, c2, c3, c4, c5, c6⟩ := hat
  have := p.le_next a; have := q.le_next (p.next a + 16)
  obtain ⟨t1, k1, k2, k3⟩ := e2 _ s1 c1 ha (by omega) hli hp
  obtain ⟨u, u1, u2, u3⟩ := run_zero (cfg := cfg) (n := n) k2 e1 g k3 (by omega) (by omega) c2 c3
    (shape_data (by simp; omega))
  exact ⟨u, k1.trans u1, u2.trans (like_setData (by simp; omega) hr (by omega)), u3⟩

theorem Spec.Going.whileNext (g : Region d lo hi) {f : Cell} {u v : VM} (hl : l.length < capacity) (hr : r.length ≤ capacity)
    (hf : f ≠ 0) (h : Go p t (shape s (f :: l) r m)) (h2 : Go q (shape s l r m) u) (h3 : Go (.whileLoop p q) u v) :
    Go (.whileLoop p q) t v := by
  intro hL
  obtain ⟨e1, e2⟩ := h hL
  obtain ⟨f1, f2⟩ := h2 e1.stacks
  obtain ⟨j1, j2⟩ := h3 f1
  refine ⟨j1, fun a s1 hat ha hn hli hp => ?_⟩
  have hat0 := hat
  have hn0 := hn
  simp only [Stmt.next] at hn
  obtain ⟨c1, c2, c3, c4, c5, c6⟩ := hat
  have := p.le_next a; have := q.le_next (p.next a + 16)
  obtain ⟨t1, k1, k2, k3⟩ := e2 _ s1 c1 ha (by omega) hli hp
  obtain ⟨u1, v1, v2, v3⟩ := run_nonzero (cfg := cfg) (n := n) k2 e1 g k3 (by omega) (by omega) c2
    (shape_data (by simp; omega)) hf
  obtain ⟨w1, x1, x2, x3⟩ := f2 _ u1 c4 (by omega) (by omega) (v2.trans (like_setData (by simp; omega) hr (by omega))) v3
  obtain ⟨y1, z1, z2, z3⟩ := run_branch (cfg := cfg) (n := n) x2 f1 g x3 (by omega) (by omega) c5 c6
  obtain ⟨b1, d1, d2, d3⟩ := j2 _ y1 hat0 ha hn0 z2 z3
  exact ⟨b1, (((k1.trans v1).trans x1).trans z1).trans d1, d2, d3⟩

/-- A loop that goes `N` times, through states given in advance. -/
theorem going_turns (g : Region d lo hi) {tok : Nat} {lim : Cell} {N : Nat} {S : Nat → VM} {L : Nat → List Cell}
    {r : List Cell} {M : Nat → DataSpace} {start : Cell} (hlim : lim = start + BitVec.ofNat 64 N) (hN : N < 2 ^ 64)
    (hl : ∀ j, j ≤ N → (L j).length ≤ capacity) (hr : r.length + 3 ≤ capacity)
    (hb : ∀ j, j < N → Go p (shape (S j) (L j) (params lim (start + BitVec.ofNat 64 j) ++ BitVec.ofNat 64 tok :: r) (M j))
      (shape (S (j + 1)) (L (j + 1)) (params lim (start + BitVec.ofNat 64 j) ++ BitVec.ofNat 64 tok :: r) (M (j + 1)))) :
    ∀ c j, j + c + 1 = N →
    Loaded R lv wl lo hi k d (shape (S j) (L j) (params lim (start + BitVec.ofNat 64 j) ++ BitVec.ofNat 64 tok :: r) (M j)) →
    Loaded R lv wl lo hi k d (shape (S N) (L N) r (M N)) ∧ ∀ a s1, tok = a + 8 → CellIs d (p.next (a + 16)) R.loopRt →
      CellIs d (p.next (a + 16) + 8) (a + 16) → p.At R lv d (a + 16) → lo ≤ a → p.next (a + 16) + 16 ≤ hi →
      Like s1 (shape (S j) (L j) (params lim (start + BitVec.ofNat 64 j) ++ BitVec.ofNat 64 tok :: r) (M j)) → pc s1 = a + 16 →
      ∃ t1, Steps cfg (n + 1) s1 t1 ∧ Like t1 (shape (S N) (L N) r (M N)) ∧ pc t1 = p.next (a + 16) + 16 := by
  intro c
  induction c with
  | zero =>
    intro j hj hL
    obtain ⟨e1, e2⟩ := hb j (by omega) hL
    have hj' : j + 1 = N := by omega
    rw [hj'] at e1 e2
    refine ⟨e1.stacks, fun a s1 ht c5 c6 c4 ha hn hli hp => ?_⟩
    have := p.le_next (a + 16)
    obtain ⟨t1, k1, k2, k3⟩ := e2 _ s1 c4 (by omega) (by omega) hli hp
    have hlen : (params lim (start + BitVec.ofNat 64 j) ++ BitVec.ofNat 64 tok :: r).length ≤ capacity := by
      simp [params]; omega
    obtain ⟨u, u1, u2, u3⟩ := run_loop_end (cfg := cfg) (n := n) k2 e1 g k3 (by omega) (by omega) c5
      (shape_ret hlen) (by rw [hlim, ← hj']; bv_omega)
    exact ⟨u, k1.trans u1, u2.trans (like_setRet (hl N (by omega)) hlen (by omega)), u3⟩
  | succ c ih =>
    intro j hj hL
    obtain ⟨e1, e2⟩ := hb j (by omega) hL
    have hx : start + BitVec.ofNat 64 j + 1 = start + BitVec.ofNat 64 (j + 1) := by bv_omega
    obtain ⟨f1, f2⟩ := ih (j + 1) (by omega) e1.stacks
    refine ⟨f1, fun a s1 ht c5 c6 c4 ha hn hli hp => ?_⟩
    have := p.le_next (a + 16)
    obtain ⟨t1, k1, k2, k3⟩ := e2 _ s1 c4 (by omega) (by omega) hli hp
    have hlen : ∀ x, (params lim x ++ BitVec.ofNat 64 tok :: r).length ≤ capacity := by
      intro x; simp [params]; omega
    obtain ⟨u, u1, u2, u3⟩ := run_loop_next (cfg := cfg) (n := n) k2 e1 g k3 (by omega) (by omega) c5 c6
      (shape_ret (hlen _)) (by rw [hlim, hx]; intro e; bv_omega)
    rw [hx] at u2
    obtain ⟨v, v1, v2, v3⟩ := f2 a u ht c5 c6 c4 ha hn (u2.trans (like_setRet (hl _ (by omega)) (hlen _) (hlen _))) u3
    exact ⟨v, (k1.trans u1).trans v1, v2, v3⟩

theorem Spec.Going.doLoop (g : Region d lo hi) {tok : Nat} {lim : Cell} {N : Nat} {S : Nat → VM} {L : Nat → List Cell}
    {r : List Cell} {M : Nat → DataSpace} {start : Cell} (hlim : lim = start + BitVec.ofNat 64 N) (hN : N < 2 ^ 64)
    (hN0 : 0 < N) (hl : ∀ j, j ≤ N → (L j).length ≤ capacity) (hl0 : (L 0).length + 2 ≤ capacity) (hr : r.length + 3 ≤ capacity)
    (hb : ∀ j, j < N → Go p (shape (S j) (L j) (params lim (start + BitVec.ofNat 64 j) ++ BitVec.ofNat 64 tok :: r) (M j))
      (shape (S (j + 1)) (L (j + 1)) (params lim (start + BitVec.ofNat 64 j) ++ BitVec.ofNat 64 tok :: r) (M (j + 1)))) :
    Go (.loop false false tok p) (shape (S 0) (start :: lim :: L 0) r (M 0)) (shape (S N) (L N) r (M N)) := by
  intro hL
  have h0 : start + BitVec.ofNat 64 0 = start := by simp
  obtain ⟨e1, e2⟩ := going_turns g hlim hN hl hr hb (N - 1) 0 (by omega) (by rw [h0]; exact hL.stacks)
  rw [h0] at e2
  refine ⟨e1, fun a s1 hat ha hn hli hp => ?_⟩
  obtain ⟨c1, c2, c3, c4, c5, c6⟩ := hat
  simp only [Stmt.next] at hn ⊢
  have := p.le_next (a + 16)
  have hrr : ret (shape (S 0) (start :: lim :: L 0) r (M 0)) = r := shape_ret (by omega)
  obtain ⟨u, u1, u2, u3⟩ := run_do (cfg := cfg) (n := n) hli hL g hp ha (by omega) c2
    (shape_data (by simp; omega)) (by rw [hrr]; omega)
  rw [hrr, ← c1] at u2
  have u4 : Like u (shape (S 0) (L 0) (params lim start ++ BitVec.ofNat 64 tok :: r) (M 0)) := by
    refine u2.trans ?_
    refine Like.trans ?_ (like_setRet (r := r) (by omega) (by omega) (by simp [params]; omega))
    exact (alikeRet (like_setData (by simp; omega) (by omega) (by omega)) (by simp [params, capacity] at *; omega))
  obtain ⟨t1, k1, k2, k3⟩ := e2 a u c1 c5 c6 c4 ha hn u4 u3
  exact ⟨t1, u1.trans k1, k2, k3⟩
end
end Verif
