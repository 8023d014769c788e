import Verif.Lemmas.Library
import Verif.Props.Memory
import Verif.Spec.Library

/-!
# The built-in words the library is made of
-/

namespace Verif
open Spec Stack

section
variable {R : Refs} {wl : Wordlist} {lv lo hi n i : Nat} {k : Fin 5} {d : DataSpace} {s : VM} {cfg : Cfg}
  {l r l' r' : List Cell} {m m' : DataSpace}

local notation "Call" => Calling cfg n R lv wl lo hi k d
local notation "Go" => Going cfg n R lv wl lo hi k d
local notation "Do" => Doing cfg n R lv wl lo hi k d

/-- A change of memory that leaves the code alone. -/
structure Spec.Outside (lo hi : Nat) (m m' : DataSpace) : Prop where
  start : m'.start = m.start
  cap : m'.cap = m.cap
  bytes : ∀ x, lo ≤ x → x < hi → m'.bytes x = m.bytes x

theorem Spec.Outside.refl (m : DataSpace) : Outside lo hi m m := ⟨rfl, rfl, fun _ _ _ => rfl⟩

theorem Spec.Loaded.store (h : Loaded R lv wl lo hi k d (shape s l r m)) (ho : Outside lo hi m m') :
    Loaded R lv wl lo hi k d (shape s l' r' m') :=
  ⟨h.cur, ho.start.trans h.start, ho.cap.trans h.cap, fun x h1 h2 => (ho.bytes x h1 h2).trans (h.code x h1 h2),
    h.words, h.kept⟩

/-- A word that changes the data stack, the return stack and the memory. -/
theorem doing_shape {w : Word} (hw : wl.words[i]? = some w) (hl : l.length ≤ capacity) (hr : r.length ≤ capacity)
    (hl' : l'.length ≤ capacity) (hr' : r'.length ≤ capacity) (ho : Outside lo hi m m')
    (h : ∀ (u : VM) (v : Word), u.task.s.items = l → u.task.r.items = r → u.ds = m → u.wl.words[i]? = some v →
      v.dfa = w.dfa → u.task.st.wp = i → u.cur = s.cur → Like u (shape s l r m) → ∃ ds rs,
      action ⟨cfg, execWord cfg n⟩ w.action u =
        .ok ((), { u.setTask { u.task with s := ds, r := rs } with ds := m' }) ∧
      LikeStack ds (holding u.task.s l') ∧ LikeStack rs (holding u.task.r r')) :
    Do i (shape s l r m) (shape s l' r' m') := by
  intro hL
  refine ⟨?_, hL.store ho⟩
  intro s1 hli
  obtain ⟨v, e1, e2, e3⟩ := (hL.like hli).kept i w hw
  obtain ⟨ds, rs, f1, f2, f3⟩ := h (s1.at (pc s1) i) v
    (by rw [VM.at_task]; exact hli.data.trans (shape_data hl)) (by rw [VM.at_task]; exact hli.ret.trans (shape_ret hr))
    hli.ds e1 e3 (by rw [VM.at_task]) hli.cur (hli.at _ _)
  have ex : execWord cfg (n + 1) i s1 = .ok ((), { (s1.at (pc s1) i).setTask { (s1.at (pc s1) i).task with s := ds, r := rs } with
      ds := m' }) := by rw [exec_word e1, e2]; exact f1
  refine ⟨_, ex, ?_, ?_⟩
  · have := like_shape (m' := m') hl hr hl' hr' (hli.at (pc s1) i) f2 f3 (pc s1) i
    refine Like.trans ?_ this
    rw [VM.at_task]
    exact Like.refl _
  · rw [pc, VM.task_with_ds, VM.task_setTask, VM.at_task]

/-- A word that changes the data stack only. -/
theorem doing_data {w : Word} (hw : wl.words[i]? = some w) (hl : l.length ≤ capacity) (hr : r.length ≤ capacity)
    (hl' : l'.length ≤ capacity)
    (h : ∀ (u : VM) (v : Word), u.task.s.items = l → u.task.r.items = r → u.ds = m → u.wl.words[i]? = some v →
      v.dfa = w.dfa → u.task.st.wp = i → u.cur = s.cur → Like u (shape s l r m) → ∃ ds,
      action ⟨cfg, execWord cfg n⟩ w.action u = .ok ((), u.setTask { u.task with s := ds }) ∧
      LikeStack ds (holding u.task.s l')) :
    Do i (shape s l r m) (shape s l' r m) := by
  refine doing_shape hw hl hr hl' hr (.refl m) fun u v h1 h2 h3 h4 h5 h6 h7 h8 => ?_
  obtain ⟨ds, e1, e2⟩ := h u v h1 h2 h3 h4 h5 h6 h7 h8
  refine ⟨ds, u.task.r, ?_, e2, by rw [← h2, holding_self]; exact .refl _⟩
  rw [e1, ← h3]; rfl

theorem doing_effect {name : String} {e : Effect} (j : Nat) (hj : effects[j]? = some (name, e))
    (hb : Builtin wl i name) (he : e l = some l') (hl : l.length ≤ capacity) (hl' : l'.length ≤ capacity)
    (hr : r.length ≤ capacity) : Do i (shape s l r m) (shape s l' r m) := by
  obtain ⟨w, hw, hp⟩ := hb
  refine doing_data hw hl hr hl' fun u v h1 h2 h3 h4 h5 h6 _ _ => ?_
  obtain ⟨p, e1, e2⟩ := all_effects (c := ⟨cfg, execWord cfg n⟩) _ (List.mem_of_getElem? hj)
  obtain rfl := prim_inj hp e1
  simp only [capacity] at hl hl'
  obtain ⟨st', e3, e4⟩ := e2 u l l' (by rw [← h1]; exact rep_items _) he (by omega)
  exact ⟨st', e3, (LikeStack.refl _).of_to e4 hl hl'⟩

theorem doing_toR {x : Cell} (hb : Builtin wl i ">r") (hl : l.length < capacity) (hr : r.length < capacity) :
    Do i (shape s (x :: l) r m) (shape s l (x :: r) m) := by
  obtain ⟨w, hw, hp⟩ := hb
  have hp' := prim_inj hp (p := .core .toR) rfl
  simp only [capacity] at hl hr
  refine doing_shape hw (by simp [capacity]; omega) (by simp [capacity]; omega) (by simp [capacity]; omega)
    (by simp [capacity]; omega) (.refl m) fun u v h1 h2 h3 _ _ _ _ _ => ?_
  refine ⟨u.task.s.pop.2, u.task.r.push x, ?_, by rw [pop_holding h1]; exact .refl _,
    by rw [push_holding _ _ (by rw [h2]; omega), h2]; exact .refl _⟩
  rw [hp']
  have h4 : u.task.s.inner (u.task.s.len - 1#8) = x := (items_eq_iff.mp h1).top
  have e : action ⟨cfg, execWord cfg n⟩ (.core .toR) u =
      .ok ((), u.setTask { u.task with s := u.task.s.pop.2, r := u.task.r.push x }) := by
    simp [action, coreAction, toR, h4, Stack.pop]
  rw [e, ← h3]; rfl

theorem doing_rFrom {x : Cell} (hb : Builtin wl i "r>") (hl : l.length < capacity) (hr : r.length < capacity) :
    Do i (shape s l (x :: r) m) (shape s (x :: l) r m) := by
  obtain ⟨w, hw, hp⟩ := hb
  have hp' := prim_inj hp (p := .core .rFrom) rfl
  simp only [capacity] at hl hr
  refine doing_shape hw (by simp [capacity]; omega) (by simp [capacity]; omega) (by simp [capacity]; omega)
    (by simp [capacity]; omega) (.refl m) fun u v h1 h2 h3 _ _ _ _ _ => ?_
  refine ⟨u.task.s.push x, u.task.r.pop.2, ?_, by rw [push_holding _ _ (by rw [h1]; omega), h1]; exact .refl _,
    by rw [pop_holding h2]; exact .refl _⟩
  rw [hp']
  have h4 : u.task.r.inner (u.task.r.len - 1#8) = x := (items_eq_iff.mp h2).top
  have e : action ⟨cfg, execWord cfg n⟩ (.core .rFrom) u =
      .ok ((), u.setTask { u.task with s := u.task.s.push x, r := u.task.r.pop.2 }) := by
    simp [action, coreAction, rFrom, h4, Stack.pop]
  rw [e, ← h3]; rfl

theorem doing_twoToR {x y : Cell} (hb : Builtin wl i "2>r") (hl : l.length + 2 ≤ capacity) (hr : r.length + 2 ≤ capacity) :
    Do i (shape s (y :: x :: l) r m) (shape s l (y :: x :: r) m) := by
  obtain ⟨w, hw, hp⟩ := hb
  have hp' := prim_inj hp (p := .core .twoToR) rfl
  simp only [capacity] at hl hr
  refine doing_shape hw (by simp [capacity]; omega) (by simp [capacity]; omega) (by simp [capacity]; omega)
    (by simp [capacity]; omega) (.refl m) fun u v h1 h2 h3 _ _ _ _ _ => ?_
  refine ⟨u.task.s.pop2.2, u.task.r.push2 x y, ?_, by rw [pop2_holding h1]; exact .refl _,
    by rw [push2_holding _ _ _ (by rw [h2]; omega), h2]; exact .refl _⟩
  rw [hp']
  have h4 : u.task.s.inner (u.task.s.len - 1#8) = y := (items_eq_iff.mp h1).top
  have h5 : u.task.s.inner (u.task.s.len - 2#8) = x := (items_eq_iff.mp h1).snd
  have e : action ⟨cfg, execWord cfg n⟩ (.core .twoToR) u =
      .ok ((), u.setTask { u.task with s := u.task.s.pop2.2, r := u.task.r.push2 x y }) := by
    simp [action, coreAction, twoToR, h4, h5, Stack.pop2]
  rw [e, ← h3]; rfl

theorem doing_twoRFrom {x y : Cell} (hb : Builtin wl i "2r>") (hl : l.length + 2 ≤ capacity) (hr : r.length + 2 ≤ capacity) :
    Do i (shape s l (y :: x :: r) m) (shape s (y :: x :: l) r m) := by
  obtain ⟨w, hw, hp⟩ := hb
  have hp' := prim_inj hp (p := .core .twoRFrom) rfl
  simp only [capacity] at hl hr
  refine doing_shape hw (by simp [capacity]; omega) (by simp [capacity]; omega) (by simp [capacity]; omega)
    (by simp [capacity]; omega) (.refl m) fun u v h1 h2 h3 _ _ _ _ _ => ?_
  refine ⟨u.task.s.push2 x y, u.task.r.pop2.2, ?_, by rw [push2_holding _ _ _ (by rw [h1]; omega), h1]; exact .refl _,
    by rw [pop2_holding h2]; exact .refl _⟩
  rw [hp']
  have h4 : u.task.r.inner (u.task.r.len - 1#8) = y := (items_eq_iff.mp h2).top
  have h5 : u.task.r.inner (u.task.r.len - 2#8) = x := (items_eq_iff.mp h2).snd
  have e : action ⟨cfg, execWord cfg n⟩ (.core .twoRFrom) u =
      .ok ((), u.setTask { u.task with s := u.task.s.push2 x y, r := u.task.r.pop2.2 }) := by
    simp [action, coreAction, twoRFrom, h4, h5, Stack.pop2]
  rw [e, ← h3]; rfl

theorem doing_twoRFetch {x y : Cell} (hb : Builtin wl i "2r@") (hl : l.length + 2 ≤ capacity) (hr : r.length + 2 ≤ capacity) :
    Do i (shape s l (y :: x :: r) m) (shape s (y :: x :: l) (y :: x :: r) m) := by
  obtain ⟨w, hw, hp⟩ := hb
  have hp' := prim_inj hp (p := .core .twoRFetch) rfl
  simp only [capacity] at hl hr
  refine doing_data hw (by simp [capacity]; omega) (by simp [capacity]; omega) (by simp [capacity]; omega)
    fun u v h1 h2 h3 _ _ _ _ _ => ?_
  refine ⟨u.task.s.push2 x y, ?_, by rw [push2_holding _ _ _ (by rw [h1]; omega), h1]; exact .refl _⟩
  rw [hp']
  have h4 : u.task.r.inner (u.task.r.len - 1#8) = y := (items_eq_iff.mp h2).top
  have h5 : u.task.r.inner (u.task.r.len - 2#8) = x := (items_eq_iff.mp h2).snd
  simp [action, coreAction, twoRFetch, h4, h5]

theorem calling_index (g : Region d lo hi) {lim idx : Cell} (hb : Builtin wl i "i") (hl : l.length < capacity)
    (hr : r.length + 2 ≤ capacity) : Call i (shape s l (params lim idx ++ r) m) (shape s (idx :: l) (params lim idx ++ r) m) := by
  obtain ⟨w, hw, hp⟩ := hb
  simp only [capacity] at hl hr
  intro hL
  have hd : data (shape s l (params lim idx ++ r) m) = l := shape_data (by simp [capacity]; omega)
  have := basic_acts (cfg := cfg) (n := n) g hL (.index hw hp (shape_ret (by simp [params, capacity]; omega)) (by rw [hd]; simp [capacity]; omega))
  rw [hd] at this
  have h2 := like_setData (s := s) (l := l) (r := params lim idx ++ r) (l' := idx :: l) (m := m) (by simp [capacity]; omega)
    (by simp [params, capacity]; omega) (by simp [capacity]; omega)
  exact ⟨this.1.like (Like.refl _) h2, this.2.like h2.symm⟩

theorem Spec.Loaded.limit (g : Region d lo hi) (hL : Loaded R lv wl lo hi k d (shape s l r m)) : m.limit < 2 ^ 63 := by
  have := g.small; have := hL.start; have := hL.cap
  simp only [shape_ds] at *
  simp only [DataSpace.limit]; omega

theorem doing_fetch (g : Region d lo hi) {a : Cell} (hb : Builtin wl i "@") (hl : l.length < capacity)
    (hr : r.length ≤ capacity) (h1 : m.start < a.toNat) (h2 : a.toNat + 8 ≤ m.limit) :
    Do i (shape s (a :: l) r m) (shape s (m.cellAt a.toNat :: l) r m) := by
  obtain ⟨w, hw, hp⟩ := hb
  have hp' := prim_inj hp (p := .core .fetch) rfl
  simp only [capacity] at hl
  intro hL
  refine doing_data hw (by simp [capacity]; omega) hr (by simp [capacity]; omega)
    (fun u v k1 k2 k3 _ _ _ _ _ => ?_) hL
  have hr1 := items_eq_iff.mp k1
  have e : u.task.s.pop.1 = a := hr1.pop_fst
  have := fetch_ok ⟨cfg, execWord cfg n⟩ u (by rw [e, k3]; exact h1) (by rw [e, k3]; exact h2)
    (by rw [k3]; exact hL.limit g)
  rw [e, k3] at this
  exact ⟨_, by rw [hp']; exact this, (LikeStack.refl _).of_to (hr1.toPopPush _) (by simp; omega) (by simp; omega)⟩

theorem doing_cFetch {a : Cell} (hb : Builtin wl i "c@") (hl : l.length < capacity)
    (hr : r.length ≤ capacity) (h1 : m.start ≤ a.toNat) (h2 : a.toNat < m.limit) :
    Do i (shape s (a :: l) r m) (shape s ((m.bytes a.toNat).setWidth 64 :: l) r m) := by
  obtain ⟨w, hw, hp⟩ := hb
  have hp' := prim_inj hp (p := .core .cFetch) rfl
  simp only [capacity] at hl
  refine doing_data hw (by simp [capacity]; omega) hr (by simp [capacity]; omega)
    (fun u v k1 k2 k3 _ _ _ _ _ => ?_)
  have hr1 := items_eq_iff.mp k1
  have e : u.task.s.pop.1 = a := hr1.pop_fst
  have := cFetch_ok ⟨cfg, execWord cfg n⟩ u (by rw [e, k3]; exact h1) (by rw [e, k3]; exact h2)
  rw [e, k3] at this
  exact ⟨_, by rw [hp']; exact this, (LikeStack.refl _).of_to (hr1.toPopPush _) (by simp; omega) (by simp; omega)⟩

theorem outside_setCell {a : Nat} {x : Cell} (h : a + 8 ≤ lo ∨ hi ≤ a) : Outside lo hi m (m.setCell a x) :=
  ⟨rfl, rfl, fun _ _ _ => DataSpace.setCell_bytes_out (by omega)⟩

theorem outside_setByte {a : Nat} {x : Byte} (h : a < lo ∨ hi ≤ a) : Outside lo hi m (m.setByte a x) :=
  ⟨rfl, rfl, fun y _ _ => by simp only [DataSpace.setByte]; rw [if_neg (by omega)]⟩

theorem doing_store (g : Region d lo hi) {a x : Cell} (hb : Builtin wl i "!") (hl : l.length + 2 ≤ capacity)
    (hr : r.length ≤ capacity) (h1 : m.start < a.toNat) (h2 : a.toNat + 8 ≤ m.limit) (h3 : a.toNat + 8 ≤ lo ∨ hi ≤ a.toNat) :
    Do i (shape s (a :: x :: l) r m) (shape s l r (m.setCell a.toNat x)) := by
  obtain ⟨w, hw, hp⟩ := hb
  have hp' := prim_inj hp (p := .core .store) rfl
  simp only [capacity] at hl
  intro hL
  refine doing_shape hw (by simp [capacity]; omega) hr (by simp [capacity]; omega) hr (outside_setCell h3)
    (fun u v k1 k2 k3 _ _ _ _ _ => ?_) hL
  have hr1 := items_eq_iff.mp k1
  have e : u.task.s.pop2.1 = (x, a) := hr1.pop2_fst
  have := store_ok ⟨cfg, execWord cfg n⟩ u (by rw [e, k3]; exact h1) (by rw [e, k3]; exact h2)
    (by rw [k3]; exact hL.limit g)
  rw [e, k3] at this
  refine ⟨u.task.s.pop2.2, u.task.r, by rw [hp']; exact this, by rw [pop2_holding k1]; exact .refl _, ?_⟩
  rw [← k2, holding_self]; exact .refl _

theorem doing_cStore {a x : Cell} (hb : Builtin wl i "c!") (hl : l.length + 2 ≤ capacity)
    (hr : r.length ≤ capacity) (h1 : m.start < a.toNat) (h2 : a.toNat < m.limit) (h3 : a.toNat < lo ∨ hi ≤ a.toNat) :
    Do i (shape s (a :: x :: l) r m) (shape s l r (m.setByte a.toNat (x.setWidth 8))) := by
  obtain ⟨w, hw, hp⟩ := hb
  have hp' := prim_inj hp (p := .core .cStore) rfl
  simp only [capacity] at hl
  refine doing_shape hw (by simp [capacity]; omega) hr (by simp [capacity]; omega) hr (outside_setByte h3)
    (fun u v k1 k2 k3 _ _ _ _ _ => ?_)
  have hr1 := items_eq_iff.mp k1
  have e : u.task.s.pop2.1 = (x, a) := hr1.pop2_fst
  have := cStore_ok ⟨cfg, execWord cfg n⟩ u (by rw [e, k3]; exact h1) (by rw [e, k3]; exact h2)
  rw [e, k3] at this
  refine ⟨u.task.s.pop2.2, u.task.r, by rw [hp']; exact this, by rw [pop2_holding k1]; exact .refl _, ?_⟩
  rw [← k2, holding_self]; exact .refl _

theorem doing_cellPlus {a : Cell} (hb : Builtin wl i "cell+") (hl : l.length < capacity) (hr : r.length ≤ capacity)
    (h : inIsize (a.toInt + 8)) : Do i (shape s (a :: l) r m) (shape s ((a + 8) :: l) r m) := by
  obtain ⟨w, hw, hp⟩ := hb
  have hp' := prim_inj hp (p := .core .cellPlus) rfl
  simp only [capacity] at hl
  refine doing_data hw (by simp [capacity]; omega) hr (by simp [capacity]; omega)
    (fun u v k1 k2 k3 _ _ _ _ _ => ?_)
  have hr1 := items_eq_iff.mp k1
  have e : u.task.s.pop.1 = a := hr1.pop_fst
  refine ⟨_, ?_, (LikeStack.refl _).of_to (hr1.toPopPush (a + 8)) (by simp; omega) (by simp; omega)⟩
  rw [hp']
  have h8 : inIsize (a.toInt + (8 : Cell).toInt) := h
  have e2 : iadd cfg.overflowChecks a 8 = .ok (a + 8) := by rw [iadd, if_pos h8]
  simp only [action, coreAction, cellPlus, M.bind_apply, sPop_apply, e, Ctx.oc, e2, liftE_ok]
  simp

theorem doing_cells {a : Cell} (hb : Builtin wl i "cells") (hl : l.length < capacity) (hr : r.length ≤ capacity)
    (h : inIsize (a.toInt * 8)) : Do i (shape s (a :: l) r m) (shape s ((a * 8) :: l) r m) := by
  obtain ⟨w, hw, hp⟩ := hb
  have hp' := prim_inj hp (p := .core .cells) rfl
  simp only [capacity] at hl
  refine doing_data hw (by simp [capacity]; omega) hr (by simp [capacity]; omega)
    (fun u v k1 k2 k3 _ _ _ _ _ => ?_)
  have hr1 := items_eq_iff.mp k1
  have e : u.task.s.pop.1 = a := hr1.pop_fst
  refine ⟨_, ?_, (LikeStack.refl _).of_to (hr1.toPopPush (a * 8)) (by simp; omega) (by simp; omega)⟩
  rw [hp']
  have h8 : inIsize (a.toInt * (8 : Cell).toInt) := h
  have e2 : imul cfg.overflowChecks a 8 = .ok (a * 8) := by rw [imul, if_pos h8]
  simp only [action, coreAction, cells, M.bind_apply, sPop_apply, e, Ctx.oc, e2, liftE_ok]
  simp

theorem doing_slash {a b : Cell} (hb : Builtin wl i "/") (hl : l.length + 2 ≤ capacity) (hr : r.length ≤ capacity)
    (h : b ≠ 0) : Do i (shape s (b :: a :: l) r m) (shape s (a.sdiv b :: l) r m) := by
  obtain ⟨w, hw, hp⟩ := hb
  have hp' := prim_inj hp (p := .core .slash) rfl
  simp only [capacity] at hl
  refine doing_data hw (by simp [capacity]; omega) hr (by simp [capacity]; omega)
    (fun u v k1 k2 k3 _ _ _ _ _ => ?_)
  have hr1 := items_eq_iff.mp k1
  refine ⟨_, ?_, (LikeStack.refl _).of_to (hr1.toBinop BitVec.sdiv) (by simp; omega) (by simp; omega)⟩
  rw [hp']
  simp only [action, coreAction, divOp, M.bind_apply, getTask_apply, hr1.top, M.ite_apply, h, if_false]
  simp [modS]

theorem doing_here (hb : Builtin wl i "here") (hl : l.length < capacity) (hr : r.length ≤ capacity) :
    Do i (shape s l r m) (shape s (BitVec.ofNat 64 m.here :: l) r m) := by
  obtain ⟨w, hw, hp⟩ := hb
  have hp' := prim_inj hp (p := .core .here) rfl
  simp only [capacity] at hl
  refine doing_data hw (by simp [capacity]; omega) hr (by simp [capacity]; omega)
    (fun u v k1 k2 k3 _ _ _ _ _ => ?_)
  refine ⟨u.task.s.push (BitVec.ofNat 64 m.here), ?_, by rw [push_holding _ _ (by rw [k1]; omega), k1]; exact .refl _⟩
  rw [hp']
  simp [action, coreAction, Verif.here, getHere, ← k3, toCell]

theorem doing_allot {x : Nat} (hb : Builtin wl i "allot") (hl : l.length < capacity)
    (hr : r.length ≤ capacity) (hd : SoundSpace m) (hx : x < 2 ^ 63) (h : m.here + x ≤ m.limit) :
    Do i (shape s (BitVec.ofNat 64 x :: l) r m) (shape s l r { m with len := m.len + x }) := by
  obtain ⟨w, hw, hp⟩ := hb
  have hp' := prim_inj hp (p := .core .allot) rfl
  simp only [capacity] at hl
  refine doing_shape hw (by simp [capacity]; omega) hr (by simp [capacity]; omega) hr ⟨rfl, rfl, fun _ _ _ => rfl⟩
    (fun u v k1 k2 k3 _ _ _ _ _ => ?_)
  have hr1 := items_eq_iff.mp k1
  have e : u.task.s.pop.1 = BitVec.ofNat 64 x := hr1.pop_fst
  refine ⟨u.task.s.pop.2, u.task.r, ?_, by rw [pop_holding k1]; exact .refl _, ?_⟩
  · rw [hp']
    have := ds_allot_nat (oc := cfg.overflowChecks) hd hx h
    simp only [action, coreAction, allot, M.bind_apply, sPop_apply, e, dsOp_apply, VM.ds_setTask, k3, Ctx.oc]
    rw [this]
  · rw [← k2, holding_self]; exact .refl _

theorem doing_move {a b u : Cell} (hb : Builtin wl i "move") (hsm : m.limit < 2 ^ 63) (hu : 0 ≤ u.toInt) (h1 : m.start < a.toNat)
    (h2 : a.toNat + u.toNat ≤ m.limit) (h3 : m.start < b.toNat) (h4 : b.toNat + u.toNat ≤ m.limit)
    (h5 : b.toNat + u.toNat ≤ lo ∨ hi ≤ b.toNat) :
    ∃ m', (∀ (s : VM) (l r : List Cell), l.length + 3 ≤ capacity → r.length ≤ capacity →
      Do i (shape s (u :: b :: a :: l) r m) (shape s l r m')) ∧ SameShape m m' ∧
      (∀ k, k < u.toNat → m'.bytes (b.toNat + k) = m.bytes (a.toNat + k)) ∧
      (∀ x, x < b.toNat ∨ b.toNat + u.toNat ≤ x → m'.bytes x = m.bytes x) := by
  obtain ⟨w, hw, hp⟩ := hb
  have hp' := prim_inj hp (p := .core .move) rfl
  by_cases hu0 : 0 < u.toInt
  · have hok : moveOk cfg.overflowChecks m a.toNat b.toNat u.toNat = .ok true := by
      rw [moveOk_of_lt (by simp only [usizeMod]; omega) (by simp only [usizeMod]; omega)]
      simp [h1, h2, h3, h4]
    obtain ⟨m', e0, m2, m3, m4⟩ : ∃ m', (if a.toNat < b.toNat then moveDown m a.toNat b.toNat u.toNat
        else moveUp m a.toNat b.toNat u.toNat) = .ok m' ∧ SameShape m m' ∧
        (∀ k, k < u.toNat → m'.bytes (b.toNat + k) = m.bytes (a.toNat + k)) ∧
        (∀ x, x < b.toNat ∨ b.toNat + u.toNat ≤ x → m'.bytes x = m.bytes x) := by
      by_cases hlt : a.toNat < b.toNat
      · rw [if_pos hlt]; exact moveDown_spec u.toNat m a.toNat b.toNat (by omega) (by omega) h4
      · rw [if_neg hlt]; exact moveUp_spec u.toNat m a.toNat b.toNat (by omega) (by omega) h2
    refine ⟨m', fun s l r hl hr => ?_, m2, m3, m4⟩
    simp only [capacity] at hl
    refine doing_shape hw (by simp [capacity]; omega) hr (by simp [capacity]; omega) hr
      ⟨m2.start, m2.cap, fun x _ _ => m4 x (by omega)⟩ (fun v _ k1 k2 k3 _ _ _ _ _ => ?_)
    have e : v.task.s.pop3.1 = (a, b, u) := (items_eq_iff.mp k1).pop3_fst
    refine ⟨v.task.s.pop3.2, v.task.r, ?_, by rw [pop3_holding k1]; exact .refl _, by rw [← k2, holding_self]; exact .refl _⟩
    rw [hp']
    simp only [action, coreAction, pMove, M.bind_apply, sPop3_apply, e, M.ite_apply, hu0, if_true, Ctx.oc,
      dsRd_apply, VM.ds_setTask, k3, hok, dsOp_apply]
    by_cases hlt : a.toNat < b.toNat
    · rw [if_pos hlt] at e0 ⊢; rw [e0]
    · rw [if_neg hlt] at e0 ⊢; rw [e0]
  · have hz : u.toNat = 0 := by
      have : u = 0 := BitVec.eq_of_toInt_eq (by simp; omega)
      rw [this]; rfl
    refine ⟨m, fun s l r hl hr => ?_, .refl m, by omega, fun _ _ => rfl⟩
    simp only [capacity] at hl
    refine doing_data hw (by simp [capacity]; omega) hr (by simp [capacity]; omega)
      (fun v _ k1 k2 k3 _ _ _ _ _ => ?_)
    have e : v.task.s.pop3.1 = (a, b, u) := (items_eq_iff.mp k1).pop3_fst
    refine ⟨v.task.s.pop3.2, ?_, by rw [pop3_holding k1]; exact .refl _⟩
    rw [hp']
    simp only [action, coreAction, pMove, M.bind_apply, sPop3_apply, e, M.ite_apply, hu0, if_false, M.pure_apply]

theorem Spec.Like.printed {s t : VM} (h : Like s t) (bs : List Byte) : Like (printed s bs) (printed t bs) := by
  obtain ⟨ip, wp, ds, rs, fs, h1, h2, h3, rfl⟩ := h
  exact ⟨ip, wp, ds, rs, fs, h1, h2, h3, rfl⟩

theorem doing_emit {x : Cell} (hb : Builtin wl i "emit") (hl : l.length < capacity) (hr : r.length ≤ capacity) :
    Do i (shape s (x :: l) r m) (shape (printed s (utf8Char (Char.ofNat (x.toNat % 256)))) l r m) := by
  obtain ⟨w, hw, hp⟩ := hb
  have hp' := prim_inj hp (p := .out .emit) rfl
  have hc : capacity = 64 := rfl
  intro hL
  refine ⟨?_, hL.congr rfl rfl rfl⟩
  intro s1 hli
  obtain ⟨v, e1, e2, e3⟩ := (hL.like hli).kept i w hw
  have k1 : s1.task.s.items = x :: l := hli.data.trans (shape_data (by simp; omega))
  have k2 : s1.task.r.items = r := hli.ret.trans (shape_ret hr)
  have hr1 := items_eq_iff.mp k1
  have e : s1.task.s.pop.1 = x := hr1.pop_fst
  have ex : execWord cfg (n + 1) i s1 = .ok ((), printed (s1.setTask { s1.task with
      s := s1.task.s.pop.2, r := s1.task.r, st := { s1.task.st with ip := pc s1, wp := i } })
      (utf8Char (Char.ofNat (x.toNat % 256)))) := by
    rw [exec_word e1, e2, hp']
    simp only [action, outAction, emit, M.bind_apply, sPop_apply, VM.at_task, e]
    simp [outBytes, printed, VM.at, pc]
  refine ⟨_, ex, ?_, ?_⟩
  · have := like_shape (m' := m) (l' := l) (r' := r) (by simp; omega) hr (by omega) hr hli
      (ds := s1.task.s.pop.2) (rs := s1.task.r) (by rw [pop_holding k1]; exact .refl _)
      (by rw [← k2, holding_self]; exact .refl _) (pc s1) i
    have hds : s1.ds = m := hli.ds
    rw [← hds] at this ⊢
    exact Like.printed this _
  · show (s1.setTask _).task.st.ip = _
    rw [VM.task_setTask]

/-- Calling a colon definition. -/
theorem calling_colon (g : Region d lo hi) {p : Stmt} {s' : VM} {w : Word} (hw : wl.words[i]? = some w)
    (ha : w.action = .core .nest) (h1 : lo ≤ w.dfa) (h2 : (Stmt.seq p .exit).next w.dfa ≤ hi)
    (hat : (Stmt.seq p .exit).At R lv d w.dfa) (hl : l.length ≤ capacity) (hr : r.length < capacity)
    (hl' : l'.length ≤ capacity)
    (hb : ∀ x, Go p (shape s l (x :: r) m) (shape s' l' (x :: r) m')) :
    Call i (shape s l r m) (shape s' l' r m') := by
  intro hL
  refine ⟨?_, ((hb 0) hL.stacks).1.stacks⟩
  intro s1 hli hpc
  obtain ⟨w', e1, e2, e3⟩ := (hL.like hli).kept i w hw
  have hr1 : s1.task.r.items = r := hli.ret.trans (shape_ret (by omega))
  have hc : capacity = 64 := rfl
  have hp1 := push_holding s1.task.r (toCell (pc s1)) (by rw [hr1]; omega)
  rw [hr1] at hp1
  have ex : execWord cfg (n + 1) i s1 = .ok ((), s1.put s1.task.s (s1.task.r.push (toCell (pc s1)))
      s1.task.f w.dfa i) := by
    rw [exec_word e1, e2, ha]
    simp only [action, coreAction, nest, M.bind_apply, getSt_apply, VM.at_task, rPush_apply]
    rw [wordAt_ok (w := w') (by simpa using e1)]
    simp [setIp, VM.at, VM.put, e3, pc]
  have hl2 : Like (s1.put s1.task.s (s1.task.r.push (toCell (pc s1))) s1.task.f w.dfa i)
      (shape s l (toCell (pc s1) :: r) m) := by
    have hd : s1.task.s.items = l := hli.data.trans (shape_data hl)
    have := like_shape (m' := m) hl (by omega) hl (r' := toCell (pc s1) :: r) (by simp; omega) hli
      (ds := s1.task.s) (rs := s1.task.r.push (toCell (pc s1))) (by rw [← hd, holding_self]; exact .refl _)
      (by rw [hp1]; exact .refl _) w.dfa i
    have hds : s1.ds = m := hli.ds
    rw [← hds] at this ⊢
    exact this
  obtain ⟨b1, b2⟩ := hb (toCell (pc s1)) hL.stacks
  simp only [Stmt.next] at h2
  obtain ⟨t1, c1, c2, c3⟩ := b2 w.dfa _ hat.1 h1 (by omega) hl2 (by simp [pc, VM.put])
  obtain ⟨v, f1, f2, f3⟩ := run_exit (cfg := cfg) (n := n) c2 b1 g c3 (by have := p.le_next w.dfa; omega) h2 hat.2
    (shape_ret (by simp; omega))
  refine ⟨_, v, ex, rfl, c1.trans f1, f2.trans (like_setRet hl' (by simp; omega) (by omega)), ?_⟩
  rw [f3, toNat_toCell hpc]

/-- What is known of a word whose code lies elsewhere. -/
theorem Spec.Calling.elsewhere {lo2 hi2 : Nat} {s' : VM} (h : Calling cfg n R lv wl lo2 hi2 k d i (shape s l r m) (shape s' l' r' m'))
    (hL : Loaded R lv wl lo2 hi2 k d (shape s l r m)) (hc : s'.cur = s.cur) (hw : s'.wl = s.wl) (ho : Outside lo hi m m') :
    Call i (shape s l r m) (shape s' l' r' m') := by
  intro hL1
  refine ⟨(h hL).1, (hL1.store ho (l' := l') (r' := r')).congr hc rfl hw⟩

end
end Verif
