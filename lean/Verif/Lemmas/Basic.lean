import Verif.Spec.Basic
import Verif.Lemmas.Calls
import Verif.Lemmas.Effects
import Verif.Lemmas.MemoryWords

/-!
# The built-in words act as specified
-/

namespace Verif
open Spec Stack

section
variable {R : Refs} {wl : Wordlist} {lv lo hi n i : Nat} {k : Fin 5} {d : DataSpace} {s : VM} {cfg : Cfg}

/-- Acting on the stacks only. -/
theorem acts_put {w : Word} {ds' rs' : Stack Cell} {fs' : Stack F64} (hL : Loaded R lv wl lo hi k d s)
    (hw : wl.words[i]? = some w)
    (h : ∀ (s1 : VM) (v : Word), Like s1 s → s1.wl.words[i]? = some v → v.dfa = w.dfa → ∃ ds rs fs,
      action ⟨cfg, execWord cfg n⟩ w.action (s1.at (pc s1) i) = .ok ((), s1.put ds rs fs (pc s1) i) ∧
      LikeStack ds ds' ∧ LikeStack rs rs' ∧ LikeStack fs fs') :
    Acts cfg (n + 1) i s (s.setTask { s.task with s := ds', r := rs', f := fs' }) ∧
      Loaded R lv wl lo hi k d (s.setTask { s.task with s := ds', r := rs', f := fs' }) := by
  refine ⟨?_, hL.setTask _⟩
  intro s1 hl _
  obtain ⟨v, e1, e2, e3⟩ := (hL.like hl).kept i w hw
  obtain ⟨ds, rs, fs, f1, f2, f3, f4⟩ := h s1 v hl e1 e3
  exact ⟨s1.put ds rs fs (pc s1) i, _, by rw [exec_word e1, e2]; exact f1, rfl, .refl _, hl.update f2 f3 f4 _ _, by simp [pc, VM.put]⟩

theorem prim_inj {name : String} {p : Prim} {w : Word} (h : primOf name = some w.action) (h2 : primOf name = some p) :
    w.action = p := Option.some.inj (h.symm.trans h2)

theorem u8sub_ok {oc : Bool} {a b : BitVec 8} (h : b.toNat ≤ a.toNat) : u8sub oc a b = .ok (a - b) := by
  simp [u8sub, h]

theorem add_sub_self (a b : Cell) : a + (b - a) = b := by bv_omega

theorem basic_acts {s t : VM} (g : Region d lo hi) (hL : Loaded R lv wl lo hi k d s) (h : Basic wl lo hi i s t) :
    Acts cfg (n + 1) i s t ∧ Loaded R lv wl lo hi k d t := by
  cases h with
  | @effect w name e ys _ hw he hp hy hx hyl =>
    refine acts_put hL hw fun s1 v hl _ _ => ?_
    obtain ⟨p, e1, e2⟩ := all_effects (c := ⟨cfg, execWord cfg n⟩) _ he
    obtain rfl := prim_inj hp e1
    simp only [capacity] at hx hyl
    have hd := hl.data
    obtain ⟨st', e3, e4⟩ := e2 (s1.at (pc s1) i) (data s) ys (by rw [VM.at_task, ← hd]; exact rep_items _) hy (by omega)
    rw [VM.at_task] at e4
    refine ⟨st', s1.task.r, s1.task.f, ?_, hl.s.of_to e4 hx hyl, hl.r, hl.f⟩
    rw [e3]
    simp [withData, VM.at, VM.put, VM.setTask_setTask]
  | @index w lim idx l _ hw hp hr hd =>
    simp only [capacity] at hd
    obtain hp' := prim_inj hp (p := .core .i) rfl
    refine acts_put hL hw fun s1 v hl _ _ => ?_
    have h1 := push_holding s1.task.s idx (by rw [hl.data]; omega)
    refine ⟨s1.task.s.push idx, s1.task.r, s1.task.f, ?_, by rw [h1, hl.data]; exact hl.s.hold _ (by simp; omega), hl.r, hl.f⟩
    rw [params_eq] at hr
    have hr1 := items_eq_iff.mp (hl.ret.trans hr)
    have hlen : 2 ≤ s1.task.r.len.toNat := by rw [hr1.1]; simp
    have h2 : s1.task.r.last = _ := hr1.top
    have h3 := hr1.snd
    rw [hp']
    show pI _ _ = _
    unfold pI
    rw [M.bind_ok (getTask_apply _), VM.at_task]
    rw [u8sub_ok (b := 2) (show 2 ≤ s1.task.r.len.toNat from hlen), M.bind_ok (liftE_ok _ _)]
    have h4 : s1.task.r.get (s1.task.r.len - 2) = _ := h3
    simp only [h2, h4, sPush_apply, VM.at_task, add_sub_self]
    simp [VM.at, VM.put]
  | @outer w lim idx a b c l _ hw hp hr hd =>
    simp only [capacity] at hd
    obtain hp' := prim_inj hp (p := .core .j) rfl
    refine acts_put hL hw fun s1 v hl _ _ => ?_
    have h1 := push_holding s1.task.s idx (by rw [hl.data]; omega)
    refine ⟨s1.task.s.push idx, s1.task.r, s1.task.f, ?_, by rw [h1, hl.data]; exact hl.s.hold _ (by simp; omega), hl.r, hl.f⟩
    rw [params_eq] at hr
    have hr1 := items_eq_iff.mp (hl.ret.trans hr)
    have hlen : 5 ≤ s1.task.r.len.toNat := by rw [hr1.1]; simp
    have h2 := hr1.read (k := 3) (i := s1.task.r.len - 4) (by simp) (by bv_omega)
    have h3 := hr1.read (k := 4) (i := s1.task.r.len - 4 - 1) (by simp) (by bv_omega)
    rw [hp']
    show pJ _ _ = _
    unfold pJ
    rw [M.bind_ok (getTask_apply _), VM.at_task]
    rw [u8sub_ok (b := 4) (show 4 ≤ s1.task.r.len.toNat by omega), M.bind_ok (liftE_ok _ _)]
    rw [u8sub_ok (b := 1) (show 1 ≤ (s1.task.r.len - 4).toNat by bv_omega), M.bind_ok (liftE_ok _ _)]
    simp only [Stack.get]
    have h4 : s1.task.r.inner (s1.task.r.len - 4) = cellMin + idx - lim := h2
    have h5 : s1.task.r.inner (s1.task.r.len - 4 - 1) = idx - (cellMin + idx - lim) := h3
    simp only [h4, h5, sPush_apply, VM.at_task, add_sub_self]
    simp [VM.at, VM.put]
  | @toR w x l _ hw hp hd hr =>
    simp only [capacity] at hr
    obtain hp' := prim_inj hp (p := .core .toR) rfl
    have hdl : l.length < 256 := by have := items_length_lt s.task.s; rw [show s.task.s.items = _ from hd] at this; simp at this; omega
    have := acts_put (n := n) (cfg := cfg) hL hw (ds' := holding s.task.s l) (rs' := holding s.task.r (x :: ret s)) (fs' := s.task.f) fun s1 v hl _ _ => by
      have hd1 := hl.data.trans hd
      have h1 := push_holding s1.task.r x (by rw [hl.ret]; omega)
      refine ⟨s1.task.s.pop.2, s1.task.r.push x, s1.task.f, ?_, by rw [pop_holding hd1]; exact hl.s.hold _ hdl,
        by rw [h1, hl.ret]; exact hl.r.hold _ (by simp; omega), hl.f⟩
      rw [hp']
      have h2 : s1.task.s.inner (s1.task.s.len - 1#8) = x := (items_eq_iff.mp hd1).top
      simp [action, coreAction, toR, VM.at, VM.put, h2, Stack.pop]
    have e : (setRet (setData s l) (x :: ret s)) = s.setTask { s.task with s := holding s.task.s l, r := holding s.task.r (x :: ret s), f := s.task.f } := by
      simp [setRet, setData]
    rw [e]; exact this
  | @rFrom w x l _ hw hp hr hd =>
    simp only [capacity] at hd
    obtain hp' := prim_inj hp (p := .core .rFrom) rfl
    have hdl : l.length < 256 := by have := items_length_lt s.task.r; rw [show s.task.r.items = _ from hr] at this; simp at this; omega
    have := acts_put (n := n) (cfg := cfg) hL hw (ds' := holding s.task.s (x :: data s)) (rs' := holding s.task.r l) (fs' := s.task.f) fun s1 v hl _ _ => by
      have hr1 := hl.ret.trans hr
      have h1 := push_holding s1.task.s x (by rw [hl.data]; omega)
      refine ⟨s1.task.s.push x, s1.task.r.pop.2, s1.task.f, ?_, by rw [h1, hl.data]; exact hl.s.hold _ (by simp; omega),
        by rw [pop_holding hr1]; exact hl.r.hold _ hdl, hl.f⟩
      rw [hp']
      have h2 : s1.task.r.inner (s1.task.r.len - 1#8) = x := (items_eq_iff.mp hr1).top
      simp [action, coreAction, rFrom, VM.at, VM.put, h2, Stack.pop]
    have e : (setRet (setData s (x :: data s)) l) = s.setTask { s.task with s := holding s.task.s (x :: data s), r := holding s.task.r l, f := s.task.f } := by
      simp [setRet, setData]
    rw [e]; exact this
  | @rFetch w x l _ hw hp hr hd =>
    simp only [capacity] at hd
    obtain hp' := prim_inj hp (p := .core .rFetch) rfl
    refine acts_put hL hw fun s1 v hl _ _ => ?_
    have hr1 := hl.ret.trans hr
    have h1 := push_holding s1.task.s x (by rw [hl.data]; omega)
    refine ⟨s1.task.s.push x, s1.task.r, s1.task.f, ?_, by rw [h1, hl.data]; exact hl.s.hold _ (by simp; omega), hl.r, hl.f⟩
    rw [hp']
    have h2 : s1.task.r.inner (s1.task.r.len - 1#8) = x := (items_eq_iff.mp hr1).top
    simp [action, coreAction, rFetch, VM.at, VM.put, h2]
  | @unloop w a b c l _ hw hp hr =>
    obtain hp' := prim_inj hp (p := .core .unloop) rfl
    have hdl : l.length < 256 := by have := items_length_lt s.task.r; rw [show s.task.r.items = _ from hr] at this; simp at this; omega
    refine acts_put hL hw fun s1 v hl _ _ => ?_
    have hr1 := hl.ret.trans hr
    refine ⟨s1.task.s, s1.task.r.pop3.2, s1.task.f, ?_, hl.s, by rw [pop3_holding hr1]; exact hl.r.hold _ hdl, hl.f⟩
    rw [hp']
    simp [action, coreAction, unloop, rPop3, VM.at, VM.put]
  | @var w _ hw hp hd =>
    simp only [capacity] at hd
    refine acts_put hL hw fun s1 v hl hv hdfa => ?_
    have h1 := push_holding s1.task.s (toCell w.dfa) (by rw [hl.data]; omega)
    refine ⟨s1.task.s.push (toCell w.dfa), s1.task.r, s1.task.f, ?_, by rw [h1, hl.data]; exact hl.s.hold _ (by simp; omega), hl.r, hl.f⟩
    rw [hp]
    show pVar _ = _
    simp only [pVar, M.bind_apply, getSt_apply, VM.at_task]
    rw [wordAt_ok (w := v) (by simpa using hv)]
    simp [VM.at, VM.put, hdfa]
  | @const w _ hw hp h1 h2 hd =>
    simp only [capacity] at hd
    refine acts_put hL hw fun s1 v hl hv hdfa => ?_
    have h3 := push_holding s1.task.s (s.ds.cellAt w.dfa) (by rw [hl.data]; omega)
    refine ⟨s1.task.s.push (s.ds.cellAt w.dfa), s1.task.r, s1.task.f, ?_, by rw [h3, hl.data]; exact hl.s.hold _ (by simp; omega), hl.r, hl.f⟩
    rw [hp]
    show pConst _ = _
    simp only [pConst, M.bind_apply, getSt_apply, VM.at_task]
    rw [wordAt_ok (w := v) (by simpa using hv)]
    have h4 : (s1.at (pc s1) i).ds.getCell w.dfa = .ok (s.ds.cellAt w.dfa) := by
      rw [VM.at_ds, hl.ds, DataSpace.getCell, if_pos ⟨h1, h2⟩]
    simp only [hdfa]
    rw [dsRd_ok h4]
    simp [VM.at, VM.put]
  | @fetch w a l _ hw hp hd hll h1 h2 =>
    simp only [capacity] at hll
    obtain hp' := prim_inj hp (p := .core .fetch) rfl
    refine acts_put hL hw fun s1 v hl hv hdfa => ?_
    have hd1 := hl.data.trans hd
    have hr1 := items_eq_iff.mp hd1
    have h3 := pop_holding hd1
    refine ⟨s1.task.s.pop.2.push (s.ds.cellAt a.toNat), s1.task.r, s1.task.f, ?_, ?_, hl.r, hl.f⟩
    · rw [hp']
      show fetch _ _ = _
      have e : s1.task.s.pop.1 = a := hr1.pop_fst
      have h4 : (s1.at (pc s1) i).task.s = s1.task.s := by rw [VM.at_task]
      have hb : s.ds.limit < 2 ^ 63 := by
        have := g.small; have := hL.start; have := hL.cap; simp only [DataSpace.limit]; omega
      have := fetch_ok ⟨cfg, execWord cfg n⟩ (s1.at (pc s1) i) (by rw [h4, e, VM.at_ds, hl.ds]; exact h1)
        (by rw [h4, e, VM.at_ds, hl.ds]; exact h2) (by rw [VM.at_ds, hl.ds]; exact hb)
      rw [this, h4, e, VM.at_ds, hl.ds]
      simp [withData, VM.at, VM.put]
    · exact hl.s.of_to (hr1.toPopPush _) (by simp; omega) (by simp; omega)
  | @store w a x l _ hw hp hd h1 h2 h3 =>
    obtain hp' := prim_inj hp (p := .core .store) rfl
    have hdl : l.length < 256 := by have := items_length_lt s.task.s; rw [show s.task.s.items = _ from hd] at this; simp at this; omega
    have hb : s.ds.limit < 2 ^ 63 := by
      have := g.small; have := hL.start; have := hL.cap; simp only [DataSpace.limit]; omega
    refine ⟨?_, hL.cur, hL.start, hL.cap, ?_, hL.words, hL.kept⟩
    · intro s1 hl _
      obtain ⟨v, e1, e2, e3⟩ := (hL.like hl).kept i w hw
      have hd1 := hl.data.trans hd
      have hr1 := items_eq_iff.mp hd1
      have e : s1.task.s.pop2.1 = (x, a) := hr1.pop2_fst
      have h4 : (s1.at (pc s1) i).task.s = s1.task.s := by rw [VM.at_task]
      have hst := store_ok ⟨cfg, execWord cfg n⟩ (s1.at (pc s1) i) (by rw [h4, e, VM.at_ds, hl.ds]; exact h1)
        (by rw [h4, e, VM.at_ds, hl.ds]; exact h2) (by rw [VM.at_ds, hl.ds]; exact hb)
      rw [h4, e, VM.at_ds, hl.ds] at hst
      have ex : withMem (s1.at (pc s1) i) s1.task.s.pop2.2 (s.ds.setCell a.toNat x) =
          { s1.put s1.task.s.pop2.2 s1.task.r s1.task.f (pc s1) i with ds := s.ds.setCell a.toNat x } := by
        have : withData (s1.at (pc s1) i) s1.task.s.pop2.2 =
            s1.put s1.task.s.pop2.2 s1.task.r s1.task.f (pc s1) i := by
          simp [withData, VM.at, VM.put]
        rw [withMem, this]
      rw [ex] at hst
      refine ⟨{ s1.put s1.task.s.pop2.2 s1.task.r s1.task.f (pc s1) i with ds := s.ds.setCell a.toNat x }, _, by rw [exec_word e1, e2, hp']; exact hst, rfl, .refl _, ?_, ?_⟩
      · have hu := hl.update (pop2_holding hd1 ▸ hl.s.hold l hdl) hl.r hl.f (pc s1) i
        obtain ⟨ip, wp, ds, rs, fs, u1, u2, u3, u4⟩ := hu
        refine ⟨ip, wp, ds, rs, fs, u1, u2, u3, ?_⟩
        have u5 : s1.put s1.task.s.pop2.2 s1.task.r s1.task.f (pc s1) i = _ := u4
        rw [u5]
        rfl
      · show (s1.put s1.task.s.pop2.2 s1.task.r s1.task.f (pc s1) i).task.st.ip = _
        simp [VM.put]
    · intro y y1 y2
      rw [← hL.code y y1 y2]
      exact DataSpace.setCell_bytes_out (by omega)

end

end Verif
