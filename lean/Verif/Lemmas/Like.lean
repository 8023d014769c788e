import Verif.Lemmas.Memory
import Verif.Spec.Layout

/-!
# Machines that agree up to what holds nothing
-/

namespace Verif
open Spec Stack

variable {α : Type}

/-! ### Stacks -/

theorem holding_len (st : Stack α) (l : List α) : (holding st l).len = BitVec.ofNat 8 l.length := rfl

theorem holding_rep (st : Stack α) {l : List α} (h : l.length < 256) : Rep (holding st l) l := by
  refine Rep.intro ?_ ?_
  · simp only [holding, BitVec.toNat_ofNat]; omega
  · intro k hk i hi
    simp only [holding, BitVec.toNat_ofNat] at hi ⊢
    have e : i.toNat = l.length - 1 - k := by omega
    rw [if_pos (by omega), e]
    simp only [List.getD_eq_getElem?_getD]
    rw [List.getElem?_reverse (by omega)]
    have e2 : l.length - 1 - (l.length - 1 - k) = k := by omega
    rw [e2, List.getElem?_eq_getElem hk]
    rfl

theorem holding_items (st : Stack α) {l : List α} (h : l.length < 256) : (holding st l).items = l :=
  (holding_rep st h).items_eq

theorem holding_holding (st : Stack α) {l k : List α} (h : l.length ≤ k.length) :
    holding (holding st l) k = holding st k := by
  simp only [holding, Stack.mk.injEq, and_true]
  funext i
  split
  · rfl
  · rw [if_neg (by omega)]

/-- A stack is determined by what it holds and by the places that hold nothing. -/
theorem eq_holding {st st' : Stack α} {l : List α} (h : Rep st' l) (hc : st'.canary = st.canary)
    (hq : ∀ i : BitVec 8, l.length ≤ i.toNat → st'.inner i = st.inner i) : st' = holding st l := by
  have hlt : l.length < 256 := h.1 ▸ st'.len.isLt
  have hl : st'.len = (holding st l).len := by rw [h.len]; rfl
  have hi : st'.inner = (holding st l).inner := by
    funext i
    by_cases hi : i.toNat < l.length
    · have r1 := h.read (k := l.length - 1 - i.toNat) (by omega) (i := i) (by rw [h.1]; omega)
      have r2 := (holding_rep st hlt).read (k := l.length - 1 - i.toNat) (by omega) (i := i)
        (by rw [(holding_rep st hlt).1]; omega)
      rw [r1, r2]
    · rw [hq i (by omega)]
      simp only [holding]
      rw [if_neg hi]
  have hc : st'.canary = (holding st l).canary := hc
  cases st'
  cases hh : holding st l
  rw [hh] at hl hi hc
  simp_all

theorem holding_self (st : Stack α) : holding st st.items = st :=
  (eq_holding (rep_items st) rfl fun _ _ => rfl).symm

theorem push_holding (st : Stack α) (v : α) (h : st.items.length < 255) :
    st.push v = holding st (v :: st.items) := by
  refine eq_holding ((rep_items st).push h v) rfl ?_
  intro i hi
  have := (rep_items st).1
  simp only [List.length_cons] at hi
  simp only [Stack.push, setSlot]
  rw [if_neg (by bv_omega)]

theorem push2_holding (st : Stack α) (v w : α) (h : st.items.length < 254) :
    st.push2 v w = holding st (w :: v :: st.items) := by
  refine eq_holding ((rep_items st).push2 h v w) rfl ?_
  intro i hi
  have := (rep_items st).1
  simp only [List.length_cons] at hi
  simp only [Stack.push2, setSlot]
  rw [if_neg (by bv_omega), if_neg (by bv_omega)]

theorem pop_holding {st : Stack α} {x : α} {l : List α} (h : st.items = x :: l) :
    st.pop.2 = holding st l :=
  eq_holding (items_eq_iff.mp h).pop_snd rfl fun _ _ => rfl

theorem pop2_holding {st : Stack α} {x y : α} {l : List α} (h : st.items = y :: x :: l) :
    st.pop2.2 = holding st l :=
  eq_holding (items_eq_iff.mp h).pop2_snd rfl fun _ _ => rfl

theorem pop3_holding {st : Stack α} {x y z : α} {l : List α} (h : st.items = z :: y :: x :: l) :
    st.pop3.2 = holding st l :=
  eq_holding (items_eq_iff.mp h).pop3_snd rfl fun _ _ => rfl

theorem Spec.LikeStack.refl (a : Stack α) : LikeStack a a := ⟨rfl, rfl, fun _ _ => rfl⟩

theorem Spec.LikeStack.symm {a b : Stack α} (h : LikeStack a b) : LikeStack b a :=
  ⟨h.len.symm, h.canary.symm, fun i hi => (h.slots i (by rw [← h.len]; exact hi)).symm⟩

theorem Spec.LikeStack.trans {a b c : Stack α} (h : LikeStack a b) (k : LikeStack b c) : LikeStack a c :=
  ⟨h.len.trans k.len, h.canary.trans k.canary, fun i hi =>
    (h.slots i (by rw [k.len]; exact hi)).trans (k.slots i hi)⟩

theorem Spec.LikeStack.items {a b : Stack α} (h : LikeStack a b) : a.items = b.items := by
  refine Rep.items_eq (Rep.intro ?_ ?_)
  · rw [h.len, items_length]
  · intro k hk i hi
    have hb := (rep_items b)
    rw [h.len] at hi
    rw [h.slots i (by omega)]
    exact hb.read hk hi

/-- The same content on top of the same stack. -/
theorem Spec.LikeStack.hold {a b : Stack α} (h : LikeStack a b) (l : List α) (hl : l.length < 256) :
    LikeStack (holding a l) (holding b l) := by
  refine ⟨rfl, h.canary, ?_⟩
  intro i hi
  simp only [Spec.holding, BitVec.toNat_ofNat] at hi ⊢
  split
  · have : i.toNat < l.reverse.length := by simpa using ‹_›
    simp only [List.getD_eq_getElem?_getD, List.getElem?_eq_getElem this]
    rfl
  · exact h.slots i (by omega)

theorem Spec.LikeStack.of_to {a b a' : Stack α} {xs ys : List α} (h : LikeStack a b)
    (t : To a xs a' ys) (hx : xs.length ≤ 64) (hy : ys.length ≤ 64) : LikeStack a' (holding b ys) := by
  refine ⟨t.rep.len, t.canary.trans h.canary, ?_⟩
  intro i hi
  simp only [Spec.holding, BitVec.toNat_ofNat, capacity] at hi ⊢
  split
  · next hlt =>
    have r := t.rep.read (k := ys.length - 1 - i.toNat) (by omega) (i := i) (by rw [t.rep.1]; omega)
    rw [r, List.getD_eq_getElem?_getD, List.getElem?_reverse hlt,
      List.getElem?_eq_getElem (by omega)]
    rfl
  · rw [t.quiet i (by omega) (by omega)]
    exact h.slots i (Or.inr (by simp only [capacity]; omega))

/-! ### Machines -/

theorem Spec.Like.refl (s : VM) : Like s s :=
  ⟨s.task.st.ip, s.task.st.wp, s.task.s, s.task.r, s.task.f, .refl _, .refl _, .refl _,
    (VM.setTask_task s).symm⟩

theorem Spec.Like.task {s t : VM} (h : Like s t) : ∃ ip wp ds rs fs,
    LikeStack ds t.task.s ∧ LikeStack rs t.task.r ∧ LikeStack fs t.task.f ∧
    s.task = { t.task with s := ds, r := rs, f := fs, st := { t.task.st with ip := ip, wp := wp } } := by
  obtain ⟨ip, wp, ds, rs, fs, h1, h2, h3, h4⟩ := h
  exact ⟨ip, wp, ds, rs, fs, h1, h2, h3, by rw [h4]; simp⟩

theorem Spec.Like.s {s t : VM} (h : Like s t) : LikeStack s.task.s t.task.s := by
  obtain ⟨_, _, _, _, _, h1, _, _, h4⟩ := h.task; rw [h4]; exact h1
theorem Spec.Like.r {s t : VM} (h : Like s t) : LikeStack s.task.r t.task.r := by
  obtain ⟨_, _, _, _, _, _, h2, _, h4⟩ := h.task; rw [h4]; exact h2
theorem Spec.Like.f {s t : VM} (h : Like s t) : LikeStack s.task.f t.task.f := by
  obtain ⟨_, _, _, _, _, _, _, h3, h4⟩ := h.task; rw [h4]; exact h3
theorem Spec.Like.data {s t : VM} (h : Like s t) : s.task.s.items = Spec.data t := h.s.items
theorem Spec.Like.ret {s t : VM} (h : Like s t) : s.task.r.items = Spec.ret t := h.r.items
theorem Spec.Like.floats {s t : VM} (h : Like s t) : s.task.f.items = Spec.floats t := h.f.items
theorem Spec.Like.ds {s t : VM} (h : Like s t) : s.ds = t.ds := by
  obtain ⟨_, _, _, _, _, _, _, _, h4⟩ := h; rw [h4]; rfl
theorem Spec.Like.wl {s t : VM} (h : Like s t) : s.wl = t.wl := by
  obtain ⟨_, _, _, _, _, _, _, _, h4⟩ := h; rw [h4]; rfl
theorem Spec.Like.cur {s t : VM} (h : Like s t) : s.cur = t.cur := by
  obtain ⟨_, _, _, _, _, _, _, _, h4⟩ := h; rw [h4]; rfl

theorem Spec.Alike.like {s t : VM} (h : Alike s t) : Like s t := by
  obtain ⟨ds, rs, fs, h1, h2, h3, h4⟩ := h
  exact ⟨t.task.st.ip, t.task.st.wp, ds, rs, fs, h1, h2, h3, h4⟩

/-- Changing the stacks, the instruction pointer and the word pointer. -/
theorem Spec.Like.update {s t : VM} (h : Like s t) {ds ds' rs rs' : Stack Cell} {fs fs' : Stack F64}
    (h1 : LikeStack ds ds') (h2 : LikeStack rs rs') (h3 : LikeStack fs fs') (ip wp : Nat) :
    Like (s.setTask { s.task with
        s := ds, r := rs, f := fs, st := { s.task.st with ip := ip, wp := wp } })
      (t.setTask { t.task with s := ds', r := rs', f := fs' }) := by
  obtain ⟨ip0, wp0, ds0, rs0, fs0, _, _, _, h4⟩ := h
  refine ⟨ip, wp, ds, rs, fs, by simpa using h1, by simpa using h2, by simpa using h3, ?_⟩
  rw [h4]; simp

/-- Moving the instruction pointer and the word pointer. -/
def VM.at (s : VM) (ip wp : Nat) : VM :=
  s.setTask { s.task with st := { s.task.st with ip := ip, wp := wp } }

@[simp] theorem VM.at_ds (s : VM) (ip wp : Nat) : (s.at ip wp).ds = s.ds := rfl
@[simp] theorem VM.at_wl (s : VM) (ip wp : Nat) : (s.at ip wp).wl = s.wl := rfl
@[simp] theorem VM.at_cur (s : VM) (ip wp : Nat) : (s.at ip wp).cur = s.cur := rfl
@[simp] theorem VM.at_task (s : VM) (ip wp : Nat) :
    (s.at ip wp).task = { s.task with st := { s.task.st with ip := ip, wp := wp } } := by
  simp [VM.at]

theorem Spec.Like.at {s t : VM} (h : Like s t) (ip wp : Nat) : Like (s.at ip wp) t := by
  have := h.update h.s h.r h.f ip wp
  rw [show t.setTask { t.task with s := t.task.s, r := t.task.r, f := t.task.f } = t from
    VM.setTask_task t] at this
  exact this

theorem Spec.Like.trans {s t u : VM} (h : Like s t) (k : Like t u) : Like s u := by
  obtain ⟨ip, wp, ds, rs, fs, h1, h2, h3, h4⟩ := h
  obtain ⟨ip', wp', ds', rs', fs', k1, k2, k3, k4⟩ := k
  refine ⟨ip, wp, ds, rs, fs, ?_, ?_, ?_, ?_⟩
  · refine h1.trans ?_; rw [k4]; simpa using k1
  · refine h2.trans ?_; rw [k4]; simpa using k2
  · refine h3.trans ?_; rw [k4]; simpa using k3
  · rw [h4, k4]; simp

theorem Spec.Like.symm {s t : VM} (h : Like s t) : Like t s := by
  have hs := h.s; have hr := h.r; have hf := h.f
  obtain ⟨ip, wp, ds, rs, fs, h1, h2, h3, h4⟩ := h
  refine ⟨t.task.st.ip, t.task.st.wp, t.task.s, t.task.r, t.task.f, hs.symm, hr.symm, hf.symm, ?_⟩
  rw [h4]
  simp only [VM.task_setTask, VM.setTask_setTask]
  exact (VM.setTask_task t).symm

end Verif
