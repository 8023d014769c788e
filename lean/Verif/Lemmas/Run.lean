import Verif.Lemmas.Definition
import Verif.Lemmas.Basic

/-!
# Calling a word from the input
-/

namespace Verif
open Spec Stack

theorem steps_run {cfg : Cfg} {depth : Nat} {s t : VM} (h : Steps cfg depth s t) :
    ∃ N, ∀ fuel, run cfg depth (fuel + N) s = run cfg depth fuel t := by
  induction h with
  | refl => exact ⟨0, fun _ => rfl⟩
  | @tail t u h1 h2 ih =>
    obtain ⟨N, ih⟩ := ih
    refine ⟨N + 1, fun fuel => ?_⟩
    rw [show fuel + (N + 1) = (fuel + 1) + N by omega, ih (fuel + 1), run]
    rw [M.bind_ok h2]
    simp

theorem Spec.Calm.holding {α : Type} {st : Stack α} (h : Calm st) {l : List α} (hl : l.length ≤ capacity) :
    Calm (Spec.holding st l) := by
  simp only [capacity] at hl
  refine ⟨by rw [holding_items _ (by omega)]; exact hl, ?_, ?_⟩
  · simp only [Spec.holding]
    rw [if_neg (by simp; omega)]; exact h.over
  · simp only [Spec.holding]
    rw [if_neg (by simp; omega)]; exact h.under

theorem Spec.LikeStack.calm {α : Type} {a b : Stack α} (h : LikeStack a b) (hb : Calm b) : Calm a :=
  ⟨by rw [h.items]; exact hb.depth, by rw [h.slots _ (.inr (by decide)), h.canary]; exact hb.over,
    by rw [h.slots _ (.inr (by decide)), h.canary]; exact hb.under⟩

/-- `t` is `s` with other calm stacks and another memory content. -/
def Tidy (s t : VM) : Prop := ∃ a b c m, Calm a ∧ Calm b ∧ Calm c ∧
  t = { s.setTask { s.task with s := a, r := b, f := c } with ds := { s.ds with bytes := m } }

section
variable {s t : VM}

theorem Tidy.refl (h1 : Calm s.task.s) (h2 : Calm s.task.r) (h3 : Calm s.task.f) : Tidy s s :=
  ⟨_, _, _, s.ds.bytes, h1, h2, h3, by
    have : s.setTask { s.task with s := s.task.s, r := s.task.r, f := s.task.f } = s := VM.setTask_task s
    rw [this]⟩

theorem Tidy.task (h : Tidy s t) : ∃ a b c, t.task = { s.task with s := a, r := b, f := c } := by
  obtain ⟨a, b, c, m, -, -, -, rfl⟩ := h
  exact ⟨a, b, c, VM.task_setTask s _⟩

theorem Tidy.update (h : Tidy s t) {a b : Stack Cell} {c : Stack F64} (ha : Calm a) (hb : Calm b) (hc : Calm c) :
    Tidy s (t.setTask { t.task with s := a, r := b, f := c }) := by
  obtain ⟨a', b', c', m, -, -, -, rfl⟩ := h
  refine ⟨a, b, c, m, ha, hb, hc, ?_⟩
  have e : ({ s.setTask { s.task with s := a', r := b', f := c' } with ds := { s.ds with bytes := m } } : VM).task =
    { s.task with s := a', r := b', f := c' } := VM.task_setTask s _
  rw [e]
  have : ∀ T : Task, ({ s.setTask { s.task with s := a', r := b', f := c' } with ds := { s.ds with bytes := m } } : VM).setTask T =
    { (s.setTask { s.task with s := a', r := b', f := c' }).setTask T with ds := { s.ds with bytes := m } } := fun _ => rfl
  rw [this, VM.setTask_setTask]

theorem Tidy.calm (h : Tidy s t) : Calm t.task.s ∧ Calm t.task.r ∧ Calm t.task.f := by
  obtain ⟨a, b, c, m, ha, hb, hc, rfl⟩ := h
  have e : ({ s.setTask { s.task with s := a, r := b, f := c } with ds := { s.ds with bytes := m } } : VM).task =
    { s.task with s := a, r := b, f := c } := VM.task_setTask s _
  rw [e]; exact ⟨ha, hb, hc⟩

theorem Tidy.setData (h : Tidy s t) {l : List Cell} (hl : l.length ≤ capacity) : Tidy s (setData t l) :=
  h.update (h.calm.1.holding hl) h.calm.2.1 h.calm.2.2

theorem Tidy.setRet (h : Tidy s t) {l : List Cell} (hl : l.length ≤ capacity) : Tidy s (setRet t l) :=
  h.update h.calm.1 (h.calm.2.1.holding hl) h.calm.2.2

theorem Tidy.setFloats (h : Tidy s t) {l : List F64} (hl : l.length ≤ capacity) : Tidy s (setFloats t l) :=
  h.update h.calm.1 h.calm.2.1 (h.calm.2.2.holding hl)

theorem Tidy.data (h : Tidy s t) : (data t).length ≤ capacity := h.calm.1.depth
theorem Tidy.ret (h : Tidy s t) : (ret t).length ≤ capacity := h.calm.2.1.depth

theorem setData_ret (t : VM) (l : List Cell) : Spec.ret (Spec.setData t l) = Spec.ret t := by
  simp [Spec.ret, Spec.setData]

/-- Programs keep the machine tidy. -/
theorem sem_tidy {W : Nat → VM → VM → Prop} (hW : ∀ i u v, Tidy s u → W i u v → Tidy s v) {j : Job} {u v : VM} {o : Out}
    (h : Sem W j u o v) : Tidy s u → Tidy s v := by
  have fit : ∀ {u : VM} {l k : List Cell}, Tidy s u → Spec.data u = l → k.length ≤ l.length → k.length ≤ capacity := by
    intro u l k h1 h2 h3
    have := h1.data; rw [h2] at this; omega
  have fitr : ∀ {u : VM} {l k : List Cell}, Tidy s u → Spec.ret u = l → k.length ≤ l.length → k.length ≤ capacity := by
    intro u l k h1 h2 h3
    have := h1.ret; rw [h2] at this; omega
  induction h with
  | skip => exact id
  | seq _ _ ih1 ih2 => exact fun hu => ih2 (ih1 hu)
  | seqStop _ _ ih => exact ih
  | word h => exact fun hu => hW _ _ _ hu h
  | call => exact id
  | lit h => exact fun hu => hu.setData (by simp [capacity] at *; omega)
  | flt h => exact fun hu => hu.setFloats (by simp [capacity] at *; omega)
  | str h => exact fun hu => hu.setData (by simp [capacity] at *; omega)
  | exit => exact id
  | leave => exact id
  | ifTrue h1 _ _ ih => exact fun hu => ih (hu.setData (fit hu h1 (by simp)))
  | ifFalse h1 => exact fun hu => hu.setData (fit hu h1 (by simp))
  | elseTrue h1 _ _ ih => exact fun hu => ih (hu.setData (fit hu h1 (by simp)))
  | elseFalse h1 _ ih => exact fun hu => ih (hu.setData (fit hu h1 (by simp)))
  | untilEnd _ h1 _ ih => exact fun hu => (ih hu).setData (fit (ih hu) h1 (by simp))
  | untilNext _ h1 _ ih ih2 => exact fun hu => ih2 ((ih hu).setData (fit (ih hu) h1 (by simp)))
  | untilStop _ _ ih => exact ih
  | againNext _ _ ih ih2 => exact fun hu => ih2 (ih hu)
  | againStop _ _ ih => exact ih
  | whileEnd _ h1 ih => exact fun hu => (ih hu).setData (fit (ih hu) h1 (by simp))
  | whileNext _ h1 _ _ _ ih ih2 ih3 => exact fun hu => ih3 (ih2 ((ih hu).setData (fit (ih hu) h1 (by simp))))
  | whileStop _ _ ih => exact ih
  | whileStop2 _ h1 _ _ _ ih ih2 => exact fun hu => ih2 ((ih hu).setData (fit (ih hu) h1 (by simp)))
  | loopNone h1 => exact fun hu => hu.setData (fit hu h1 (by simp; omega))
  | loop h1 _ h3 _ ih =>
    exact fun hu => ih ((hu.setData (fit hu h1 (by simp; omega))).setRet (by simp [params, capacity] at *; omega))
  | loopEnd _ h1 _ ih => exact fun hu => (ih hu).setRet (fitr (ih hu) h1 (by simp; omega))
  | loopNext _ h1 _ _ ih ih2 => exact fun hu => ih2 ((ih hu).setRet (fitr (ih hu) h1 (by simp [params])))
  | plusEnd _ h1 h2 _ ih =>
    exact fun hu => ((ih hu).setData (fit (ih hu) h2 (by simp))).setRet (fitr (ih hu) h1 (by simp; omega))
  | plusNext _ h1 h2 _ _ ih ih2 =>
    exact fun hu => ih2 (((ih hu).setData (fit (ih hu) h2 (by simp))).setRet (fitr (ih hu) h1 (by simp [params])))
  | loopLeave _ h1 h2 _ ih => exact fun hu => (ih hu).setRet h2
  | loopStop _ _ _ ih => exact ih
  | case _ ih => exact ih
  | default _ h1 ih => exact fun hu => (ih hu).setData (fit (ih hu) h1 (by simp))
  | defaultStop _ _ ih => exact ih
  | armMatch _ h1 _ _ ih ih2 => exact fun hu => ih2 ((ih hu).setData (fit (ih hu) h1 (by simp; omega)))
  | armNext _ h1 _ _ _ ih ih2 => exact fun hu => ih2 ((ih hu).setData (fit (ih hu) h1 (by simp)))
  | armStop _ _ ih => exact ih

theorem basic_tidy {wl : Wordlist} {lo hi i : Nat} {u v : VM} (hu : Tidy s u) (h : Basic wl lo hi i u v) : Tidy s v := by
  have fit : ∀ {u : VM} {l k : List Cell}, Tidy s u → Spec.data u = l → k.length ≤ l.length → k.length ≤ capacity := by
    intro u l k h1 h2 h3
    have := h1.data; rw [h2] at this; omega
  have fitr : ∀ {u : VM} {l k : List Cell}, Tidy s u → Spec.ret u = l → k.length ≤ l.length → k.length ≤ capacity := by
    intro u l k h1 h2 h3
    have := h1.ret; rw [h2] at this; omega
  cases h with
  | effect _ _ _ _ _ h => exact hu.setData h
  | index _ _ _ h => exact hu.setData (by simp [capacity] at *; omega)
  | outer _ _ _ h => exact hu.setData (by simp [capacity] at *; omega)
  | toR _ _ h1 h2 => exact (hu.setData (fit hu h1 (by simp))).setRet (by simp [capacity] at *; omega)
  | rFrom _ _ h1 h2 => exact (hu.setData (by simp [capacity] at *; omega)).setRet (fitr hu h1 (by simp))
  | rFetch _ _ _ h => exact hu.setData (by simp [capacity] at *; omega)
  | unloop _ _ h => exact hu.setRet (fitr hu h (by simp; omega))
  | var _ _ h => exact hu.setData (by simp [capacity] at *; omega)
  | const _ _ _ _ h => exact hu.setData (by simp [capacity] at *; omega)
  | fetch _ _ _ h => exact hu.setData (by simp [capacity] at *; omega)
  | @store w a x l _ _ _ h =>
    have h1 := hu.setData (l := l) (fit hu h (by simp; omega))
    obtain ⟨p, q, r, m, e1, e2, e3, e4⟩ := h1
    obtain ⟨p', q', r', m', -, -, -, e8⟩ := hu
    refine ⟨p, q, r, (u.ds.setCell a.toNat x).bytes, e1, e2, e3, ?_⟩
    rw [e4]
    have : u.ds = { s.ds with bytes := m' } := by rw [e8]
    have h2 : u.ds.setCell a.toNat x = { s.ds with bytes := (u.ds.setCell a.toNat x).bytes } := by
      rw [this]; rfl
    rw [← h2]

theorem calls_tidy {W : Nat → VM → VM → Prop} {D : Nat → Option Stmt} (hW : ∀ i u v, Tidy s u → W i u v → Tidy s v) :
    ∀ (m i : Nat) (u v : VM), Tidy s u → Calls D W m i u v → Tidy s v := by
  intro m
  induction m with
  | zero => exact hW
  | succ m ih =>
    intro i u v hu h
    rcases h with h | ⟨p, h1, h2, h3⟩
    · exact ih i u v hu h
    · obtain ⟨w, l, h4, h5, h7⟩ := h3 0
      have h6 := sem_tidy ih h4 (hu.setRet (by simp [capacity] at *; omega))
      have h8 : Tidy s (Spec.setRet w l) := by
        refine h6.setRet ?_
        have := h6.ret; rw [h5] at this; simp at this; omega
      obtain ⟨ds, rs, fs, k1, k2, k3, rfl⟩ := h7
      exact h8.update (k1.calm h8.calm.1) (k2.calm h8.calm.2.1) (k3.calm h8.calm.2.2)

end

/-- Typing the name of a word runs it. -/
theorem call_runs {cfg : Cfg} {depth lv lo : Nat} {s : VM} (hL : Listening s) (hC : Compiler s.refs lv s.wl)
    (hlo : s.ds.start ≤ lo) {D : Nat → Option Stmt} (hD : Defined s.refs lv s.wl lo s.ds.here s.ds D)
    {pre text tok rest : List Char} (hin : Reading s.task pre text) (hr : Reads text tok rest) {i : Nat} {w : Word}
    (hn : Newest s (utf8 tok) (some i)) (hw : s.wl.words[i]? = some w) (hco : w.isCompileOnly = false)
    {m n : Nat} {t : VM} (hlen : n + byteLen rest = byteLen (pre ++ text))
    (hc : Calls D (Basic s.wl lo s.ds.here) m i (received s tok n) t) :
    ∃ t1 pre', Leads cfg (depth + 1) s t1 ∧ Like t1 t ∧ Reading t1.task pre' rest ∧ pre' ++ rest = pre ++ text ∧
      (Dict t → Listening t1) := by
  obtain ⟨bs, rfl, hb, hne, hnb, he⟩ := hr
  obtain ⟨hin1, hin2, hin3⟩ := hin
  obtain ⟨tk0, htk⟩ := Option.isSome_iff_exists.1 hL.token
  have hself : s.seen (byteLen pre) tk0 s.task.st.wp = s := by rw [← hin2]; exact s.seen_self tk0 htk
  have hp1 := seen_parseWord (x := (s.ds, s.task.c)) (tk := tk0) (wp := s.task.st.wp) hin1 hin3 hb hne hnb he
  have ecode : ∀ n tk wp, (s.seen n tk wp).code (s.ds, s.task.c) = s.seen n tk wp := by
    intro n tk wp
    have := (s.seen n tk wp).code_self
    rw [VM.seen_task] at this
    exact this
  rw [ecode, ecode, hself] at hp1
  have en : byteLen (pre ++ (bs ++ tok)) = n := by
    have : byteLen (pre ++ (bs ++ (tok ++ rest))) = byteLen (pre ++ (bs ++ tok)) + byteLen rest := by
      rw [← byteLen_append]; simp
    omega
  have ers : s.seen (byteLen (pre ++ (bs ++ tok))) tok s.task.st.wp = received s tok n := by rw [en]; rfl
  rw [ers] at hp1
  generalize hs1 : received s tok n = s1 at *
  have htask : s1.task = { s.task with st := { s.task.st with sourceIndex := n } } := by
    rw [← hs1]; exact VM.task_setTask s _
  have hds : s1.ds = s.ds := by rw [← hs1]; rfl
  have hwl : s1.wl = s.wl := by rw [← hs1]; rfl
  have hcur : s1.cur = s.cur := by rw [← hs1]; rfl
  have htkn : s1.tkn = some tok := by rw [← hs1]; rfl
  have herr : s1.lastError = none := by rw [← hs1]; exact hL.noError
  have hidle := hL.idle
  have hpc : pc s1 < 2 ^ 64 := by
    have := hidle.2
    simp only [pc, htask] at this ⊢; omega
  have g : Region s.ds lo s.ds.here := by
    refine ⟨hlo, ?_, hL.space.small⟩
    have := hL.space.inside
    simp only [DataSpace.here]; omega
  have hLoad : Loaded s.refs lv s.wl lo s.ds.here s.cur s.ds s1 :=
    ⟨hcur, by rw [hds], by rw [hds], fun _ _ _ => by rw [hds], by rw [hwl]; exact hC.runtime,
      by rw [hwl]; exact fun _ w h => ⟨w, h, rfl, rfl⟩⟩
  obtain ⟨hact, hLoad'⟩ := calls_act (cfg := cfg) (n := depth) g hD (fun i u v h1 h2 => basic_acts g h1 h2) m i s1 t hLoad hc
  obtain ⟨s2, t1, a1, a1e, a2, a3, a4⟩ := hact s1 (.refl _) hpc
  have htidy : Tidy s1 t := calls_tidy (fun i u v h1 h2 => basic_tidy h1 h2) m i s1 t
    (.refl (by rw [htask]; exact hL.data) (by rw [htask]; exact hL.ret) (by rw [htask]; exact hL.floats)) hc
  -- the token is interpreted
  have hev : evalToken (ctx cfg (depth + 1)) s1 = .ok ((), s2) := by
    obtain ⟨r, f1, f2⟩ := hL.dict.find ⟨hL.space.small, hL.space.inside⟩ (ctx cfg (depth + 1)) (utf8 tok)
    obtain rfl := Newest.unique f2 hn
    have f3 := find_congr (s := s) (s' := s1.setTkn none) hwl.symm hds.symm f1
    have hic : s1.task.st.isCompiling = false := by rw [htask]; exact hL.interpreting
    simp only [evalToken, M.bind_apply, getSt_apply, hic, Bool.false_eq_true, if_false]
    unfold interpretToken
    rw [M.bind_ok (takeToken_run (t := tok) htkn), M.bind_ok f3]
    have e : (s1.setTkn none).setTkn (some tok) = s1 := by rw [← htkn]; rfl
    simp only [M.bind_apply, putToken_run, e]
    rw [wordAt_ok (s := s1) (w := w) (by rw [hwl]; exact hw)]
    simp only [hco, Bool.false_eq_true, if_false, ctx]
    exact a1
  obtain ⟨N, hrun⟩ := steps_run a2
  obtain ⟨A, B, C', e1⟩ := htidy.task
  obtain ⟨ip, wp, ds, rs, fs, l1, l2, l3, l4⟩ := a3.task
  rw [e1, htask] at l4
  have t1ds : t1.ds = t.ds := a3.ds
  have htds : ∃ mm, t.ds = { s.ds with bytes := mm } := by
    obtain ⟨_, _, _, mm, -, -, -, e⟩ := htidy
    exact ⟨mm, by rw [e, ← hds]⟩
  obtain ⟨mm, htds⟩ := htds
  have hidle1 : Idle t1 := by
    rw [Idle, a4, t1ds, htds]
    simp only [Idle, pc, htask] at hidle ⊢
    exact hidle
  have herr2 : t1.lastError = none := by
    obtain ⟨_, _, _, _, _, -, -, -, e⟩ := a3
    obtain ⟨_, _, _, _, -, -, -, e'⟩ := htidy
    rw [e]; show t.lastError = none
    rw [e']; exact herr
  have hk : Calm t1.task.s ∧ Calm t1.task.r ∧ Calm t1.task.f :=
    ⟨a3.s.calm htidy.calm.1, a3.r.calm htidy.calm.2.1, a3.f.calm htidy.calm.2.2⟩
  have hkc : Calm t1.task.c := by rw [l4]; exact hL.control
  have htkn1 : t1.tkn = some tok := by
    obtain ⟨_, _, _, _, _, -, -, -, e⟩ := a3
    obtain ⟨_, _, _, _, -, -, -, e'⟩ := htidy
    rw [e]; show t.tkn = _
    rw [e']; exact htkn
  have hfw : t1.forward = [] := by
    obtain ⟨_, _, _, _, _, -, -, -, e⟩ := a3
    obtain ⟨_, _, _, _, -, -, -, e'⟩ := htidy
    rw [e]; show t.forward = _
    rw [e']; show s1.forward = _
    rw [← hs1]; exact hL.labels
  have herrs2 : s2.lastError = none := a1e.trans herr
  refine ⟨t1, pre ++ (bs ++ tok), ?_, a3, ?_, by simp, ?_⟩
  · refine ⟨N + 2, N + 1, fun fuel => ?_⟩
    have hne' : ¬ s1.tkn = some [] := by rw [htkn]; simp [hne]
    rw [show fuel + (N + 2) = (fuel + (N + 1)) + 1 by omega]
    conv => lhs; unfold evaluateInput
    simp only [M.bind_apply, hp1, getVM_apply]
    rw [if_neg hne']
    have hr2 : run cfg (depth + 1) (fuel + (N + 1)) s2 = .ok ((), t1) := by
      rw [show fuel + (N + 1) = fuel + 1 + N by omega, hrun, idle_run hidle1]
    simp only [M.bind_apply, hev, getError_apply, herrs2, Option.isSome_none, Bool.false_eq_true, if_false, hr2,
      calm_check hk.1 hk.2.1 hkc hk.2.2, herr2]
  · refine ⟨?_, ?_, by simpa using hin3⟩
    · rw [l4]
      have : (pre ++ (bs ++ tok)) ++ rest = pre ++ (bs ++ (tok ++ rest)) := by simp
      rw [this]; exact hin1
    · rw [l4, en]
  · intro hdict
    refine ⟨by rw [l4]; exact hL.interpreting, herr2, by rw [htkn1]; rfl, hidle1, ?_, ?_, hk.1, hk.2.1, hk.2.2, hkc,
      by rw [l4]; exact hL.balanced, hfw⟩
    · exact hdict.frame (l := 0) (hdict.intact (by rw [t1ds]; exact Nat.le_refl _) fun x _ => by rw [t1ds]) (by rw [t1ds])
        (by rw [a3.wl]) (by rw [a3.wl]) (by rw [a3.wl]; exact .refl _ _ _)
    · rw [t1ds, htds]; exact ⟨hL.space.pos, hL.space.aligned, hL.space.small, hL.space.vars, hL.space.inside⟩

end Verif
