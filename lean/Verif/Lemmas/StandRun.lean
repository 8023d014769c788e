import Verif.Lemmas.StandWords

/-!
# Interpreting a word of the text
-/

namespace Verif
open Spec Stack

/-- Straight code lies in memory, and below `top`. -/
def Laid (R : Refs) (top : Nat) (d : DataSpace) : List Item → Nat → Prop
  | [], _ => True
  | .word i :: is, a => a + 8 ≤ top ∧ CellIs d a i ∧ Laid R top d is (a + 8)
  | .lit v :: is, a => a + 16 ≤ top ∧ CellIs d a R.lit ∧ d.cellAt (a + 8) = v ∧ Laid R top d is (a + 16)
  | _ :: _, _ => False

section
variable {G : Ground} {l l' l1 : Outline} {s t : VM} {cfg : Cfg} {depth : Nat}

theorem straight_laid {R : Refs} {lv top : Nat} {d : DataSpace} : ∀ (p : Stmt) {a : Nat} {is : List Item}, straight p = true →
    (p.place a).At R lv d a → (p.place a).next a = p.next a ∧
      (p.next a ≤ top → Laid R top d is (p.next a) → Laid R top d (p.items R lv ++ is) a)
  | .skip, a, is, _, _ => ⟨rfl, fun _ h => h⟩
  | .word i, a, is, _, h => ⟨rfl, fun k h' => ⟨k, h, h'⟩⟩
  | .lit v, a, is, _, h => ⟨rfl, fun k h' => ⟨k, h.1, h.2, h'⟩⟩
  | .exit, a, is, _, h => ⟨rfl, fun k h' => ⟨k, h, h'⟩⟩
  | .seq p q, a, is, hs, h => by
    simp only [straight, Bool.and_eq_true] at hs
    simp only [Stmt.place, Stmt.At] at h
    have i1 := fun is => straight_laid p (is := is) (top := top) hs.1 h.1
    have e := (i1 []).1
    have i2 := straight_laid q (is := is) (top := top) hs.2 (e ▸ h.2)
    refine ⟨?_, fun k h' => ?_⟩
    · simp only [Stmt.place, Stmt.next]
      rw [e]; exact i2.1
    · simp only [Stmt.next] at k h'
      have := q.le_next (p.next a)
      simp only [Stmt.items, List.append_assoc]
      exact (i1 _).2 (by omega) (i2.2 k h')

theorem primStep_defs {i : Nat} {p : Prim} (h : primStep i p l = some l') : l'.defs = l.defs := by
  have ht : ∀ {l l' : Outline} {t}, takeTok l = some (t, l') → l'.defs = l.defs := by
    intro l l' t h
    obtain ⟨-, -, rfl⟩ := takeTok_some h
    rfl
  have hf : ∀ {l l' : Outline}, fit l = some l' → l'.defs = l.defs := by
    intro l l' h
    rw [(fit_some h).2]
  have hc : ∀ {v} {l l' : Outline}, addCell v l = some l' → l'.defs = l.defs := by
    intro v l l' h
    have := hf h
    exact this
  have hp : ∀ {v} {l l' : Outline}, pushVal v l = some l' → l'.defs = l.defs := by
    intro v l l' h
    unfold pushVal at h
    split at h
    · cases h; rfl
    · cases h
  have ha : ∀ {f} {l l' : Outline}, alterRow f l = some l' → l'.defs = l.defs := by
    intro f l l' h
    obtain ⟨_, _, _, _, _, rfl⟩ := alterRow_some h
    rfl
  unfold primStep at h
  split at h
  · simp only [Option.bind_eq_bind, Option.bind_eq_some_iff] at h
    obtain ⟨⟨tok, l1⟩, h1, h2⟩ := h
    have a := hf (anew_some h2).2; have b := ht h1; exact a.trans b
  · split at h
    case h_2 => cases h
    simp only [Option.bind_eq_bind, Option.bind_eq_some_iff] at h
    obtain ⟨⟨tok, l1⟩, h1, h2⟩ := h
    have a := hc (anew_some h2).2; have b := ht h1; exact a.trans b
  · split at h
    case h_2 => cases h
    have a := hc h; exact a
  · split at h
    case h_2 => cases h
    have a := hf h; exact a
  · split at h
    case h_2 => cases h
    split at h
    · cases h; rfl
    · cases h
  · simp only [Option.bind_eq_bind, Option.bind_eq_some_iff] at h
    obtain ⟨⟨tok, l1⟩, h1, k, h2, h3⟩ := h
    exact (hp h3).trans (ht h1)
  · split at h
    case h_2 => cases h
    split at h
    · cases h; rfl
    · cases h
  · split at h
    case h_2 => cases h
    cases h; rfl
  · split at h
    case h_2 => cases h
    simp only [Option.bind_eq_bind, Option.bind_eq_some_iff] at h
    obtain ⟨r, h1, h2⟩ := h
    cases h2; rfl
  · exact ha h
  · exact ha h
  · split at h
    · cases h; rfl
    · cases h
  · simp only [Option.bind_eq_bind, Option.bind_eq_some_iff] at h
    obtain ⟨r, h1, h2⟩ := h
    exact hp h2
  · split at h
    case h_2 => cases h
    split at h
    case isFalse => cases h
    simp only [Option.bind_eq_bind, Option.bind_eq_some_iff] at h
    obtain ⟨l1, h1, h2⟩ := h
    have a := ha h2; have b := hf h1; exact a.trans b
  · cases h

/-- Another place in the code, and another return stack. -/
theorem Stand.go (h : Stand G l s) (ip wp : Nat) {r : Stack Cell} (hr : Calm r) :
    Stand G l (s.setTask { s.task with st := { s.task.st with ip := ip, wp := wp }, r := r }) := by
  refine h.tweak (t := s.setTask { s.task with st := { s.task.st with ip := ip, wp := wp }, r := r }) (st := l.stack) (text := l.text)
    rfl rfl rfl h.noError h.token rfl ?_ ?_ ?_ ?_ ?_ ?_ h.ascii ?_
    ⟨h.steady.cur, h.steady.output, by rw [VM.task_setTask]; exact h.steady.source, h.steady.stdout, h.steady.calls,
      by rw [VM.task_setTask]; exact h.steady.line⟩ <;> rw [VM.task_setTask]
  · exact hr
  · exact h.interpreting
  · exact h.data
  · exact h.items
  · obtain ⟨pre, h1, h2, h3⟩ := h.reading
    exact ⟨pre, h1, h2, h3⟩

variable (g : G.Ok)
include g

/-- Running straight code up to its end. -/
theorem items_run {D : List Def} {ip0 : Nat} (h0 : ip0 < 2 ^ 64) {rs : List Cell} : ∀ (is : List Item) {l l' : Outline} {u : VM} {a : Nat}, Stand G l u → l.defs = D →
    pc u = a → G.start ≤ a → (∀ l s, Stand G l s → l.defs = D → Laid G.refs (G.start + outlineRoom) s.ds is a) →
    u.task.r.items = toCell ip0 :: rs → runItems is l = some l' →
    ∃ n u', (∀ fuel, run cfg (depth + 2) (fuel + n) u = run cfg (depth + 2) fuel u') ∧ Stand G l' u' ∧ pc u' = ip0 ∧
      u'.task.r.items = rs
  | [], _, _, _, _, _, _, _, _, _, _, hr => by cases hr
  | .lit v :: is, l, l', u, a, hS, hD, hpc, ha, hc, hi, hr => by
    simp only [runItems, Option.bind_eq_bind, Option.bind_eq_some_iff] at hr
    obtain ⟨l1, r1, r2⟩ := hr
    obtain ⟨c1, c2, c3, -⟩ := hc l u hS hD
    have hroom := g.room
    have hsm := g.small
    have hl := hS.limit
    obtain ⟨w, w1, w2⟩ := (hS.compiler g).runtime (u.refs.lit, .lit) (by simp [roles])
    have hst := step_cell (cfg := cfg) (n := depth + 1) hpc (by rw [hS.start]; exact ha) (by omega) (by omega) (by rw [← hS.refs] at c2; exact c2) w1
    have hS1 := hS.go (a + 16) u.refs.lit hS.ret
    obtain ⟨p1, p2⟩ := hS1.push r1
    have hv : (Val.num v.toNat).cell G.start = v := by simp only [Val.cell]; simp
    rw [hv] at p1 p2
    generalize hu1 : u.setTask { u.task with st := { u.task.st with ip := a + 16, wp := u.refs.lit }, r := u.task.r } = u1 at *
    have hut : u1.task = { u.task with st := { u.task.st with ip := a + 16, wp := u.refs.lit } } := by rw [← hu1]; exact VM.task_setTask _ _
    have e : step cfg (depth + 2) u = .ok (true, Spec.withData u1 (u1.task.s.push v)) := by
      have hg : u.ds.getCell (a + 8) = .ok v := by
        rw [DataSpace.getCell, if_pos ⟨by rw [hS.start]; omega, by omega⟩, c3]
      have hu : usizeMod = 2 ^ 64 := rfl
      rw [hst, w2]
      show (lit _ >>= fun _ => pure true) _ = _
      simp only [lit, M.bind_apply, getSt_apply, VM.at, VM.task_setTask]
      rw [dsRd_ok (by exact hg)]
      simp only [sPush_apply, ipAdd8, M.bind_apply, getSt_apply, VM.task_setTask,
        VM.setTask_setTask, uadd_ok (show a + 8 + 8 < usizeMod by omega), liftE_ok, modSt_apply, M.pure_apply]
      rw [hut]
      simp only [← hu1, Spec.withData, VM.setTask_setTask, VM.task_setTask, Nat.add_assoc, Nat.reduceAdd]
    have hd : l1.defs = l.defs := by
      unfold pushVal at r1
      split at r1
      · cases r1; rfl
      · cases r1
    obtain ⟨n, u', q1, q2, q3, q4⟩ := items_run h0 is p2 (hd.trans hD) (a := a + 16) (by simp only [pc, withData_task, hut]) (by omega)
      (fun l s h1 h2 => (hc l s h1 h2).2.2.2) (by simp only [withData_task, hut]; exact hi) r2
    refine ⟨n + 1, u', fun fuel => ?_, q2, q3, q4⟩
    rw [← Nat.add_assoc, run, M.bind_ok e]
    exact q1 fuel
  | .word i :: is, l, l', u, a, hS, hD, hpc, ha, hc, hi, hr => by
    simp only [runItems, Option.bind_eq_bind, Option.bind_eq_some_iff] at hr
    obtain ⟨r, r1, r2⟩ := hr
    obtain ⟨c1, c2, -⟩ := hc l u hS hD
    have hroom := g.room
    have hsm := g.small
    have hl := hS.limit
    obtain ⟨w, w1, w2, -⟩ := hS.row r1
    have hst := step_cell (cfg := cfg) (n := depth + 1) hpc (by rw [hS.start]; exact ha) (by omega) (by omega) c2 w1
    rw [w2.action] at hst
    split at r2
    · rename_i hex
      cases r2
      obtain ⟨p1, p2, p3⟩ := calm_pop hS.ret hi
      have hS1 := hS.go ip0 i p1
      have e : step cfg (depth + 2) u = .ok (true, u.setTask { u.task with st := { u.task.st with ip := ip0, wp := i }, r := u.task.r.pop.2 }) := by
        rw [hst, hex]
        show (exit >>= fun _ => pure true) _ = _
        simp only [exit, M.bind_apply, rPop_apply, VM.at, setIp, modSt_apply, VM.task_setTask, VM.setTask_setTask, M.pure_apply, p2]
        rw [toNat_toCell h0]
      refine ⟨1, _, fun fuel => ?_, hS1, by simp only [pc, VM.task_setTask], by simp only [VM.task_setTask]; exact p3⟩
      rw [run, M.bind_ok e]
      rfl
    · simp only [Option.bind_eq_some_iff] at r2
      obtain ⟨l1, r2, r3⟩ := r2
      have hS1 := hS.go (a + 8) i hS.ret
      have hut : (u.at (a + 8) i).task = { u.task with st := { u.task.st with ip := a + 8, wp := i } } := by rw [VM.at, VM.task_setTask]
      obtain ⟨t, t1, t2, t3, t4⟩ := prim_sound (c := ⟨cfg, execWord cfg (depth + 1)⟩) g (s := u.at (a + 8) i) hS1 (i := i) (by rw [hut])
        (by rw [hut]; show a + 8 + 8 < _; omega) r2
      obtain ⟨n, u', q1, q2, q3, q4⟩ := items_run h0 is t2 ((primStep_defs r2).trans hD) (a := a + 8) (by simp only [pc, t3, hut]) (by omega)
        (fun l s h1 h2 => (hc l s h1 h2).2.2) (by rw [t4, hut]; exact hi) r3
      refine ⟨n + 1, u', fun fuel => ?_, q2, q3, q4⟩
      have e : step cfg (depth + 2) u = .ok (true, t) := by rw [hst, M.bind_ok t1]; rfl
      rw [← Nat.add_assoc, run, M.bind_ok e]
      exact q1 fuel
  | .flt _ :: _, _, _, _, _, hS, hD, _, _, hc, _, _ => (hc _ _ hS hD).elim
  | .str _ :: _, _, _, _, _, hS, hD, _, _, hc, _, _ => (hc _ _ hS hD).elim
  | .imm _ :: _, _, _, _, _, hS, hD, _, _, hc, _, _ => (hc _ _ hS hD).elim

omit g in
/-- One turn of the interpreter that runs code. -/
theorem turn_run {s s1 s2 s3 : VM} {t : List Char} (h1 : parseWord s = .ok ((), s1))
    (ht : s1.tkn = some t) (hne : t ≠ []) (h2 : evalToken (ctx cfg depth) s1 = .ok ((), s2))
    (he : s2.lastError = none) {n : Nat} (hr : ∀ fuel, run cfg depth (fuel + n) s2 = run cfg depth fuel s3)
    (he' : s3.lastError = none) (hi : Idle s3) (c1 : Calm s3.task.s) (c2 : Calm s3.task.r) (c3 : Calm s3.task.c)
    (c4 : Calm s3.task.f) : Leads cfg depth s s3 := by
  refine ⟨n + 2, n + 1, fun fuel => ?_⟩
  have hne' : ¬ s1.tkn = some [] := by rw [ht]; simp [hne]
  have hrun : run cfg depth (fuel + n + 1) s2 = .ok ((), s3) := by
    rw [Nat.add_right_comm, hr, idle_run hi]
  conv => lhs; rw [← Nat.add_assoc]; unfold evaluateInput
  simp only [M.bind_apply, h1, getVM_apply]
  rw [if_neg hne']
  simp only [M.bind_apply, h2, getError_apply, he, he', Option.isSome_none, Bool.false_eq_true, if_false, hrun,
    calm_check c1 c2 c3 c4]
  rfl

/-- Nothing runs, and the return stack has room. -/
def Waits (s : VM) : Prop := Idle s ∧ (ret s).length = 0

omit g in
theorem Waits.keep (h : Waits s) (hs : Stand G l s) (ht : Stand G l' t) (e1 : pc t = pc s) (e2 : (ret t).length = (ret s).length) : Waits t := by
  refine ⟨?_, by rw [e2]; exact h.2⟩
  have := h.1
  simp only [Idle, e1, ht.start, ht.limit, hs.start, hs.limit] at this ⊢
  exact this

/-- A word is interpreted. -/
theorem word_turn (h : Stand G l s) (hW : Waits s) {tok : List Nat} (ht : takeTok l = some (tok, l1)) {i : Nat}
    (hi : lookup (keyOf tok 0) l.rows = some i) {r : Row} (hr : rowAt i l.rows = some r) (hco : r.co = false)
    (hs : (r.action = .core .nest ∧ ∃ d, defAt i l.defs = some d ∧ straight d.prog = true ∧
        runItems (d.prog.items G.refs G.lv ++ [.word G.refs.exit]) l1 = some l') ∨ primStep i r.action l1 = some l') :
    ∃ s', Leads cfg (depth + 2) s s' ∧ Stand G l' s' ∧ Waits s' := by
  obtain ⟨pre, bs, n1, n2, n3, n4, n5, n6⟩ := h.next ht
  have hS := h.took n3 n6
  rw [← n5] at hS
  obtain ⟨w, w1, w2, -⟩ := h.row hr
  have hn := h.name n2
  rw [hi] at hn
  have hT : (took s pre bs (spelt tok)).task = atPosition s.task (byteLen (pre ++ bs ++ spelt tok)) := took_task s pre bs (spelt tok)
  have hip : s.task.st.ip + 8 < 2 ^ 64 := hW.1.2
  have hev : evalToken (ctx cfg (depth + 2)) (took s pre bs (spelt tok)) =
      action ⟨cfg, execWord cfg (depth + 1)⟩ r.action ((took s pre bs (spelt tok)).at s.task.st.ip i) := by
    have hc : (took s pre bs (spelt tok)).task.st.isCompiling = false := by rw [hT]; exact h.interpreting
    simp only [evalToken, M.bind_apply, getSt_apply, hc, Bool.false_eq_true, if_false]
    rw [interpretToken, M.bind_ok takeToken_took, M.bind_ok (find_took h.dict h.inSpace pre bs (spelt tok) hn none)]
    simp only [putToken, M.bind_apply, modVM_apply]
    rw [wordAt_ok (w := w) (by exact w1)]
    have hco' : w.isCompileOnly = false := by rw [w2.co]; exact hco
    simp only [hco', Bool.false_eq_true, if_false, ctx]
    rw [show ({ took s pre bs (spelt tok) with tkn := some (spelt tok) } : VM) = took s pre bs (spelt tok) from rfl]
    rw [exec_word (w := w) (by exact w1), w2.action, hT]
    rfl
  generalize hs1 : took s pre bs (spelt tok) = s1 at *
  have hw1 : s1.wl = s.wl := by rw [← hs1]; rfl
  have hs1e : s1.tkn = some (spelt tok) := by rw [← hs1]; rfl
  have h1 : parseWord s = .ok ((), s1) := by rw [← hs1]; exact n1.parse
  have h0 : (s1.at s.task.st.ip i).task = { s1.task with st := { s1.task.st with ip := s.task.st.ip, wp := i } } := by rw [VM.at, VM.task_setTask]
  rcases hs with ⟨hn, d, hd, hst, hrun⟩ | hs
  · have hl : s1.task.r.items.length < 64 := by
      have := hW.2
      rw [hT]; show (ret s).length < 64; omega
    obtain ⟨p1, p2⟩ := calm_push hS.ret (toCell s.task.st.ip) hl
    have hm : ∀ ds, defAt i ds = some d → d ∈ ds ∧ d.ix = i := by
      intro ds
      induction ds with
      | nil => exact fun h => nomatch h
      | cons a as ih =>
        intro h
        simp only [defAt] at h
        split at h
        · rename_i hb
          cases h
          exact ⟨List.mem_cons_self, Nat.eq_of_beq_eq_true hb⟩
        · obtain ⟨a1, a2⟩ := ih h
          exact ⟨List.mem_cons_of_mem _ a1, a2⟩
    obtain ⟨m1, m2⟩ := hm _ hd
    obtain ⟨⟨x, x1, x2, x3⟩, -⟩ := h.code d m1
    rw [m2, w1] at x1
    cases x1
    have hS2 := hS.go w.dfa i p1
    have hact : action ⟨cfg, execWord cfg (depth + 1)⟩ r.action (s1.at s.task.st.ip i) = .ok ((), s1.setTask { s1.task with
        st := { s1.task.st with ip := w.dfa, wp := i }, r := s1.task.r.push (toCell s.task.st.ip) }) := by
      rw [hn]
      show nest _ = _
      simp only [nest, M.bind_apply, getSt_apply, rPush_apply, h0]
      rw [wordAt_ok (w := w) (by show s1.wl.words[i]? = _; rw [hw1]; exact w1)]
      simp only [setIp, modSt_apply, VM.task_setTask, VM.at, VM.setTask_setTask]
    have hl1 : l1.defs = l.defs := by rw [n5]
    obtain ⟨n, u', q1, q2, q3, q4⟩ := items_run (cfg := cfg) (depth := depth) g (ip0 := s.task.st.ip) (by omega) (rs := s1.task.r.items) _ hS2 hl1 (a := w.dfa)
      (by simp only [pc, VM.task_setTask]) (by omega) (fun l2 s2 h2 h3 => by
        obtain ⟨-, k2, k3⟩ := h2.code d (by rw [h3]; exact m1)
        simp only [Stmt.At] at k2
        rw [x3]
        have hrm := h2.room
        have htp := h2.top
        rw [h2.refs] at k2
        have := fun is => straight_laid d.prog (is := is) (top := G.start + outlineRoom) hst k2.1
        rw [(this []).1] at k3 k2
        exact (this _).2 (by omega) ⟨by omega, k2.2, trivial⟩) (by rw [VM.task_setTask, p2]) hrun
    have hW' : Waits u' := hW.keep h q2 q3 (by simp only [ret]; rw [q4, hT]; rfl)
    exact ⟨u', turn_run h1 hs1e n4 (hev.trans hact) hS2.noError q1 q2.noError hW'.1 q2.data q2.ret q2.control q2.floats, q2, hW'⟩
  · have hS2 : Stand G l1 (s1.at s.task.st.ip i) := hS.go s.task.st.ip i hS.ret
    obtain ⟨t, t1, t2, t3, t4⟩ := prim_sound (c := ⟨cfg, execWord cfg (depth + 1)⟩) g hS2 (i := i) (by rw [h0]) (by rw [h0]; exact hip) hs
    have hW' : Waits t := hW.keep h t2 (by simp only [pc, t3, h0]) (by simp only [ret, t4, h0]; rw [hT]; rfl)
    exact ⟨t, turn_run (n := 0) h1 hs1e n4 (hev.trans t1) t2.noError (fun _ => rfl) t2.noError hW'.1 t2.data t2.ret t2.control t2.floats, t2, hW'⟩

omit g in
/-- A number is interpreted. -/
theorem number_turn (h : Stand G l s) (hW : Waits s) {tok : List Nat} (ht : takeTok l = some (tok, l1))
    (hi : lookup (keyOf tok 0) l.rows = none) {v : Nat} (hv : numberOf tok = some v) (hs : pushVal (.num v) l1 = some l') :
    ∃ s', Leads cfg (depth + 2) s s' ∧ Stand G l' s' ∧ Waits s' := by
  obtain ⟨pre, bs, n1, n2, n3, n4, n5, n6⟩ := h.next ht
  have hS := h.took n3 n6
  rw [← n5] at hS
  have hn := h.name n2
  rw [hi] at hn
  have hT : (took s pre bs (spelt tok)).task = atPosition s.task (byteLen (pre ++ bs ++ spelt tok)) := took_task s pre bs (spelt tok)
  obtain ⟨p1, p2⟩ := hS.push hs
  have hb : ((took s pre bs (spelt tok)).ds.cellAt (took s pre bs (spelt tok)).ds.baseAddr).toInt = 10 := h.base
  have hev : evalToken (ctx cfg (depth + 2)) (took s pre bs (spelt tok)) =
      .ok ((), Spec.withData (took s pre bs (spelt tok)) ((took s pre bs (spelt tok)).task.s.push ((Val.num v).cell G.start))) := by
    have hc : (took s pre bs (spelt tok)).task.st.isCompiling = false := by rw [hT]; exact h.interpreting
    simp only [evalToken, M.bind_apply, getSt_apply, hc, Bool.false_eq_true, if_false]
    rw [interpretToken_none (s := took s pre bs (spelt tok)) (tok := spelt tok) rfl
      (find_took h.dict h.inSpace pre bs (spelt tok) hn (some (spelt tok)))]
    rw [evaluateNumber_int (s := { took s pre bs (spelt tok) with tkn := none }) (v := BitVec.ofNat 64 v) h.space (by
      refine (integerValue_iff _ _ _).2 ?_
      have e : ((took s pre bs (spelt tok)).ds.cellAt (took s pre bs (spelt tok)).ds.baseAddr).toInt = 10 := hb
      show IntegerToken ((took s pre bs (spelt tok)).ds.cellAt (took s pre bs (spelt tok)).ds.baseAddr).toInt _ _
      rw [e]
      exact numberOf_token n2 hv) hc]
    have he := hS.noError
    have : (took s pre bs (spelt tok)).tkn = some (spelt tok) := rfl
    generalize took s pre bs (spelt tok) = s1 at *
    cases s1
    simp only at he this
    subst he this
    rfl
  have hW' := hW.keep h p2 (by simp only [pc]; rw [withData_task, hT]; rfl) (by simp only [ret]; rw [withData_task, hT]; rfl)
  exact ⟨_, turn_run (n := 0) n1.parse rfl n4 hev p2.noError (fun _ => rfl) p2.noError hW'.1 p2.data p2.ret p2.control p2.floats, p2, hW'⟩

end

end Verif
