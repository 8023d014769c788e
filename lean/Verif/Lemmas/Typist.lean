import Verif.Lemmas.Definition
import Verif.Props.Reader

/-!
# Definitions read token by token, whatever calls the interpreter
-/

namespace Verif
open Spec Stack

/-- The machine with other stacks and pointers. -/
def VM.bent (s : VM) (ip wp : Nat) (ds rs : Stack Cell) (fs : Stack F64) : VM :=
  s.setTask { s.task with s := ds, r := rs, f := fs, st := { s.task.st with ip := ip, wp := wp } }

section
variable (s : VM) (wl : Wordlist) (o : Option (List Byte)) (d : DataSpace) (b : Bool) (n w ip wp : Nat)
  (tk : List Char) (x : Buf) (ds rs : Stack Cell) (fs : Stack F64) (r : List Cell)

theorem VM.bent_task : (s.bent ip wp ds rs fs).task =
    { s.task with s := ds, r := rs, f := fs, st := { s.task.st with ip := ip, wp := wp } } := VM.task_setTask s _

theorem VM.opened_bent : (s.opened wl o d b).bent ip wp ds rs fs = (s.bent ip wp ds rs fs).opened wl o d b := by
  have h1 : (s.opened wl o d b).bent ip wp ds rs fs = { (s.setTask { s.task with st := { s.task.st with isCompiling := b } }).setTask
      { (s.opened wl o d b).task with s := ds, r := rs, f := fs, st := { (s.opened wl o d b).task.st with ip := ip, wp := wp } } with
      wl := wl, outbuf := o, ds := d } := rfl
  rw [h1, VM.opened_task, VM.setTask_setTask, VM.opened, VM.bent_task, VM.bent, VM.setTask_setTask]

theorem VM.seen_bent : (s.seen n tk w).bent ip wp ds rs fs = (s.bent ip wp ds rs fs).seen n tk wp := by
  have h1 : (s.seen n tk w).bent ip wp ds rs fs = ((s.setTask { s.task with st := { s.task.st with sourceIndex := n, wp := w } }).setTask
      { (s.seen n tk w).task with s := ds, r := rs, f := fs, st := { (s.seen n tk w).task.st with ip := ip, wp := wp } }).setTkn (some tk) := rfl
  rw [h1, VM.seen_task, VM.setTask_setTask, VM.seen, VM.bent_task, VM.bent, VM.setTask_setTask]

theorem VM.bent_seen (wp' : Nat) : (s.bent ip wp ds rs fs).seen n tk w = (s.bent ip wp' ds rs fs).seen n tk w := by
  rw [VM.seen, VM.seen, VM.bent_task, VM.bent_task, VM.bent, VM.bent, VM.setTask_setTask, VM.setTask_setTask]

theorem VM.code_bent : (s.code x).bent ip wp ds rs fs = (s.bent ip wp ds rs fs).code x := by
  have h1 : (s.code x).bent ip wp ds rs fs = { (s.setTask { s.task with c := x.2 }).setTask
      { (s.code x).task with s := ds, r := rs, f := fs, st := { (s.code x).task.st with ip := ip, wp := wp } } with ds := x.1 } := rfl
  rw [h1, VM.code_task, VM.setTask_setTask, VM.code, VM.bent_task, VM.bent, VM.setTask_setTask]

theorem VM.setRet_bent : setRet s r = s.bent s.task.st.ip s.task.st.wp s.task.s (holding s.task.r r) s.task.f := rfl

theorem VM.bent_bent (ip' wp' : Nat) (ds' rs' : Stack Cell) (fs' : Stack F64) :
    (s.bent ip wp ds rs fs).bent ip' wp' ds' rs' fs' = s.bent ip' wp' ds' rs' fs' := by
  rw [VM.bent, VM.bent_task, VM.bent, VM.setTask_setTask, VM.bent]

theorem VM.seen_took (pre bs : List Char) : took s pre bs tk = s.seen (byteLen (pre ++ bs ++ tk)) tk s.task.st.wp := rfl

theorem VM.code_seen : (s.code x).seen n tk wp = (s.seen n tk wp).code x := by
  have h1 : (s.code x).seen n tk wp = { (s.setTask { s.task with c := x.2 }).setTask
      { (s.code x).task with st := { (s.code x).task.st with sourceIndex := n, wp := wp } } with ds := x.1, tkn := some tk } := rfl
  have h2 : (s.seen n tk wp).code x = { (s.setTask { s.task with st := { s.task.st with sourceIndex := n, wp := wp } }).setTask
      { (s.seen n tk wp).task with c := x.2 } with ds := x.1, tkn := some tk } := rfl
  rw [h1, h2, VM.code_task, VM.seen_task, VM.setTask_setTask, VM.setTask_setTask]

end

/-- The machines that are like `t` but for the return stack. -/
theorem like_bent {s t : VM} {r : List Cell} (h : Like s (setRet t r)) : ∃ ip wp ds rs fs, LikeStack ds t.task.s ∧
    LikeStack rs (holding t.task.r r) ∧ LikeStack fs t.task.f ∧ s = t.bent ip wp ds rs fs := by
  obtain ⟨ip, wp, ds, rs, fs, h1, h2, h3, rfl⟩ := h
  rw [VM.setRet_bent, VM.bent_task] at h1 h2 h3
  exact ⟨ip, wp, ds, rs, fs, h1, h2, h3, VM.bent_bent ..⟩

theorem bent_like {t : VM} {r : List Cell} {ip wp : Nat} {ds rs : Stack Cell} {fs : Stack F64} (h1 : LikeStack ds t.task.s)
    (h2 : LikeStack rs (holding t.task.r r)) (h3 : LikeStack fs t.task.f) : Like (t.bent ip wp ds rs fs) (setRet t r) := by
  refine ⟨ip, wp, ds, rs, fs, ?_, ?_, ?_, ?_⟩
  · rw [VM.setRet_bent, VM.bent_task]; exact h1
  · rw [VM.setRet_bent, VM.bent_task]; exact h2
  · rw [VM.setRet_bent, VM.bent_task]; exact h3
  · exact (VM.bent_bent ..).symm

theorem VM.opened_self {s : VM} {b : Bool} (h : s.task.st.isCompiling = b) : s.opened s.wl s.outbuf s.ds b = s := by
  subst h
  have : s.setTask { s.task with st := { s.task.st with isCompiling := s.task.st.isCompiling } } = s := VM.setTask_task s
  rw [VM.opened, this]

/-- What `;` does. -/
theorem semicolon_at {cfg : Cfg} {n lv k wp e is dfa : Nat} {S s : VM} {base : Stack Control} {y : Buf} {nm : List Byte} {ts : List Char} {ws : Word}
    (hT : Composing S) (hk : Kept base S y) (hr : Ready base [] y e) (hroom : e + 8 ≤ y.1.limit) (hC : Compiler S.refs lv S.wl)
    (hwl : S.wl = colonList s nm dfa true) (hfw : S.forward = []) (m1 : Newest S (utf8 ts) (some is)) (m2 : S.wl.words[is]? = some ws)
    (m3 : ws.action = .core .semicolon) (m4 : ws.isImmediate = true) :
    evalToken (ctx cfg (n + 1)) ((S.seen k ts wp).code y) =
      .ok ((), ((S.opened (colonList s nm dfa false) S.outbuf S.ds false).seen k ts is).code (y.1.emit (toCell S.refs.exit), y.2)) := by
  have hc : ((S.seen k ts wp).code y).task.st.isCompiling = true := by
    rw [VM.code_task, VM.seen_task]; exact hT.compiling
  have hself : S.opened S.wl S.outbuf S.ds true = S := VM.opened_self hT.compiling
  simp only [evalToken, M.bind_apply, getSt_apply, hc, if_true]
  rw [compileToken_found hT hk m1 m2, m4]
  simp only [if_true, ctx]
  rw [execWord_seen m2, m3]
  show semicolon _ _ = _
  have hcl : ¬ ((S.seen k ts is).code y).task.c.len ≠ 0 := by
    rw [VM.code_task]
    have := hr.ctl.rep.1
    exact fun h => h (BitVec.eq_of_toNat_eq (by simpa using this))
  have hfw' : ¬ ((S.seen k ts is).code y).forward ≠ [] := fun h => h hfw
  have hgen := gen_call (c := ⟨cfg, execWord cfg n⟩) (R := S.refs) hr hroom hC.exit (S.seen k ts is) rfl rfl
  have hbody : semicolonBody ⟨cfg, execWord cfg n⟩ ((S.seen k ts is).code y) =
      .ok ((), ((S.opened (colonList s nm dfa false) S.outbuf S.ds true).seen k ts is).code (y.1.emit (toCell S.refs.exit), y.2)) := by
    unfold semicolonBody
    simp only [M.bind_apply, getVM_apply]
    rw [if_neg hcl, if_neg hfw']
    obtain ⟨w, w1, w2⟩ := hC.exit
    have ew : wordAt S.refs.exit ((S.seen k ts is).code y) = .ok (w, (S.seen k ts is).code y) := wordAt_ok w1
    simp only [Item.run, M.bind_apply, ew] at hgen
    have er : ((S.seen k ts is).code y).refs = S.refs := rfl
    rw [er]
    simp only [M.bind_apply, ew, hgen, getWl_apply]
    rw [colonList_set s nm dfa true false ((S.seen k ts is).code (y.1.emit (toCell S.refs.exit), y.2)) hwl]
    conv => lhs; rw [← hself]
    rfl
  unfold semicolon
  rw [M.bind_ok hbody]
  simp only [leftBracket, modSt_apply]
  rw [VM.opened_code_mode]

section
variable {cfg : Cfg} {n room k w lv dfa : Nat} {a S s : VM} {tc name pre bs rest t ts : List Char} {base : Stack Control} {x y : Buf}
  {ic is e : Nat} {wc ws : Word} {d1 d2 : DataSpace} {nm : List Byte}

theorem newest_bent {nm : List Byte} {r : Option Nat} (h : Newest S nm r) (ip wp : Nat) (ds rs : Stack Cell) (fs : Stack F64) :
    Newest (S.bent ip wp ds rs fs) nm r :=
  (newest_same_words (s := S) rfl (fun _ _ _ => rfl) nm r).2 h

theorem Spec.Composing.bent (h : Composing S) (ip wp : Nat) (ds rs : Stack Cell) (fs : Stack F64) : Composing (S.bent ip wp ds rs fs) :=
  ⟨by rw [VM.bent_task]; exact h.compiling, h.noError, h.dict.congr rfl rfl, h.space⟩

theorem Kept.bent (h : Kept base S x) (ip wp : Nat) (ds rs : Stack Cell) (fs : Stack F64) : Kept base (S.bent ip wp ds rs fs) x :=
  ⟨⟨h.same.start, h.same.cap, h.same.bytes⟩, h.here, h.ready⟩

theorem Spec.Spells.bent {f : FloatOps} {i : Item} (h : Spells f S t i) (ip wp : Nat) (ds rs : Stack Cell) (fs : Stack F64) :
    Spells f (S.bent ip wp ds rs fs) t i :=
  h.mono (fun _ _ h => newest_bent h ip wp ds rs fs) (fun _ _ h => h) rfl

/-- `:` and the name after it. -/
theorem colon_evaluates (hd : Dict a) (hsp : SoundSpace a.ds) (hm : a.task.st.isCompiling = false) (herr : a.lastError = none)
    (ht : a.tkn = some tc) (n1 : Newest a (utf8 tc) (some ic)) (n2 : a.wl.words[ic]? = some wc) (n3 : wc.action = .core .colon)
    (n4 : wc.isCompileOnly = false) (hrd : Reading a.task pre (bs ++ (name ++ rest))) (hb : ∀ ch ∈ bs, Blank ch) (hne : name ≠ [])
    (hnb : ∀ ch ∈ name, ¬Blank ch) (he : EndsToken rest) (hnm : nm = utf8 (name.map lowerChar))
    (h1 : a.ds.compileStr cfg.overflowChecks nm = .ok (a.ds.here, d1)) (h2 : d1.align cfg.overflowChecks = .ok d2)
    (hdfa : dfa = roundUp8 (a.ds.here + 8 + nm.length)) (hH : d2.here = dfa) {o : Option (List Byte)} {q : Option Nat} (hq : Newest a nm q)
    (ho : o = a.outbuf.map (· ++ remark q.isSome nm))
    (hdata : (data a).length < capacity) (hcalm : Calm a.task.s ∧ Calm a.task.r ∧ Calm a.task.c ∧ Calm a.task.f) :
    Evaluates cfg (n + 1) room a ((a.opened (colonList a nm dfa true) o d2 true).seen (byteLen (pre ++ (bs ++ name)))
      (name.map lowerChar) a.task.st.wp) := by
  subst hnm hdfa ho
  refine ⟨fun r hr s1 hl hpc => ?_, rfl, ?_, ?_⟩
  · obtain ⟨ip, wp, ds, rs, fs, k1, k2, k3, rfl⟩ := like_bent hl
    have hself : (a.bent ip wp ds rs fs).seen (byteLen pre) tc wp = a.bent ip wp ds rs fs := by
      have := (a.bent ip wp ds rs fs).seen_self tc ht
      rw [VM.bent_task] at this
      rw [← hrd.position]
      exact this
    have hin : inputBuffer (a.bent ip wp ds rs fs).task = .ok (some (pre ++ (bs ++ (name ++ rest)))) := by
      rw [← hrd.buffer, VM.bent_task]; rfl
    have hsp' : InSpace (a.bent ip wp ds rs fs) := ⟨hsp.small, hsp.inside⟩
    have hd' : Dict (a.bent ip wp ds rs fs) := hd.congr rfl rfl
    have hm' : (a.bent ip wp ds rs fs).task.st.isCompiling = false := by rw [VM.bent_task]; exact hm
    obtain ⟨o, o1, o2⟩ := colon_at (c := ⟨cfg, execWord cfg n⟩) (tc := tc) (ic := ic) hd' hsp' hm' herr hin hrd.bounded hb hne hnb he h1 h2 hH
    obtain rfl := o1 _ (newest_bent hq ip wp ds rs fs)
    have hev : evalToken (ctx cfg (n + 1)) (a.bent ip wp ds rs fs) = colon ⟨cfg, execWord cfg n⟩ ((a.bent ip wp ds rs fs).seen (byteLen pre) tc ic) := by
      obtain ⟨r, f1, f2⟩ := hd'.find hsp' (ctx cfg (n + 1)) (utf8 tc)
      obtain rfl := Newest.unique f2 (newest_bent n1 ip wp ds rs fs)
      have f3 := find_congr (s := a.bent ip wp ds rs fs) (s' := (a.bent ip wp ds rs fs).setTkn none) rfl rfl f1
      simp only [evalToken, M.bind_apply, getSt_apply, hm', Bool.false_eq_true, if_false]
      unfold interpretToken
      rw [M.bind_ok (takeToken_run (s := a.bent ip wp ds rs fs) (t := tc) ht), M.bind_ok f3]
      have e : ((a.bent ip wp ds rs fs).setTkn none).setTkn (some tc) = a.bent ip wp ds rs fs := by
        conv => rhs; rw [← hself]
        conv => lhs; rw [← hself]
        rfl
      simp only [M.bind_apply, putToken_run, e]
      rw [wordAt_ok (s := a.bent ip wp ds rs fs) (w := wc) n2]
      simp only [n4, Bool.false_eq_true, if_false, ctx]
      have ec : ∀ wp', ((a.bent ip wp ds rs fs).seen (byteLen pre) tc wp').code ((a.bent ip wp ds rs fs).ds, (a.bent ip wp ds rs fs).task.c) =
          (a.bent ip wp ds rs fs).seen (byteLen pre) tc wp' := by
        intro wp'
        have := ((a.bent ip wp ds rs fs).seen (byteLen pre) tc wp').code_self
        rw [VM.seen_task] at this
        exact this
      conv => lhs; rw [← hself, ← ec]
      rw [execWord_seen (s := a.bent ip wp ds rs fs) n2, n3, ec]
      rfl
    refine ⟨_, _, hev.trans o2, rfl, .refl _, ?_, ?_⟩
    · have e : (VM.opened (a.bent ip wp ds rs fs) (colonList (a.bent ip wp ds rs fs) (utf8 (name.map lowerChar))
          (roundUp8 ((a.bent ip wp ds rs fs).ds.here + 8 + (utf8 (name.map lowerChar)).length)) true)
          ((a.bent ip wp ds rs fs).outbuf.map (· ++ remark q.isSome (utf8 (name.map lowerChar)))) d2 true).seen
          (byteLen (pre ++ (bs ++ name))) (name.map lowerChar) ic =
          ((a.opened (colonList a (utf8 (name.map lowerChar)) (roundUp8 (a.ds.here + 8 + (utf8 (name.map lowerChar)).length)) true)
            (a.outbuf.map (· ++ remark q.isSome (utf8 (name.map lowerChar)))) d2 true).seen
            (byteLen (pre ++ (bs ++ name))) (name.map lowerChar) a.task.st.wp).bent ip ic ds rs fs := by
        rw [VM.seen_bent, VM.bent_seen (wp' := wp), VM.opened_bent]; rfl
      rw [e]
      refine bent_like ?_ ?_ ?_ <;> rw [VM.seen_task, VM.opened_task] <;> assumption
    · rw [pc, pc, VM.seen_task, VM.opened_task, VM.bent_task]
  · rw [data, VM.seen_task, VM.opened_task]; exact hdata
  · rw [VM.seen_task, VM.opened_task]; exact hcalm

/-- A token of the body. -/
theorem compile_evaluates (hT : Composing S) (hk : Kept base S x) {i : Item} (hs : Spells cfg.fops S t i) (hfl : S.refs.flit ≠ 0)
    (hg : ∀ c : Ctx, c.oc = cfg.overflowChecks → Gen S.refs S.wl (i.run c) x y)
    (hdata : (data S).length < capacity) (hcalm : Calm S.task.s ∧ Calm S.task.r ∧ Calm S.task.f) (hc : Calm y.2) :
    Evaluates cfg (n + 1) room ((S.seen k t w).code x) ((S.seen k t w).code y) := by
  refine ⟨fun r hr s1 hl hpc => ?_, rfl, ?_, ?_⟩
  · obtain ⟨ip, wp, ds, rs, fs, k1, k2, k3, rfl⟩ := like_bent hl
    rw [VM.code_task, VM.seen_task] at k1 k2 k3
    obtain ⟨wp', h⟩ := spells_compile (depth := n) (hT.bent ip wp ds rs fs) (hk.bent ip wp ds rs fs) (hs.bent ip wp ds rs fs) hfl hg k wp
    have e : ∀ z wp1, ((S.seen k t w).code z).bent ip wp1 ds rs fs = ((S.bent ip wp ds rs fs).seen k t wp1).code z := by
      intro z wp1
      rw [VM.code_bent, VM.seen_bent, VM.bent_seen (wp' := wp)]
    refine ⟨((S.bent ip wp ds rs fs).seen k t wp').code y, _, by rw [e]; exact h, rfl, .refl _, ?_, ?_⟩
    · rw [← e]
      refine bent_like ?_ ?_ ?_ <;> rw [VM.code_task, VM.seen_task] <;> assumption
    · rw [pc, pc, VM.code_task, VM.seen_task, VM.bent_task, VM.bent_task]
  · rw [data, VM.code_task, VM.seen_task]; exact hdata
  · rw [VM.code_task, VM.seen_task]; exact ⟨hcalm.1, hcalm.2.1, hc, hcalm.2.2⟩

/-- `;` at the end of the body. -/
theorem semicolon_evaluates (hT : Composing S) (hk : Kept base S y) (hr : Ready base [] y e) (hroom : e + 8 ≤ y.1.limit) (hC : Compiler S.refs lv S.wl)
    (hwl : S.wl = colonList s nm dfa true) (hfw : S.forward = []) (m1 : Newest S (utf8 ts) (some is)) (m2 : S.wl.words[is]? = some ws)
    (m3 : ws.action = .core .semicolon) (m4 : ws.isImmediate = true)
    (hdata : (data S).length < capacity) (hcalm : Calm S.task.s ∧ Calm S.task.r ∧ Calm S.task.f) (hc : Calm y.2) :
    Evaluates cfg (n + 1) room ((S.seen k ts w).code y)
      (((S.opened (colonList s nm dfa false) S.outbuf S.ds false).seen k ts w).code (y.1.emit (toCell S.refs.exit), y.2)) := by
  refine ⟨fun r hr' s1 hl hpc => ?_, rfl, ?_, ?_⟩
  · obtain ⟨ip, wp, ds, rs, fs, k1, k2, k3, rfl⟩ := like_bent hl
    rw [VM.code_task, VM.seen_task] at k1 k2 k3
    have h := semicolon_at (cfg := cfg) (n := n) (k := k) (wp := wp) (s := s) (hT.bent ip wp ds rs fs) (hk.bent ip wp ds rs fs) hr hroom hC hwl hfw (newest_bent m1 ip wp ds rs fs) m2 m3 m4
    have e : ((S.seen k ts w).code y).bent ip wp ds rs fs = ((S.bent ip wp ds rs fs).seen k ts wp).code y := by
      rw [VM.code_bent, VM.seen_bent]
    have e2 : ∀ wl o d z wp1, (((S.opened wl o d false).seen k ts w).code z).bent ip wp1 ds rs fs =
        (((S.bent ip wp ds rs fs).opened wl o d false).seen k ts wp1).code z := by
      intro wl o d z wp1
      rw [VM.code_bent, VM.seen_bent, ← VM.opened_bent, VM.bent_seen (wp' := wp)]
    refine ⟨(((S.bent ip wp ds rs fs).opened (colonList s nm dfa false) S.outbuf S.ds false).seen k ts is).code (y.1.emit (toCell S.refs.exit), y.2), _,
      by rw [e]; exact h, rfl, .refl _, ?_, ?_⟩
    · rw [← e2]
      refine bent_like ?_ ?_ ?_ <;> rw [VM.code_task, VM.seen_task, VM.opened_task] <;> assumption
    · rw [pc, pc, VM.code_task, VM.seen_task, VM.opened_task, VM.bent_task, VM.bent_task]
  · rw [data, VM.code_task, VM.seen_task, VM.opened_task]; exact hdata
  · rw [VM.code_task, VM.seen_task, VM.opened_task]; exact ⟨hcalm.1, hcalm.2.1, hc, hcalm.2.2⟩

end
end Verif
