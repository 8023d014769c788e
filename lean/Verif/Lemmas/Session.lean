import Verif.Spec.Session
import Verif.Lemmas.Beside
import Verif.Lemmas.Loader
import Verif.Lemmas.Trace
import Verif.Props.Status

/-!
# The words of a session
-/

namespace Verif
open Spec Stack

section
variable {R : Refs} {wl : Wordlist} {lv lo hi n i : Nat} {k : Fin 5} {d : DataSpace} {s t : VM} {cfg : Cfg}
  {l l' r : List Cell} {m : DataSpace} {ix : String → Nat} {q : Stmt}

local notation "Do" => Doing cfg n R lv wl lo hi k d
local notation "Go" => Going cfg n R lv wl lo hi k d

theorem printed_beside (s : VM) (bs : List Byte) : printed s bs = beside s { sideOf s with outbuf := s.outbuf.map (· ++ bs) } :=
  (beside_out s _ s.stdout).symm

theorem printed_shape (bs : List Byte) : printed (shape s l r m) bs = shape (printed s bs) l r m := rfl

/-- A word that prints. -/
theorem doing_prints {w : Word} {bs : List Byte} (hw : wl.words[i]? = some w) (hl : l.length ≤ capacity) (hr : r.length ≤ capacity)
    (hl' : l'.length ≤ capacity)
    (h : ∀ u : VM, u.task.s.items = l → u.ds = m → sideOf u = sideOf s → Like u (shape s l r m) → ∃ ds,
      action ⟨cfg, execWord cfg n⟩ w.action u = .ok ((), printed (u.setTask { u.task with s := ds }) bs) ∧
      LikeStack ds (holding u.task.s l')) :
    Do i (shape s l r m) (shape (printed s bs) l' r m) := by
  rw [printed_beside]
  refine doing_beside hw hl hr hl' fun u k1 k2 k3 k4 => ?_
  obtain ⟨ds, h1, h2⟩ := h u k1 k2 k3 k4
  refine ⟨ds, ?_, h2⟩
  rw [h1, printed_beside]
  have e : sideOf (u.setTask { u.task with s := ds }) = sideOf s := by
    rw [← k3, sideOf, VM.task_setTask]; rfl
  have e2 : (u.setTask { u.task with s := ds }).outbuf = s.outbuf := congrArg Side.outbuf e
  rw [e, e2]

theorem outBytes_printed (bs : List Byte) (s : VM) : outBytes bs s = .ok ((), printed s bs) := by
  obtain ⟨t, h1, h2⟩ := outBytes_prints bs s
  rw [h1, h2]; rfl

theorem Spec.Like.rest {u : VM} (h : Like u (shape s l r m)) : u.tkn = s.tkn ∧ u.lastError = s.lastError ∧
    u.wl = s.wl ∧ u.handler = s.handler ∧ u.task.sources = s.task.sources ∧ u.task.lines = s.task.lines ∧
    u.task.st.abortedWp = s.task.st.abortedWp := by
  have h2 := h
  obtain ⟨_, _, _, _, _, _, _, _, rfl⟩ := h
  refine ⟨rfl, rfl, rfl, rfl, ?_, ?_, ?_⟩ <;> simp [shape_task]

theorem doing_type {a u : Cell} (hb : Builtin wl i "type") (hq : s.task.s.inner 255 = s.task.s.canary)
    (hin : Inside m a u) (hl : l.length + 2 ≤ capacity) (hr : r.length ≤ capacity) :
    Do i (shape s (u :: a :: l) r m) (shape (printed s (textAt m a u)) l r m) := by
  obtain ⟨w, hw, hp⟩ := hb
  have hp' := prim_inj hp (p := .out .type) rfl
  have hc : capacity = 64 := rfl
  refine doing_prints hw (by len) hr (by omega) fun v k1 k2 k3 k4 => ⟨v.task.s.pop2.2, ?_, by rw [pop2_holding k1]; exact .refl _⟩
  rw [hp']
  have hr1 := items_eq_iff.mp k1
  show pType _ v = _
  rw [pType, M.bind_ok (sPop2_apply v), hr1.pop2_fst]
  dsimp only
  rw [M.bind_ok (getVM_apply _), VM.task_setTask]
  have hu : v.task.s.pop2.2.underflow = false := by
    have hs := k4.s
    rw [shape_task] at hs
    have h1 := hs.slots 255 (.inr (by decide))
    have h2 := hs.canary
    have h3 : (holding s.task.s (u :: a :: l)).inner 255 = s.task.s.inner 255 := by
      simp only [holding]; rw [if_neg (by simp; omega)]
    rw [pop2_holding k1]
    have h4 : (holding v.task.s l).inner 255 = v.task.s.inner 255 := by
      simp only [holding]; rw [if_neg (by simp; omega)]
    have h5 : (holding v.task.s l).canary = s.task.s.canary := h2
    have h6 : (holding v.task.s l).len.toNat = l.length := by
      simp only [holding, BitVec.toNat_ofNat]; omega
    simp only [Stack.underflow, Bool.or_eq_false_iff, decide_eq_false_iff_not, h4, h5, h6, h1, h3, hq]
    exact ⟨fun h => h rfl, by omega⟩
  dsimp only
  rw [if_neg (by rw [hu]; simp), VM.outbuf_setTask]
  cases ho : v.outbuf with
  | none =>
    have : printed (v.setTask { v.task with s := v.task.s.pop2.2 }) (textAt m a u) = v.setTask { v.task with s := v.task.s.pop2.2 } := by
      unfold printed
      rw [VM.outbuf_setTask, ho]
      show ({ v.setTask { v.task with s := v.task.s.pop2.2 } with outbuf := none } : VM) = _
      rw [← ho]; rfl
    rw [this]; rfl
  | some b =>
    dsimp only
    rw [M.bind_ok (dsRd_ok (s := v.setTask { v.task with s := v.task.s.pop2.2 }) (by
      show v.ds.getBytes _ _ = _
      rw [k2]; exact Files.text_ok hin)), outBytes_printed]

/-- `." text"`. -/
theorem Spec.Going.typed (g : Region d lo hi) (hb : Builtin wl i "type") {adr : Nat} {bs : List Byte}
    (hq : s.task.s.inner 255 = s.task.s.canary) (hl : l.length + 2 ≤ capacity) (hr : r.length ≤ capacity)
    (h : Go q (shape (printed s bs) l r m) t) : Go (.seq (.str adr bs) (.seq (.word i) q)) (shape s l r m) t := by
  intro hL
  have hc : capacity = 64 := rfl
  obtain ⟨e1, e2⟩ := h (hL.congr rfl rfl rfl)
  refine ⟨e1, fun a s1 hat ha hn hli hp => ?_⟩
  simp only [Stmt.next] at hn ⊢
  obtain ⟨⟨c1, c2, c3, c4⟩, c5, c6⟩ := hat
  simp only [Stmt.next] at c5 c6
  have := q.le_next (roundUp8 (a + 16 + bs.length) + 8)
  have hru := roundUp8_le (a + 16 + bs.length)
  have hup := g.upper; have hsm := g.small; have hlo := g.lower
  have hge : a + 16 + bs.length ≤ roundUp8 (a + 16 + bs.length) := by simp only [roundUp8] at *; omega
  have hd : data (shape s l r m) = l := shape_data (by omega)
  obtain ⟨u, u1, u2, u3⟩ := run_str (cfg := cfg) (n := n) hli hL g hp ha (by omega) c1 c2 c3 (by rw [hd]; omega)
  rw [hd] at u2
  have u4 := u2.trans (like_setData (by omega) hr (by len))
  have hn1 : (BitVec.ofNat 64 bs.length : Cell).toNat = bs.length := by simp; omega
  have hn2 : (BitVec.ofNat 64 (a + 16) : Cell).toNat = a + 16 := by simp; omega
  have hst := hL.start; have hcap := hL.cap
  simp only [shape_ds] at hst hcap
  have hin : Inside m (BitVec.ofNat 64 (a + 16)) (BitVec.ofNat 64 bs.length) := by
    refine ⟨?_, ?_⟩
    · rw [hn2, hst]; omega
    · rw [hn2, hn1, DataSpace.limit, hst, hcap]; omega
  have ht : textAt m (BitVec.ofNat 64 (a + 16)) (BitVec.ofNat 64 bs.length) = bs := by
    rw [textAt, hn1, hn2]
    refine Eq.trans ?_ c3
    refine List.map_congr_left fun j hj => ?_
    have := List.mem_range.1 hj
    exact hL.code _ (by omega) (by omega)
  have hD := doing_type (cfg := cfg) (n := n) (R := R) (lv := lv) (lo := lo) (hi := hi) (k := k) (d := d) (s := s) (r := r) hb hq hin hl hr
  rw [ht] at hD
  obtain ⟨-, f⟩ := Going.doing g hD hL.stacks
  obtain ⟨v, v1, v2, v3⟩ := f _ u c5 (by omega) (by simp only [Stmt.next]; omega) u4 u3
  obtain ⟨w, w1, w2, w3⟩ := e2 _ v c6 (by omega) hn v2 v3
  exact ⟨w, (u1.trans v1).trans w1, w2, w3⟩

theorem doing_token (hb : Builtin wl i ".token") (hl : l.length ≤ capacity) (hr : r.length ≤ capacity) :
    Do i (shape s l r m) (shape (printed s (utf8 (s.tkn.getD []))) l r m) := by
  obtain ⟨w, hw, hp⟩ := hb
  have hp' := prim_inj hp (p := .core .dotToken) rfl
  refine doing_prints hw hl hr hl fun v k1 k2 k3 k4 => ⟨v.task.s, ?_, by rw [← k1, holding_self]; exact .refl _⟩
  obtain ⟨p, e1, e2⟩ := C58_texts ⟨cfg, execWord cfg n⟩ ".token" (fun s => utf8 (s.tkn.getD [])) (by simp [texts])
  obtain ⟨x, e3, e4⟩ := e2 v
  rw [hp', VM.setTask_task, ← k4.rest.1]
  cases e1
  rw [e3, e4]; rfl

theorem doing_dotError (hb : Builtin wl i ".error") {e : Exn} (he : s.lastError = some e) (hl : l.length ≤ capacity) (hr : r.length ≤ capacity) :
    Do i (shape s l r m) (shape (printed s (ascii (description e))) l r m) := by
  obtain ⟨w, hw, hp⟩ := hb
  have hp' := prim_inj hp (p := .core .dotError) rfl
  refine doing_prints hw hl hr hl fun v k1 k2 k3 k4 => ⟨v.task.s, ?_, by rw [← k1, holding_self]; exact .refl _⟩
  obtain ⟨p, e1, e2⟩ := C58_texts ⟨cfg, execWord cfg n⟩ ".error" _ (List.Mem.tail _ (List.Mem.head _))
  obtain ⟨x, e3, e4⟩ := e2 v
  rw [hp', VM.setTask_task]
  cases e1
  rw [k4.rest.2.1, he] at e4
  rw [e3, e4]; rfl

theorem doing_error (hb : Builtin wl i "error") {e : Exn} (he : s.lastError = some e) (hl : l.length < capacity) (hr : r.length ≤ capacity) :
    Do i (shape s l r m) (shape s (e.toCell :: l) r m) := by
  obtain ⟨w, hw, hp⟩ := hb
  have hp' := prim_inj hp (p := .core .error) rfl
  simp only [capacity] at hl
  refine doing_data hw (by simp [capacity]; omega) hr (by simp [capacity]; omega)
    (fun u v k1 k2 k3 k4 k5 k6 _ k8 => ?_)
  refine ⟨u.task.s.push e.toCell, ?_, by rw [push_holding _ _ (by rw [k1]; omega), k1]; exact .refl _⟩
  rw [hp']
  show pError u = _
  rw [pError, M.bind_ok (show getError u = .ok (u.lastError, u) from rfl), k8.rest.2.1, he]
  rfl

theorem doing_sourcePath {x : Cell} {f : Source} (hb : Builtin wl i ".source-path") (hx : 0 < x.toInt)
    (hf : s.task.sources[x.toNat - 1]? = some (some f)) (hl : l.length < capacity) (hr : r.length ≤ capacity) :
    Do i (shape s (x :: l) r m) (shape (printed s f.path) l r m) := by
  obtain ⟨w, hw, hp⟩ := hb
  have hp' := prim_inj hp (p := .load .dotSourcePath) rfl
  refine doing_prints hw (by len) hr (by omega) fun v k1 k2 k3 k4 => ⟨v.task.s.pop.2, ?_, by rw [pop_holding k1]; exact .refl _⟩
  have e : v.task.s.pop.1 = x := (items_eq_iff.mp k1).pop_fst
  rw [hp']
  show dotSourcePath _ v = _
  rw [dotSourcePath, M.bind_ok (sPop_apply v), e]
  rw [M.bind_ok (getTask_apply _), VM.task_setTask, if_pos hx, k4.rest.2.2.2.2.1, hf]
  exact outBytes_printed _ _

theorem doing_sourceLine {x : Cell} {f : List Char} (hb : Builtin wl i ".source-line") (hx : 0 < x.toInt)
    (hf : s.task.lines[x.toNat - 1]? = some (some f)) (hl : l.length < capacity) (hr : r.length ≤ capacity) :
    Do i (shape s (x :: l) r m) (shape (printed s (utf8 f)) l r m) := by
  obtain ⟨w, hw, hp⟩ := hb
  have hp' := prim_inj hp (p := .load .dotSourceLine) rfl
  refine doing_prints hw (by len) hr (by omega) fun v k1 k2 k3 k4 => ⟨v.task.s.pop.2, ?_, by rw [pop_holding k1]; exact .refl _⟩
  have e : v.task.s.pop.1 = x := (items_eq_iff.mp k1).pop_fst
  rw [hp']
  show dotSourceLine _ v = _
  rw [dotSourceLine, M.bind_ok (sPop_apply v), e]
  rw [M.bind_ok (getTask_apply _), VM.task_setTask, if_pos hx, k4.rest.2.2.2.2.2.1, hf]
  exact outBytes_printed _ _

/-- The machine with another text in the buffer for numbers. -/
def noted (s : VM) (txt : List Byte) : VM := { s with hldbuf := txt }

theorem noted_beside (s : VM) (bs : List Byte) : noted s bs = beside s { sideOf s with hldbuf := bs } := by
  show _ = { s.setTask s.task with host := s.host, outbuf := s.outbuf, stdout := s.stdout, hldbuf := bs, lastError := s.lastError }
  rw [VM.setTask_task]; rfl

/-- `0 .r` -/
theorem doing_dotR {x : Cell} {txt : List Byte} (hb : Builtin wl i ".r") (hm : SoundSpace m) (ho : s.outbuf ≠ none)
    (ht : fmtBase (m.cellAt m.baseAddr) x = some txt) (hl : l.length + 2 ≤ capacity) (hr : r.length ≤ capacity) :
    Do i (shape s (0#64 :: x :: l) r m) (shape (noted (printed s txt) txt) l r m) := by
  obtain ⟨w, hw, hp⟩ := hb
  have hp' := prim_inj hp (p := .out .dotR) rfl
  have hc : capacity = 64 := rfl
  rw [noted_beside, printed_beside, beside_beside, sideOf_beside]
  refine doing_beside hw (by len) hr (by omega) fun v k1 k2 k3 k4 => ⟨v.task.s.pop2.2, ?_, by rw [pop2_holding k1]; exact .refl _⟩
  rw [hp']
  have hout : v.outbuf = s.outbuf := congrArg Side.outbuf k3
  obtain ⟨b, hb⟩ := Option.ne_none_iff_exists'.1 ho
  have hl65 := (fmtBase_token _ _ _ ht).2.2
  have hpad : padding cfg.overflowChecks 0#64 txt.length = .ok [] := by
    rw [padding_fits (by omega) (by decide)]
    congr 1
    rw [List.replicate_eq_nil_iff]
    simp
  have hr1 := items_eq_iff.1 k1
  have hbase := baseCell_ok (d := v.ds) (by rw [k2]; exact hm)
  show dotR _ v = _
  unfold dotR
  rw [M.bind_ok (dsRd_ok hbase), M.bind_ok (sPop2_apply v), hr1.pop2_fst]
  simp only
  rw [k2]
  generalize fmtBase (m.cellAt m.baseAddr) x = y at ht ⊢
  subst ht
  simp only [M.bind_apply, getVM_apply, VM.outbuf_setTask, hout, hb, modVM_apply, Ctx.oc, hpad, liftE_ok, outBytes, Option.map_some, List.nil_append]
  have e : sideOf (v.setTask { v.task with s := v.task.s.pop2.2 }) = sideOf s := by
    rw [← k3, sideOf, VM.task_setTask]; rfl
  rw [← e]
  congr 2
  unfold beside
  have e2 : ({ sideOf (v.setTask { v.task with s := v.task.s.pop2.2 }) with outbuf := some (b ++ txt), hldbuf := txt } : Side).on
    (v.setTask { v.task with s := v.task.s.pop2.2 }).task = (v.setTask { v.task with s := v.task.s.pop2.2 }).task := rfl
  rw [e2, VM.setTask_task]
  rfl

theorem doing_clearError (hb : Builtin wl i "0error") (hl : l.length ≤ capacity) (hr : r.length ≤ capacity) :
    Do i (shape s l r m) (shape { s with lastError := none } l r m) := by
  obtain ⟨w, hw, hp⟩ := hb
  have hp' := prim_inj hp (p := .core .clearError) rfl
  have e0 : ∀ s : VM, ({ s with lastError := none } : VM) = beside s { sideOf s with error := none } := by
    intro s
    show _ = { s.setTask s.task with host := s.host, outbuf := s.outbuf, stdout := s.stdout, hldbuf := s.hldbuf, lastError := none }
    rw [VM.setTask_task]
  rw [e0 s]
  refine doing_beside hw hl hr hl fun v k1 k2 k3 k4 => ⟨v.task.s, ?_, by rw [← k1, holding_self]; exact .refl _⟩
  rw [hp', VM.setTask_task, ← k3, ← e0]
  rfl

/-- `0stacks`, when the stacks are empty already. -/
theorem doing_clear (hb : Builtin wl i "0stacks") (h1 : s.task.s = s.task.s.reset) (h2 : s.task.f = s.task.f.reset)
    (h3 : s.task.c = s.task.c.reset) : Do i (shape s [] r m) (shape s [] r m) := by
  obtain ⟨w, hw, hp⟩ := hb
  have hp' := prim_inj hp (p := .core .clearStacks) rfl
  intro hL
  refine ⟨fun s1 hli => ?_, hL⟩
  obtain ⟨v, e1, e2, -⟩ := (hL.like hli).kept i w hw
  refine ⟨_, by rw [exec_word e1, e2, hp']; exact modTask_apply (fun t => { t with s := t.s.reset, f := t.f.reset, c := t.c.reset }) _, ?_,
    by simp [pc]⟩
  obtain ⟨ip, wp, ds, rs, fs, k1, k2, k3, rfl⟩ := hli
  have hh : holding s.task.s [] = s.task.s.reset := by
    rw [h1]
    simp [holding, Stack.reset]
  have q1 : ds.canary = s.task.s.canary := by have := k1.canary; rw [shape_task, hh] at this; exact this
  have q3 : fs.canary = s.task.f.canary := by have := k3.canary; rw [shape_task] at this; exact this
  have j1 : ds.reset = s.task.s.reset := by rw [Stack.reset, Stack.reset, q1]
  have j3 : fs.reset = s.task.f := by rw [h2, Stack.reset, Stack.reset, q3]
  have e3 : (shape s [] r m).task.c.reset = (shape s [] r m).task.c := by rw [shape_task]; exact h3.symm
  have e4 : (shape s [] r m).task.s = s.task.s.reset := by rw [shape_task]; exact hh
  have e5 : (shape s [] r m).task.f = s.task.f := by rw [shape_task]
  refine ⟨ip, i, ds.reset, rs, fs.reset, by rw [j1, e4]; exact .refl _, k2, by rw [j3, e5]; exact .refl _, ?_⟩
  simp only [VM.at, VM.task_setTask, VM.setTask_setTask, e3]

/-! ### Code that tells an address -/

/-- The code of `p`, which lies between `a0` and `a1`, leads from `s` to `T b` for some `b` between `a0` and `a1`. -/
def Spec.Telling (cfg : Cfg) (n : Nat) (R : Refs) (lv : Nat) (wl : Wordlist) (lo hi : Nat) (k : Fin 5) (d : DataSpace) (a0 a1 : Nat)
    (p : Stmt) (s : VM) (T : Nat → VM) : Prop :=
  Loaded R lv wl lo hi k d s → ∀ a s1, p.At R lv d a → lo ≤ a → p.next a ≤ hi → a0 ≤ a → p.next a ≤ a1 →
    Like s1 s → pc s1 = a → ∃ b t1, a0 < b ∧ b ≤ a1 ∧ Loaded R lv wl lo hi k d (T b) ∧ Steps cfg (n + 1) s1 t1 ∧ Like t1 (T b) ∧
      pc t1 = p.next a

/-- The code of `p`, which lies between `a0` and `a1`, leads from `s` to a machine with property `P`. -/
def Spec.Arrives (cfg : Cfg) (n : Nat) (R : Refs) (lv : Nat) (wl : Wordlist) (lo hi : Nat) (k : Fin 5) (d : DataSpace) (a0 a1 : Nat)
    (p : Stmt) (s : VM) (P : VM → Prop) : Prop :=
  Loaded R lv wl lo hi k d s → ∀ a s1, p.At R lv d a → lo ≤ a → p.next a ≤ hi → a0 ≤ a → p.next a ≤ a1 →
    Like s1 s → pc s1 = a → ∃ t1, Steps cfg (n + 1) s1 t1 ∧ P t1

variable {a0 a1 : Nat} {p : Stmt} {T U : Nat → VM} {P : VM → Prop} {u : VM}

local notation "Tell" => Telling cfg n R lv wl lo hi k d a0 a1
local notation "Arrive" => Arrives cfg n R lv wl lo hi k d a0 a1

theorem Spec.Telling.seq (h1 : Go p s t) (h2 : Tell q t T) : Tell (.seq p q) s T := by
  intro hL a s1 hat ha hn ha0 hn0 hli hp
  simp only [Stmt.next] at hn hn0 ⊢
  have := q.le_next (p.next a); have := p.le_next a
  obtain ⟨e1, e2⟩ := h1 hL
  obtain ⟨u, u1, u2, u3⟩ := e2 a s1 hat.1 ha (by omega) hli hp
  obtain ⟨b, v, b1, b2, v0, v1, v2, v3⟩ := h2 e1 _ u hat.2 (by omega) hn (by omega) hn0 u2 u3
  exact ⟨b, v, b1, b2, v0, u1.trans v1, v2, v3⟩

theorem Spec.Telling.andThen (h1 : Tell p s T) (h2 : ∀ b, Go q (T b) (U b)) : Tell (.seq p q) s U := by
  intro hL a s1 hat ha hn ha0 hn0 hli hp
  simp only [Stmt.next] at hn hn0 ⊢
  have := q.le_next (p.next a); have := p.le_next a
  obtain ⟨b, v, b1, b2, v0, v1, v2, v3⟩ := h1 hL a s1 hat.1 ha (by omega) ha0 (by omega) hli hp
  obtain ⟨e1, e2⟩ := h2 b v0
  obtain ⟨u, u1, u2, u3⟩ := e2 _ v hat.2 (by omega) hn v2 v3
  exact ⟨b, u, b1, b2, e1, v1.trans u1, u2, u3⟩

theorem Spec.Telling.ifTrue (g : Region d lo hi) {f : Cell} (hl : l.length < capacity) (hr : r.length ≤ capacity) (hf : f ≠ 0)
    (h : Tell p (shape s l r m) T) : Tell (.ifThen p) (shape s (f :: l) r m) T := by
  intro hL a s1 hat ha hn ha0 hn0 hli hp
  simp only [Stmt.next] at hn hn0 ⊢
  have := p.le_next (a + 16)
  obtain ⟨u, u1, u2, u3⟩ := run_nonzero (cfg := cfg) (n := n) hli hL g hp ha (by omega) hat.1
    (shape_data (by simp; omega)) hf
  obtain ⟨b, v, b1, b2, v0, v1, v2, v3⟩ := h hL.stacks _ u hat.2.2 (by omega) hn (by omega) hn0
    (u2.trans (like_setData (by simp; omega) hr (by omega))) u3
  exact ⟨b, v, b1, b2, v0, u1.trans v1, v2, v3⟩

theorem Spec.Arrives.seq (h1 : Go p s t) (h2 : Arrive q t P) : Arrive (.seq p q) s P := by
  intro hL a s1 hat ha hn ha0 hn0 hli hp
  simp only [Stmt.next] at hn hn0 ⊢
  have := q.le_next (p.next a); have := p.le_next a
  obtain ⟨e1, e2⟩ := h1 hL
  obtain ⟨u, u1, u2, u3⟩ := e2 a s1 hat.1 ha (by omega) hli hp
  obtain ⟨v, v1, v2⟩ := h2 e1 _ u hat.2 (by omega) hn (by omega) hn0 u2 u3
  exact ⟨v, u1.trans v1, v2⟩

theorem Spec.Arrives.lead (h1 : Tell p s T) (h2 : ∀ b, a0 < b → b ≤ a1 → Arrive q (T b) P) : Arrive (.seq p q) s P := by
  intro hL a s1 hat ha hn ha0 hn0 hli hp
  simp only [Stmt.next] at hn hn0 ⊢
  have := q.le_next (p.next a); have := p.le_next a
  obtain ⟨b, v, b1, b2, v0, v1, v2, v3⟩ := h1 hL a s1 hat.1 ha (by omega) ha0 (by omega) hli hp
  obtain ⟨u, u1, u2⟩ := h2 b b1 b2 v0 _ v hat.2 (by omega) hn (by omega) hn0 v2 v3
  exact ⟨u, v1.trans u1, u2⟩

theorem Spec.Arrives.mono {Q : VM → Prop} (h : Arrive p s P) (hPQ : ∀ t, P t → Q t) : Arrive p s Q := by
  intro hL a s1 hat ha hn ha0 hn0 hli hp
  obtain ⟨t, t1, t2⟩ := h hL a s1 hat ha hn ha0 hn0 hli hp
  exact ⟨t, t1, hPQ t t2⟩

/-- `.backtrace` -/
theorem leads_backtrace (g : Region d lo hi) (hb : Builtin wl i ".backtrace") (ht : Traceable { s with ds := m })
    (hw : s.task.st.abortedWp < s.wl.words.length) (hr : r.length ≤ capacity) :
    Tell (.word i) (shape s l r m) fun b => shape (printed s (ascii "backtrace: " ++
      r.reverse.flatMap (fun v => whereabouts { s with ds := m } v.toNat) ++ culprit { s with ds := m } ++ whereabouts { s with ds := m } b)) l r m := by
  intro hL a s1 hat ha hn ha0 hn0 hli hp
  simp only [Stmt.next] at hn hn0 ⊢
  obtain ⟨w, hw1, hp1⟩ := hb
  have hp' := prim_inj hp1 (p := .tool .dotBacktrace) rfl
  have hli2 := (hli.at (a + 8) s1.task.st.wp).at (a + 8) i
  obtain ⟨v, e1, e2, -⟩ := (hL.like (hli.at (a + 8) s1.task.st.wp)).kept i w hw1
  have hrest := hli2.rest
  generalize hU : ((s1.at (a + 8) s1.task.st.wp).at (a + 8) i) = U at hli2 hrest
  have hds : U.ds = m := hli2.ds
  have hpU : pc U = a + 8 := by rw [← hU]; simp [pc]
  have htU : Traceable U := by
    obtain ⟨t1, t2, t3, t4⟩ := ht
    exact ⟨by rw [hds]; exact t1, by rw [hds, hrest.2.2.1]; exact t2, by rw [hds, hrest.2.2.1]; exact t3, by rw [hrest.2.2.1]; exact t4⟩
  have ex : execWord cfg (n + 1) i (s1.at (a + 8) s1.task.st.wp) = .ok ((), printed U (trace U)) := by
    rw [exec_word e1, e2, hp', ← hU]
    have e0 : (s1.at (a + 8) s1.task.st.wp).task.st.ip = a + 8 := by simp
    rw [e0, hU]
    exact dotBacktrace_ok htU (by rw [hrest.2.2.2.2.2.2, hrest.2.2.1]; exact hw)
  have hwh : ∀ x, whereabouts U x = whereabouts { s with ds := m } x := by
    intro x
    rw [whereabouts, whereabouts, hds, hrest.2.2.1]
  have hcu : culprit U = culprit { s with ds := m } := by
    have e : ({ s with ds := m } : VM).task = s.task := rfl
    rw [culprit, culprit, hrest.2.2.2.2.2.2, hrest.2.2.1, hds, e]
  have hret : ret U = r := hli2.ret.trans (shape_ret hr)
  have htr : trace U = ascii "backtrace: " ++ r.reverse.flatMap (fun v => whereabouts { s with ds := m } v.toNat) ++
      culprit { s with ds := m } ++ whereabouts { s with ds := m } (a + 8) := by
    rw [trace, hret, hcu, hpU, hwh]
    simp only [hwh]
  have hst : Steps cfg (n + 1) s1 (printed U (trace U)) := .one (step_word (hL.like hli) g hp ha hn hat ex)
  have hlk : Like (printed U (trace U)) (shape (printed s (trace U)) l r m) := hli2.printed _
  have hLd : Loaded R lv wl lo hi k d (shape (printed s (trace U)) l r m) := hL.congr rfl rfl rfl
  rw [htr] at hst hlk hLd
  exact ⟨a + 8, _, by omega, by omega, hLd, hst, hlk, hpU⟩

/-- `quit` at the end of the handler. -/
theorem arrives_quit (g : Region d lo hi) {w : Word} (hw : wl.words[i]? = some w) (ha : w.action = .core .nest) (h1 : lo ≤ w.dfa)
    (h2 : w.dfa + 8 ≤ hi) {j : Nat} (hc : CellIs d w.dfa j) (hj : Builtin wl j "reset") (hh : holding s.task.s l = s.task.s)
    (hl : l.length ≤ capacity) (hr : r.length < capacity) :
    Arrive (.seq (.word i) q) (shape s l r m) fun t =>
      Like t { s.setTask (fresh s.task) with ds := m, lastError := none } ∧ pc t = w.dfa + 8 := by
  intro hL a s1 hat ha0 hn ha1 hn1 hli hp
  simp only [Stmt.next] at hn hn1
  have hle := q.le_next (a + 8)
  have hc64 : capacity = 64 := rfl
  obtain ⟨v, e1, e2, e3⟩ := (hL.like (hli.at (a + 8) s1.task.st.wp)).kept i w hw
  generalize hU : s1.at (a + 8) s1.task.st.wp = U at *
  have hlU : Like U (shape s l r m) := by rw [← hU]; exact hli.at _ _
  have hr1 : U.task.r.items = r := hlU.ret.trans (shape_ret (by omega))
  have ex : execWord cfg (n + 1) i U = .ok ((), U.put U.task.s (U.task.r.push (toCell (pc U))) U.task.f w.dfa i) := by
    rw [exec_word e1, e2, ha]
    simp only [action, coreAction, nest, M.bind_apply, getSt_apply, VM.at_task, rPush_apply]
    rw [wordAt_ok (w := v) (by simpa using e1)]
    simp [setIp, VM.at, VM.put, e3, pc]
  have hp1 := push_holding U.task.r (toCell (pc U)) (by rw [hr1]; omega)
  rw [hr1] at hp1
  have hl2 : Like (U.put U.task.s (U.task.r.push (toCell (pc U))) U.task.f w.dfa i) (shape s l (toCell (pc U) :: r) m) := by
    have hd : U.task.s.items = l := hlU.data.trans (shape_data hl)
    have := like_shape (m' := m) (l' := l) hl (by omega) hl (r' := toCell (pc U) :: r) (by simp; omega) hlU
      (ds := U.task.s) (rs := U.task.r.push (toCell (pc U))) (by rw [← hd, holding_self]; exact .refl _)
      (by rw [hp1]; exact .refl _) w.dfa i
    have hds : U.ds = m := hlU.ds
    rw [← hds] at this ⊢
    exact this
  generalize hW : U.put U.task.s (U.task.r.push (toCell (pc U))) U.task.f w.dfa i = W at *
  have hpW : pc W = w.dfa := by rw [← hW]; simp [pc, VM.put]
  have hL2 := hL.stacks (l' := l) (r' := toCell (pc U) :: r)
  obtain ⟨x, x1, x2⟩ := hj
  have hp' := prim_inj x2 (p := .core .reset) rfl
  obtain ⟨y, y1, y2, -⟩ := (hL2.like (hl2.at (w.dfa + 8) W.task.st.wp)).kept j x x1
  have hl3 := (hl2.at (w.dfa + 8) W.task.st.wp).at (w.dfa + 8) j
  have ex2 : execWord cfg (n + 1) j (W.at (w.dfa + 8) W.task.st.wp) =
      .ok ((), { ((W.at (w.dfa + 8) W.task.st.wp).at (w.dfa + 8) j).setTask
        (fresh ((W.at (w.dfa + 8) W.task.st.wp).at (w.dfa + 8) j).task) with lastError := none }) := by
    rw [exec_word y1, y2, hp']
    have e0 : (W.at (w.dfa + 8) W.task.st.wp).task.st.ip = w.dfa + 8 := by simp
    rw [e0]
    exact reset_run _ _
  refine ⟨_, Steps.trans (.one (step_word (hL.like hli) g hp ha0 (by omega) hat.1 (by rw [hU]; exact ex)))
    (.one (step_word (hL2.like hl2) g hpW h1 h2 hc ex2)), ?_, ?_⟩
  · generalize ((W.at (w.dfa + 8) W.task.st.wp).at (w.dfa + 8) j) = Z at hl3
    obtain ⟨ip, wp, ds, rs, fs, k1, k2, k3, rfl⟩ := hl3
    rw [shape_task] at k1 k2 k3
    have q2 : rs.reset = s.task.r.reset := by
      have := k2.canary
      rw [Stack.reset, Stack.reset, this]; rfl
    refine ⟨ip, wp, ds, s.task.r.reset, fs, ?_, ?_, ?_, ?_⟩
    · show LikeStack ds (s.setTask (fresh s.task)).task.s
      rw [VM.task_setTask]; rw [hh] at k1; exact k1
    · show LikeStack _ (s.setTask (fresh s.task)).task.r
      rw [VM.task_setTask]; exact .refl _
    · show LikeStack _ (s.setTask (fresh s.task)).task.f
      rw [VM.task_setTask]; exact k3
    · rw [← q2, VM.task_setTask, VM.setTask_setTask, shape_task, shape_eq]
      show ({ (s.setTask _).setTask _ with ds := m, lastError := none } : VM) =
        { (s.setTask (fresh s.task)).setTask (let t := (s.setTask (fresh s.task)).task;
          { t with s := _, r := _, f := _, st := { t.st with ip := ip, wp := wp } }) with ds := m, lastError := none }
      rw [VM.task_setTask, VM.setTask_setTask, VM.setTask_setTask]
      rfl
  · show (((W.at (w.dfa + 8) W.task.st.wp).at (w.dfa + 8) j).setTask
      (fresh ((W.at (w.dfa + 8) W.task.st.wp).at (w.dfa + 8) j).task)).task.st.ip = _
    rw [VM.task_setTask]
    show ((W.at (w.dfa + 8) W.task.st.wp).at (w.dfa + 8) j).task.st.ip = _
    simp

end

section
variable {lv n V : Nat} {s s0 t u : VM} {cfg : Cfg} {l r : List Cell} {ix : String → Nat} {g1 g2 g : Nat × Nat}

set_option quotPrecheck false
local notation "Go" => Going cfg n s0.refs lv s0.wl g.1 g.2 s0.cur s0.ds

theorem noted_noted (s : VM) (a b : List Byte) : noted (noted s a) b = noted s b := rfl
theorem printed_noted (s : VM) (a b : List Byte) : printed (noted s a) b = noted (printed s b) a := rfl
theorem noted_self (s : VM) : noted s s.hldbuf = s := rfl

theorem raised_task (s : VM) (e : Exn) : (raised s e).task = { s.task with s := s.task.s.reset, f := s.task.f.reset, c := s.task.c.reset, st := { s.task.st with abortedWp := s.task.st.wp } } := by
  show (s.setTask _).task = _
  rw [VM.task_setTask]

theorem Spec.StillLoaded.congr {gs : List (Nat × Nat)} (h : StillLoaded lv gs s0 s) (h1 : t.refs = s.refs) (h2 : t.cur = s.cur)
    (h3 : t.ds = s.ds) (h4 : t.wl = s.wl) : StillLoaded lv gs s0 t :=
  ⟨h1.trans h.refs, fun g hg => (h.code g hg).congr h2 h3 h4⟩

/-- What is told about the source being read. -/
theorem going_origin (h : HasRepl lv g1 g2 g V ix s0) (hk : StillLoaded lv [g1, g2, g] s0 s)
    (hq : s.task.s.inner 255 = s.task.s.canary) (h0 : 0 < s.task.st.sourceId.toInt) {f : Source} {ln : List Char} {kk : List Byte}
    (hf : s.task.sources[s.task.st.sourceId.toNat - 1]? = some (some f)) (hln : s.task.lines[s.task.st.sourceId.toNat - 1]? = some (some ln))
    (hkk : fmtBase (s.ds.cellAt s.ds.baseAddr) (s.ds.cellAt V) = some kk) (hm : SoundSpace s.ds) (ho : s.outbuf ≠ none)
    (hr : r.length < capacity) (a : Nat) :
    Go ((originCode ix).place a) (shape s [s.task.st.sourceId] r s.ds)
      (shape (noted (printed s (ascii " (" ++ f.path ++ ascii ":" ++ kk ++ ascii ": " ++ utf8 ln ++ ascii ")")) kk) [] r s.ds) := by
  have hc : capacity = 64 := rfl
  have gg := h.region
  have hL1 := hk.loaded (g := g1) (by simp)
  have hu : ∀ name, name ∈ replUses → Builtin s0.wl (ix name) name := h.uses
  obtain ⟨w, w1, w2, w3⟩ := h.place
  have hlo := h.lower; have hup := h.upper
  have hsm : s0.ds.start + s0.ds.cap < 2 ^ 63 := gg.small
  have eV : (toCell w.dfa).toNat = V := by rw [w3]; exact toNat_toCell (by simp only [DataSpace.limit] at hup; omega)
  have htype := hu "type" (by simp [replUses])
  simp only [originCode]
  steps
  refine .seq (.doing gg (doing_effect 1 rfl (hu _ (by simp [replUses])) rfl (by len) (by len) (by len))) ?_
  refine .typed gg htype hq (by len) (by omega) ?_
  refine .seq (.doing gg (doing_sourcePath (hu _ (by simp [replUses])) h0 hf (by len) (by omega))) ?_
  refine .typed gg htype hq (by len) (by omega) ?_
  refine .seq (.doing gg (doing_var w1 w2 (by len) (by omega))) ?_
  refine .seq (.doing gg (doing_fetch gg (hu _ (by simp [replUses])) (by len) (by omega) ?_ ?_)) ?_
  · rw [eV, hL1.start]; exact hlo
  · rw [eV, DataSpace.limit, hL1.start, hL1.cap]; exact hup
  rw [eV]
  refine .seq (.lit gg (by len) (by omega)) ?_
  simp only [printed_printed]
  refine .seq (.doing gg (doing_dotR (hu _ (by simp [replUses])) hm (by simpa [printed] using ho) hkk (by len) (by omega))) ?_
  refine .typed gg htype hq (by len) (by omega) ?_
  simp only [printed_printed, printed_noted]
  refine .seq (.doing gg (doing_sourceLine (hu _ (by simp [replUses])) h0 hln (by len) (by omega))) ?_
  simp only [printed_printed, printed_noted]
  refine .typed gg htype hq (by len) (by omega) ?_
  simp only [printed_printed, printed_noted, List.append_assoc]
  exact .skip

/-- The message about an error, up to the backtrace. -/
theorem going_message (h : HasRepl lv g1 g2 g V ix s0) (hk : StillLoaded lv [g1, g2, g] s0 s) {e : Exn} (he : s.lastError = some e)
    (hq : s.task.s.inner 255 = s.task.s.canary) (hT : Tellable V s) (hm : SoundSpace s.ds) (ho : s.outbuf ≠ none)
    (hr : r.length < capacity) (a : Nat) :
    Go ((messageCode ix).place a) (shape s [] r s.ds)
      (shape (noted (printed s (utf8 (s.tkn.getD []) ++ ascii " " ++ ascii (description e) ++ origin V s ++ ascii ", ")) (note V s)) [] r s.ds) := by
  have hc : capacity = 64 := rfl
  have gg := h.region
  have hL1 := hk.loaded (g := g1) (by simp)
  have hu : ∀ name, name ∈ replUses → Builtin s0.wl (ix name) name := h.uses
  have htype := hu "type" (by simp [replUses])
  simp only [messageCode]
  steps
  refine .seq (.doing gg (doing_token (hu _ (by simp [replUses])) (by simp) (by omega))) ?_
  refine .seq (.word gg (Calling.elsewhere (call_space h.equipped.library (by simp [capacity]) (by omega)) (hL1.congr rfl rfl rfl) rfl rfl (.refl _))) ?_
  refine .seq (.doing gg (doing_dotError (hu _ (by simp [replUses])) he (by simp) (by omega))) ?_
  refine .seq (.doing gg (doing_sourceId (hu _ (by simp [replUses])) (by len) (by omega))) ?_
  refine .seq (.doing gg (doing_effect 1 rfl (hu _ (by simp [replUses])) rfl (by len) (by len) (by len))) ?_
  have ep : ascii " " = [32] := rfl
  rw [printed_printed, printed_printed, ep]
  generalize hP : printed s (utf8 (s.tkn.getD []) ++ ([32] ++ ascii (description e))) = P
  have kT : P.task = s.task := by rw [← hP]; rfl
  have kd : P.ds = s.ds := by rw [← hP]; rfl
  have hE : ∀ bs h, noted (printed s (utf8 (s.tkn.getD []) ++ [32] ++ ascii (description e) ++ bs ++ ascii ", ")) h =
      noted (printed P (bs ++ ascii ", ")) h := by
    intro bs h; rw [← hP, printed_printed]; simp only [List.append_assoc]
  rw [hE, kT]
  rcases hT with h0 | ⟨h0, ⟨f, hf⟩, ⟨ln, hln⟩, kk, hkk⟩
  · have e1 : origin V s = [] := by rw [origin, if_pos h0]
    have e2 : note V s = P.hldbuf := by rw [note, if_pos h0, ← hP]; rfl
    rw [e1, e2, h0]
    refine .seq (t := shape P [] r s.ds) (.elseFalse gg (by len) (by omega) ?_) ?_
    · exact .seq (.doing gg (doing_effect 2 rfl (hu _ (by simp [replUses])) rfl (by len) (by len) (by len))) .skip
    exact .typed gg htype (by rw [kT]; exact hq) (by len) (by omega) (.last rfl)
  · have hne : s.task.st.sourceId ≠ 0 := by intro h1; rw [h1] at h0; simp at h0
    have e1 : origin V s = ascii " (" ++ f.path ++ ascii ":" ++ kk ++ ascii ": " ++ utf8 ln ++ ascii ")" := by
      rw [origin, if_neg hne, hf, hln, hkk]
    have e2 : note V s = kk := by rw [note, if_neg hne, hkk]; rfl
    rw [e1, e2]
    have hO := fun a => going_origin (cfg := cfg) (n := n) (s := P) (r := r) (a := a) h (hk.congr (by rw [← hP]; rfl) (by rw [← hP]; rfl) kd (by rw [← hP]; rfl)) (by rw [kT]; exact hq)
      (by rw [kT]; exact h0) (by rw [kT]; exact hf) (by rw [kT]; exact hln) (by rw [kd]; exact hkk) (by rw [kd]; exact hm)
      (by rw [← hP]; simpa [printed] using ho) hr
    simp only [kT, kd] at hO
    generalize ascii " (" ++ f.path ++ ascii ":" ++ kk ++ ascii ": " ++ utf8 ln ++ ascii ")" = org at hO ⊢
    refine .seq (t := shape (noted (printed P org) kk) [] r s.ds) (.elseTrue gg (by len) (by omega) hne ?_) ?_
    · exact hO _
    refine .typed gg htype (by show P.task.s.inner 255 = P.task.s.canary; rw [kT]; exact hq) (by len) (by omega) (.last ?_)
    rw [printed_noted, printed_printed]

theorem recovered_eq (s : VM) (e : Exn) (txt hld : List Byte) :
    ({ (flushed (noted (printed (raised s e) txt) hld)).setTask (fresh (noted (printed (raised s e) txt) hld).task) with
      ds := s.ds, lastError := none } : VM) = recovered s txt hld := by
  have e1 : (noted (printed (raised s e) txt) hld).task = { s.task with s := s.task.s.reset, f := s.task.f.reset, c := s.task.c.reset, st := { s.task.st with abortedWp := s.task.st.wp } } :=
    raised_task s e
  rw [e1]
  have e2 : ∀ (T U : Task) (o : Option (List Byte)) (so : List Byte), ({ (s.setTask T).setTask U with
      lastError := none, outbuf := o, hldbuf := hld, stdout := so } : VM) =
      { s.setTask U with outbuf := o, hldbuf := hld, stdout := so, lastError := none } := by
    intro T U o so; rw [VM.setTask_setTask]
  have e3 : (noted (printed (raised s e) txt) hld).outbuf = s.outbuf.map (· ++ txt) := rfl
  have e4 : (printed s txt).outbuf = s.outbuf.map (· ++ txt) := rfl
  unfold recovered flushed
  rw [e3, e4]
  generalize ho : s.outbuf.map (· ++ txt) = o
  obtain _ | _ | ⟨b, bs⟩ := o
  · exact (e2 _ _ (s.outbuf.map (· ++ txt)) s.stdout)
  · exact (e2 _ _ (s.outbuf.map (· ++ txt)) s.stdout)
  · exact (e2 _ _ (some []) (s.stdout ++ (b :: bs) ++ [10]))

/-- The handler of errors: from the state in which it is entered to the prompt. -/
theorem arrives_prompt (h : HasRepl lv g1 g2 g V ix s0) (hk : StillLoaded lv [g1, g2, g] s0 s) {e : Exn}
    (hT : Tellable V s) (hm : SoundSpace s.ds) (ho : s.outbuf ≠ none) (ht : Traceable s) (hwp : s.task.st.wp < s.wl.words.length)
    (hr : r.length < capacity) {wq : Word} (hq1 : s0.wl.words[ix "quit"]? = some wq) (a a0 a1 : Nat) :
    Arrives cfg n s0.refs lv s0.wl g.1 g.2 s0.cur s0.ds a0 a1 ((abortCode ix).place a) (shape (raised s e) [] r s.ds) fun t =>
      pc t = wq.dfa + 8 ∧ if Quiet e then Like t (recovered s [] s.hldbuf)
        else ∃ b, a0 < b ∧ b ≤ a1 ∧ Like t (recovered s (utf8 (s.tkn.getD []) ++ ascii " " ++ ascii (description e) ++ origin V s ++ ascii ", " ++
          (ascii "backtrace: " ++ r.reverse.flatMap (fun v => whereabouts s v.toNat) ++ culprit (raised s e) ++ whereabouts s b) ++ [13])
          (note V s)) := by
  have hc : capacity = 64 := rfl
  have gg := h.region
  have hu : ∀ name, name ∈ replUses → Builtin s0.wl (ix name) name := h.uses
  have hB := raised_task s e
  have hs : (raised s e).task.s = (raised s e).task.s.reset := by rw [hB]; rfl
  have hkB : StillLoaded lv [g1, g2, g] s0 (raised s e) := hk.congr rfl rfl rfl rfl
  obtain ⟨wq', q1, q2, q3, q4, q5⟩ := h.coded _ (List.mem_of_getElem? (i := 0) rfl)
  rw [hq1] at q1; cases q1
  have q6 : CellIs s0.ds wq.dfa (ix "reset") := q5.1.1
  have q7 : wq.dfa + 8 ≤ g.2 := by
    have q8 : ((code ix [Stmt.againLoop (code ix ["receive", answerCode ix])]).place (wq.dfa + 8)).next (wq.dfa + 8) + 8 ≤ g.2 := q4
    have := Stmt.le_next ((code ix [Stmt.againLoop (code ix ["receive", answerCode ix])]).place (wq.dfa + 8)) (wq.dfa + 8)
    omega
  generalize hBB : raised s e = B at *
  simp only [abortCode]
  steps
  refine .seq (.doing gg (doing_clear (hu _ (by simp [replUses])) hs (by rw [hB]; rfl) (by rw [hB]; rfl))) ?_
  refine .seq (.doing gg (doing_error (hu _ (by simp [replUses])) (e := e) (by rw [← hBB]; rfl) (by len) (by omega))) ?_
  refine .seq (.lit gg (by len) (by omega)) ?_
  refine .seq (.lit gg (by len) (by omega)) ?_
  refine .seq (.doing gg (doing_effect 32 rfl (hu _ (by simp [replUses])) rfl (by len) (by len) (by len))) ?_
  refine .seq (.doing gg (doing_effect 28 rfl (hu _ (by simp [replUses])) rfl (by len) (by len) (by len))) ?_
  have h1 : (-2 : Cell).toInt = -2 := by decide
  have h2 : (1#64 : Cell).toInt = 1 := by decide
  have hlast : ∀ (X : VM) (q : Stmt), X.task.s = X.task.s.reset →
      Arrives cfg n s0.refs lv s0.wl g.1 g.2 s0.cur s0.ds a0 a1 (.seq (.word (ix "flush-output")) (.seq (.word (ix "0error")) (.seq (.word (ix "quit")) q)))
      (shape X [] r s.ds) fun t =>
        Like t { (flushed X).setTask (fresh X.task) with ds := s.ds, lastError := none } ∧ pc t = wq.dfa + 8 := by
    intro X q hX
    refine .seq (.doing gg (doing_flush (hu _ (by simp [replUses])) (by len) (by omega))) ?_
    refine .seq (.doing gg (doing_clearError (hu _ (by simp [replUses])) (by len) (by omega))) ?_
    have e1 : (flushed X).task = X.task := by unfold flushed; split <;> rfl
    have := arrives_quit (cfg := cfg) (n := n) (R := s0.refs) (lv := lv) (lo := g.1) (hi := g.2) (k := s0.cur) (d := s0.ds) (a0 := a0) (a1 := a1) (q := q)
      (s := { flushed X with lastError := none }) (m := s.ds) gg hq1 q2 q3 q7 q6 (hu "reset" (by simp [replUses])) (l := [])
      (by show holding (flushed X).task.s [] = (flushed X).task.s; rw [e1, hX]; simp [holding, Stack.reset]) (by len) hr
    rw [← e1]
    exact this
  have hin : B.task.s.inner 255 = B.task.s.canary := by rw [hB]; rfl
  by_cases hq : Quiet e
  · have e1 : truth ((truth ((-2 : Cell).toInt ≤ e.toCell.toInt ∧ e.toCell.toInt < (1#64 : Cell).toInt)).toInt = 0) = 0 := by
      refine truth_zero fun h3 => ?_
      rw [show truth ((-2 : Cell).toInt ≤ e.toCell.toInt ∧ e.toCell.toInt < (1#64 : Cell).toInt) = -1 by rw [h1, h2]; exact if_pos hq] at h3
      exact absurd h3 (by decide)
    simp only [if_pos hq]
    refine .seq (t := shape B [] r s.ds) ?_ ((hlast B _ hs).mono fun t ht => ⟨ht.2, ?_⟩)
    · rw [e1]; exact .ifFalse gg (by len) (by omega)
    · have := recovered_eq s e [] s.hldbuf
      have eN : noted B s.hldbuf = B := by rw [← hBB]; rfl
      rw [hBB, printed_nil, eN] at this
      rw [← this]; exact ht.1
  · have e1 : truth ((truth ((-2 : Cell).toInt ≤ e.toCell.toInt ∧ e.toCell.toInt < (1#64 : Cell).toInt)).toInt = 0) ≠ 0 := by
      refine truth_ne ?_
      rw [show truth ((-2 : Cell).toInt ≤ e.toCell.toInt ∧ e.toCell.toInt < (1#64 : Cell).toInt) = 0 by rw [h1, h2]; exact if_neg hq]
      decide
    simp only [if_neg hq]
    have kw : B.wl = s.wl := by rw [← hBB]; rfl
    have kd : B.ds = s.ds := by rw [← hBB]; rfl
    have hM := fun a => going_message (cfg := cfg) (n := n) (s := B) (e := e) (r := r) h hkB (by rw [← hBB]; rfl) hin
      (by rw [Tellable, kd, hB]; exact hT) (by rw [kd]; exact hm) (by rw [← hBB]; exact ho) hr a
    have eo : origin V B = origin V s := by rw [origin, origin, kd, hB]
    have en : note V B = note V s := by rw [note, note, kd, hB, ← hBB]; rfl
    have et : B.tkn = s.tkn := by rw [← hBB]; rfl
    rw [kd, eo, en, et] at hM
    generalize hX : utf8 (s.tkn.getD []) ++ ascii " " ++ ascii (description e) ++ origin V s ++ ascii ", " = X at hM ⊢
    have hBd : ∀ x, whereabouts { noted (printed B X) (note V s) with ds := s.ds } x = whereabouts s x := by
      intro x; rw [whereabouts, whereabouts, ← kw]; rfl
    have hBc : culprit { noted (printed B X) (note V s) with ds := s.ds } = culprit B := by
      rw [culprit, culprit, kd]; rfl
    have hbt := leads_backtrace (cfg := cfg) (n := n) (R := s0.refs) (lv := lv) (k := s0.cur) (a0 := a0) (a1 := a1)
      (s := noted (printed B X) (note V s)) (m := s.ds) (l := []) (r := r) gg
      (hu ".backtrace" (by simp [replUses]))
      (by obtain ⟨t1, t2, t3, t4⟩ := ht; exact ⟨t1, by rw [← kw] at t2; exact t2, by rw [← kw] at t3; exact t3, by rw [← kw] at t4; exact t4⟩)
      (by show B.task.st.abortedWp < B.wl.words.length; rw [hB, kw]; exact hwp) (by omega)
    simp only [hBd, hBc] at hbt
    refine .lead (T := fun b => shape (noted (printed B (X ++ (ascii "backtrace: " ++ List.flatMap (fun v => whereabouts s v.toNat) r.reverse ++ culprit B ++ whereabouts s b) ++ [13])) (note V s)) [] r s.ds)
      (.ifTrue gg (by len) (by omega) e1 (.seq (hM _) (.andThen hbt fun b => ?_))) ?_
    · refine .seq (.lit gg (by len) (by omega)) (.seq (.doing gg (doing_emit (hu _ (by simp [replUses])) (by len) (by omega))) ?_)
      rw [printed_noted, printed_noted, printed_printed, printed_printed, ← List.append_assoc]
      exact .skip
    · intro b b1 b2
      refine (hlast (noted (printed B (X ++ (ascii "backtrace: " ++ List.flatMap (fun v => whereabouts s v.toNat) r.reverse ++ culprit B ++ whereabouts s b) ++ [13])) (note V s)) _ hs).mono
        fun t ht => ⟨ht.2, b, b1, b2, ?_⟩
      have := recovered_eq s e (X ++ (ascii "backtrace: " ++ List.flatMap (fun v => whereabouts s v.toNat) r.reverse ++ culprit B ++ whereabouts s b) ++ [13]) (note V s)
      rw [hBB] at this
      rw [← this]; exact ht.1

/-- What holds between the tokens of a line holds after it. -/
theorem Spec.Works.still {room : Nat} {gs : List (Nat × Nat)} {toks : List (List Char)}
    (h : Works cfg n room (StillLoaded lv gs s0) toks s t) (hs : StillLoaded lv gs s0 s) : StillLoaded lv gs s0 t := by
  induction h with
  | done => exact hs.congr rfl rfl rfl rfl
  | token _ _ _ hL _ ih => exact ih hL

theorem Spec.Works.calm {room : Nat} {L : VM → Prop} {toks : List (List Char)}
    (h : Works cfg n room L toks s t) (hs : Calm s.task.s) : Calm t.task.s := by
  induction h with
  | done => rw [took_task]; exact hs
  | token _ _ he _ _ ih => exact ih he.calm.1

/-- What `quit` does with a line. -/
theorem going_answer (h : HasRepl lv g1 g2 g V ix s0) {room : Nat} {toks : List (List Char)}
    (hw : Works cfg n room (StillLoaded lv [g1, g2, g] s0) toks (printed s (ascii " ")) t) (hk : StillLoaded lv [g1, g2, g] s0 s)
    (hq : Calm s.task.s) (hd : (data s).length + 2 ≤ capacity) (hd' : (data t).length + 2 ≤ capacity)
    (hr : r.length + 1 + room ≤ capacity) (a : Nat) :
    Going cfg n s0.refs lv s0.wl g.1 g.2 s0.cur s0.ds ((answerCode ix).place a) (setRet s r) (setRet (answered t) r) := by
  have hc : capacity = 64 := rfl
  have gg := h.region
  have hu : ∀ name, name ∈ replUses → Builtin s0.wl (ix name) name := h.uses
  have hkt := hw.still (hk.congr rfl rfl rfl rfl)
  have hqt := hw.calm (show Calm (printed s (ascii " ")).task.s from hq)
  have hread : Calling cfg n s0.refs lv s0.wl g.1 g.2 s0.cur s0.ds (ix "evaluate-input") (setRet (printed s (ascii " ")) r) (setRet t r) := by
    intro _
    refine ⟨(call_reader h.reader.region h.reader.uses h.reader.coded (hw.mono fun b hb => hb.loaded (g := g2) (by simp))
        (by show (data s).length < _; omega) (by omega) (by omega) ((hk.loaded (g := g2) (by simp)).congr rfl rfl rfl)).1,
      (hkt.loaded (g := g) (by simp)).congr rfl rfl rfl⟩
  rw [← shape_setRet s]
  simp only [answerCode]
  steps
  refine .typed gg (hu _ (by simp [replUses])) hq.under (by omega) (by omega) ?_
  rw [show shape (printed s (ascii " ")) (data s) r s.ds = setRet (printed s (ascii " ")) r from shape_setRet (printed s (ascii " ")) r]
  refine .seq (.word gg hread) ?_
  rw [← shape_setRet t]
  refine .seq (.doing gg (doing_compiling (hu _ (by simp [replUses])) (by omega) (by omega))) ?_
  refine .seq (.doing gg (doing_effect 28 rfl (hu _ (by simp [replUses])) rfl (by len) (by len) (by omega))) ?_
  dsimp only
  rw [not_truth_zero]
  refine .seq (t := shape (printed t (if t.task.st.isCompiling then [] else ascii " ok")) (data t) r t.ds) ?_ ?_
  · cases hm : t.task.st.isCompiling
    · refine .ifTrue gg (by len) (by omega) (truth_ne (by simp)) ?_
      exact .typed gg (hu _ (by simp [replUses])) hqt.under (by omega) (by omega) .skip
    · rw [show truth (¬true = true) = 0 from truth_zero (by simp)]
      simp only [if_true, printed_nil]
      exact .ifFalse gg (by len) (by omega)
  refine .seq (.lit gg (by len) (by omega)) ?_
  refine .seq (.doing gg (doing_emit (hu _ (by simp [replUses])) (by len) (by omega))) ?_
  refine .seq (.doing gg (doing_flush (hu _ (by simp [replUses])) (by len) (by omega))) ?_
  have e : flushed (printed t ((if t.task.st.isCompiling then [] else ascii " ok") ++ utf8Char (Char.ofNat ((13#64 : Cell).toNat % 256)))) = answered t := by
    rw [answered]
    congr 2
    cases t.task.st.isCompiling <;> rfl
  have e1 : data (answered t) = data t := by rw [answered, flushed_beside, data, beside_task]; rfl
  have e2 : (answered t).ds = t.ds := by rw [answered, flushed_beside]; rfl
  rw [printed_printed, ← shape_setRet, e1, e2, ← e]
  exact .skip

end
end Verif
