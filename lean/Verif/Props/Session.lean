import Verif.Lemmas.Failing
import Verif.Lemmas.ReplImage
import Verif.Props.Loader

/-!
# C66: a session at the terminal
-/

namespace Verif
open Spec Stack

section
variable {lv n V room : Nat} {s0 s t u : VM} {cfg : Cfg} {l r : List Cell} {ix : String → Nat}
  {g1 g2 g : Nat × Nat} {ls : List (List Char)} {e : Exn}

/-- C66. When an error is raised, the handler tells about it, empties the stacks and goes on at the prompt, reading from
the terminal. After `abort` nothing is told. -/
theorem C66_error (h : HasRepl lv g1 g2 g V ix s0) (hk : StillLoaded lv [g1, g2, g] s0 s) (hR : Recoverable V ix s) :
    ∃ s2 t, abortWith (ctx cfg (n + 1)) e s = .ok ((), s2) ∧ Steps cfg (n + 1) s2 t ∧ PromptAt ix s0 (pc t) ∧
      Recovered V ix s0 e s t := by
  have hc : capacity = 64 := rfl
  have hwp := hR.word
  have hr := hR.room
  obtain ⟨w, w1, w2, w3, w4, w5⟩ := h.coded _ (List.mem_of_getElem? (i := 1) rfl)
  obtain ⟨wq, q1, -⟩ := h.coded _ (List.mem_of_getElem? (i := 0) rfl)
  have hL := hk.loaded (g := g) (by simp)
  have hLr : Loaded s0.refs lv s0.wl g.1 g.2 s0.cur s0.ds (raised s e) := hL.congr rfl rfl rfl
  obtain ⟨v, e1, e2, e3⟩ := hLr.kept _ _ w1
  have hrr : (raised s e).task.r = s.task.r := by rw [raised_task]
  have hp : pc (raised s e) = pc s := by simp only [pc, raised_task]
  have hri : ret s = s.task.r.items := rfl
  have hp1 := push_holding s.task.r (toCell (pc s)) (by rw [← hri]; omega)
  have ex : execWord cfg (n + 1) (ix "(abort)") (raised s e) =
      .ok ((), (raised s e).put (raised s e).task.s (s.task.r.push (toCell (pc s))) (raised s e).task.f w.dfa (ix "(abort)")) := by
    rw [exec_word e1, e2, w2]
    simp only [action, coreAction, nest, M.bind_apply, getSt_apply, VM.at_task, rPush_apply]
    rw [wordAt_ok (w := v) (by simpa using e1)]
    simp [setIp, VM.at, VM.put, e3, pc, raised_task]
  have hsd : (raised s e).task.s.items = [] := by rw [raised_task]; rfl
  have hself : shape (raised s e) [] (ret s) s.ds = raised s e := by
    have := shape_setRet (raised s e) (ret s)
    rw [show data (raised s e) = [] from hsd, show (raised s e).ds = s.ds from rfl] at this
    rw [this, show ret s = ret (raised s e) by rw [ret, ret, hrr], setRet_self]
  have hl2 : Like ((raised s e).put (raised s e).task.s (s.task.r.push (toCell (pc s))) (raised s e).task.f w.dfa (ix "(abort)"))
      (shape (raised s e) [] (toCell (pc s) :: ret s) s.ds) := like_shape (s := raised s e) (m := s.ds) (m' := s.ds) (l := []) (l' := []) (r := ret s) (r' := toCell (pc s) :: ret s) (u := raised s e)
    (ds := (raised s e).task.s) (rs := s.task.r.push (toCell (pc s))) (by simp) (by omega) (by simp) (by simp; omega)
    (by rw [hself]; exact .refl _) (by rw [← hsd, holding_self]; exact .refl _) (by rw [hrr, hp1]; exact .refl _) w.dfa (ix "(abort)")
  obtain ⟨t1, f1, f2, f3⟩ := arrives_prompt (cfg := cfg) (n := n) (r := toCell (pc s) :: ret s) (e := e) h hk hR.tellable hR.space hR.output
    hR.names hwp (by simp; omega) q1 w.dfa w.dfa (((abortCode ix).place w.dfa).next w.dfa) (hL.congr rfl rfl rfl) w.dfa _ w5.1 w3
    (Nat.le_trans (Stmt.le_next .exit _) w4) (Nat.le_refl _) (Nat.le_refl _) hl2 (by simp [pc, VM.put])
  refine ⟨_, t1, ?_, f1, ⟨wq, q1, f2⟩, ?_⟩
  · rw [abortWith_run, hR.handler]
    exact ex
  · split at f3
    · rename_i hq
      rw [Recovered, if_pos hq]; exact f3
    · rename_i hq
      rw [Recovered, if_neg hq]
      obtain ⟨b, b1, b2, b3⟩ := f3
      exact ⟨b, ⟨w, w1, b1, by rwa [Stmt.place_next] at b2⟩, b3⟩

theorem Spec.HasRepl.layout (h : HasRepl lv g1 g2 g V ix s0) : ∃ w, s0.wl.words[ix "quit"]? = some w ∧ g.1 ≤ w.dfa ∧
    CellIs s0.ds (w.dfa + 8) (ix "receive") ∧ ((answerCode ix).place (w.dfa + 16)).At s0.refs lv s0.ds (w.dfa + 16) ∧
    (answerCode ix).next (w.dfa + 16) + 16 ≤ g.2 ∧ CellIs s0.ds ((answerCode ix).next (w.dfa + 16)) s0.refs.branch ∧
    CellIs s0.ds ((answerCode ix).next (w.dfa + 16) + 8) (w.dfa + 8) ∧ (answerCode ix).next (w.dfa + 16) ≤ (quitCode ix).next w.dfa := by
  obtain ⟨w, w1, w2, w3, w4, w5⟩ := h.coded _ (List.mem_of_getElem? (i := 0) rfl)
  have e : ∀ p : Stmt, quitCode ix = code ix ["reset", Stmt.againLoop (code ix ["receive", p])] → 
    (Stmt.seq ((quitCode ix).place w.dfa) .exit).next w.dfa ≤ g.2 →
    (Stmt.seq ((quitCode ix).place w.dfa) .exit).At s0.refs lv s0.ds w.dfa → 
    CellIs s0.ds (w.dfa + 8) (ix "receive") ∧ (p.place (w.dfa + 16)).At s0.refs lv s0.ds (w.dfa + 16) ∧
    p.next (w.dfa + 16) + 16 ≤ g.2 ∧ CellIs s0.ds (p.next (w.dfa + 16)) s0.refs.branch ∧
    CellIs s0.ds (p.next (w.dfa + 16) + 8) (w.dfa + 8) ∧ p.next (w.dfa + 16) ≤ (quitCode ix).next w.dfa := by
    intro p hp
    rw [hp]
    simp only [code, Stmt.all, List.map, Part.code, Stmt.place, Stmt.At, Stmt.next, Stmt.place_next]
    rintro k1 ⟨⟨-, ⟨⟨k2, k3, -⟩, k4, k5⟩, -⟩, -⟩
    rw [show w.dfa + 8 + 8 = w.dfa + 16 from rfl] at k1 ⊢
    exact ⟨k2, k3, by omega, k4, k5, by omega⟩
  exact ⟨w, w1, w3, e _ rfl w4 w5⟩

/-- C66. A line that is evaluated without an error is answered, and the machine is back at the prompt. -/
theorem C66_line (h : HasRepl lv g1 g2 g V ix s0) (hA : Asked lv [g1, g2, g] room s0 s) {toks : List (List Char)}
    (hw : Works cfg n room (StillLoaded lv [g1, g2, g] s0) toks (printed s (ascii " ")) t) (hd' : (data t).length + 2 ≤ capacity)
    {a : Nat} (ha : PromptAt ix s0 a) {s1 : VM} (hl : Like s1 s) (hp : pc s1 = a + 8) :
    ∃ t1, Steps cfg (n + 1) s1 t1 ∧ pc t1 = a ∧ Like t1 (setRet (answered t) (ret s)) := by
  obtain ⟨w, w1, w2, -, w4, w5, w6, w7, -⟩ := h.layout
  obtain ⟨w', k1, rfl⟩ := ha
  rw [w1] at k1; cases k1
  have hk := hA.still
  obtain ⟨e1, e2⟩ := going_answer (r := ret s) h hw hk hA.calm hA.data hd' hA.ret (w.dfa + 16)
    (by rw [setRet_self]; exact hk.loaded (g := g) (by simp))
  have := (answerCode ix).le_next (w.dfa + 16)
  obtain ⟨u, u1, u2, u3⟩ := e2 (w.dfa + 16) s1 w4 (by omega) (by rw [Stmt.place_next]; omega) (by rw [setRet_self]; exact hl) hp
  rw [Stmt.place_next] at u3
  obtain ⟨v, v1, v2, v3⟩ := run_branch (cfg := cfg) (n := n) u2 e1 h.region u3 (by omega) (by omega) w6 w7
  exact ⟨v, u1.trans v1, v3, v2⟩

/-- C66. If evaluating the line comes to an error, the machine is back at the prompt after telling about the error. -/
theorem C66_bad_line (h : HasRepl lv g1 g2 g V ix s0) (hA : Asked lv [g1, g2, g] room s0 s) {toks : List (List Char)}
    {P : List Cell → VM → Prop} (hn : 0 < n)
    (hw : Fails cfg n room (StillLoaded lv [g1, g2, g] s0) e P toks (printed s (ascii " ")))
    (hP : ∀ z u, Behind ix s0 "quit" (quitCode ix) z → P (toCell z :: ret s) u → StillLoaded lv [g1, g2, g] s0 u ∧ Recoverable V ix u)
    {a : Nat} (ha : PromptAt ix s0 a) {s1 : VM} (hl : Like s1 s) (hp : pc s1 = a + 8) :
    ∃ z u t1, Behind ix s0 "quit" (quitCode ix) z ∧ P (toCell z :: ret s) u ∧ Steps cfg (n + 1) s1 t1 ∧ pc t1 = a ∧
      Recovered V ix s0 e u t1 := by
  obtain ⟨w, w1, w2, -, w4, w5, w6, w7, w8⟩ := h.layout
  obtain ⟨w', k1, rfl⟩ := ha
  rw [w1] at k1; cases k1
  have := (answerCode ix).le_next (w.dfa + 16)
  obtain ⟨z, u, m, z1, z2, hm, hu, hx⟩ := breaks_called (r := ret s) (q := (code ix ["compiling?", "not",
    Stmt.ifThen (code ix [Stmt.str 0 (ascii " ok"), "type"]), 13, "emit", "flush-output"]).place (roundUp8 (w.dfa + 16 + 16 + 1) + 16)) h hw hA.still hn hA.calm hA.data hA.ret w4 (by omega)
    (by show ((answerCode ix).place (w.dfa + 16)).next (w.dfa + 16) ≤ g.2; rw [Stmt.place_next]; omega) (by rw [setRet_self]; exact hl) hp
  have z3 : z ≤ ((answerCode ix).place (w.dfa + 16)).next (w.dfa + 16) := z2
  rw [Stmt.place_next] at z3
  have hz : Behind ix s0 "quit" (quitCode ix) z := ⟨w, w1, by omega, by omega⟩
  obtain ⟨hk, hR⟩ := hP z u hz hu
  obtain ⟨x, t1, x1, x2, ⟨w', x3, x4⟩, x5⟩ := C66_error (cfg := cfg) (n := m) (e := e) h hk hR
  rw [w1] at x3; cases x3
  exact ⟨z, u, t1, hz, hu, (hx x x1).trans (x2.deeper (by omega)), x4, x5⟩

/-- C66. An error changes neither the memory nor the dictionary; the sources and files that were open stay open. -/
theorem C66_kept (h : Recovered V ix s0 e s t) : t.ds = s.ds ∧ t.wl = s.wl ∧ t.cur = s.cur ∧ t.refs = s.refs ∧ t.handler = s.handler ∧
    t.task.sources = s.task.sources ∧ t.task.files = s.task.files := by
  have key : ∀ text hld, Like t (recovered s text hld) → t.ds = s.ds ∧ t.wl = s.wl ∧ t.cur = s.cur ∧ t.refs = s.refs ∧
      t.handler = s.handler ∧ t.task.sources = s.task.sources ∧ t.task.files = s.task.files := by
    intro text hld hl
    obtain ⟨_, _, _, _, _, -, -, -, e⟩ := hl
    rw [e]
    rw [recovered, flushed_beside]
    refine ⟨rfl, rfl, rfl, rfl, rfl, ?_, ?_⟩ <;> rw [VM.task_setTask] <;> simp [VM.task, fresh, VM.setTask]
  rw [Recovered] at h
  split at h
  · exact key _ _ h
  · obtain ⟨b, -, h⟩ := h
    exact key _ _ h

/-- C66. So a session goes on for ever: from the prompt, any number of lines, with or without errors, lead to the prompt again. -/
theorem C66_session (h : HasRepl lv g1 g2 g V ix s0) (hn : 0 < n) {Q : VM → Prop}
    (hS : Session cfg n room lv [g1, g2, g] V ix s0 Q s) (hk : StillLoaded lv [g1, g2, g] s0 s)
    {a : Nat} (ha : PromptAt ix s0 a) : ∀ {s1 : VM}, Like s1 s → pc s1 = a →
    ∃ t t1, Q t ∧ StillLoaded lv [g1, g2, g] s0 t ∧ Steps cfg (n + 1) s1 t1 ∧ pc t1 = a ∧ Like t1 t := by
  have hrec : ∀ {s s' s1 : VM}, StillLoaded lv [g1, g2, g] s0 s → Acts cfg (n + 1) (ix "receive") s s' → Like s1 s → pc s1 = a →
      ∃ t1, Steps cfg (n + 1) s1 t1 ∧ Like t1 s' ∧ pc t1 = a + 8 := by
    intro s s' s1 hk hx hl hp
    obtain ⟨w, w1, w2, w3, w4, w5, -⟩ := h.layout
    obtain ⟨w', k1, rfl⟩ := ha
    rw [w1] at k1; cases k1
    have hL := (hk.loaded (g := g) (by simp)).like hl
    have := (answerCode ix).le_next (w.dfa + 16)
    have := h.region.upper; have := h.region.small
    obtain ⟨s2, t1, f1, -, f3, f4, f5⟩ := hx (s1.at (w.dfa + 8 + 8) s1.task.st.wp) (hl.at _ _) (by simp [pc]; omega)
    exact ⟨t1, Steps.trans (.one (step_word hL h.region hp (by omega) (by omega) w3 f1)) f3, f4, by rw [f5]; simp [pc]⟩
  induction hS with
  | here hQ => intro s1 hl hp; exact ⟨_, s1, hQ, hk, .refl _, hp, hl⟩
  | line hx hA hw hd' _ ih =>
    intro s1 hl hp
    obtain ⟨t1, f1, f2, f3⟩ := hrec hk hx hl hp
    obtain ⟨t2, k1, k2, k3⟩ := C66_line h hA hw hd' ha f2 f3
    obtain ⟨t, t3, j1, j0, j2, j3, j4⟩ := ih ((hw.still (hA.still.congr rfl rfl rfl rfl)).congr
      (by rw [answered, flushed_beside]; rfl) (by rw [answered, flushed_beside]; rfl) (by rw [answered, flushed_beside]; rfl)
      (by rw [answered, flushed_beside]; rfl)) k3 k2
    exact ⟨t, t3, j1, j0, (f1.trans k1).trans j2, j3, j4⟩
  | error hx hA hw hP _ ih =>
    intro s1 hl hp
    obtain ⟨t1, f1, f2, f3⟩ := hrec hk hx hl hp
    obtain ⟨z, u, t2, hz, hu, k1, k2, k3⟩ := C66_bad_line h hA hn hw hP ha f2 f3
    obtain ⟨c1, c2, c3, c4, -⟩ := C66_kept k3
    obtain ⟨t, t3, j1, j0, j2, j3, j4⟩ := ih z u t2 hz hu k3 ((hP z u hz hu).1.congr c4 c3 c1 c2) (.refl _) k2
    exact ⟨t, t3, j1, j0, (f1.trans k1).trans j2, j3, j4⟩

/-! ### Tokens that come to an error -/

/-- The machine on which an error is raised: like `b`, with `r` on the return stack, and the word being executed is one of the
dictionary. -/
def Spec.RaisedOn (b : VM) (r : List Cell) (u : VM) : Prop := Like u (setRet b r) ∧ u.task.st.wp < u.wl.words.length

variable {a b : VM} {tok : List Char} {w : Word} {i : Nat}

/-- C66. A token that is neither a word nor a number is an undefined word. Nothing was done for it. -/
theorem C66_unknown (hs : SoundSpace a.ds) (hu : UnknownToken (ctx cfg (n + 1)) a tok)
    (hi : ∀ v, ¬IntegerToken (currentBase a).toInt (utf8 tok) v) (hf : ∀ v, ¬FloatToken cfg.fops (utf8 tok) v) :
    ∃ x, ∀ r : List Cell, TokenRaises cfg (n + 1) .undefinedWord (RaisedOn { a with lastError := some x } r) (setRet a r) := by
  cases hfv : floatValue cfg.fops (utf8 tok) with
  | ok v => exact absurd ((floatValue_iff _ _ _).1 hfv) (hf v)
  | error x =>
    refine ⟨x, fun r s1 hl hpc hwp => ?_⟩
    obtain ⟨g1, g2, g3, -, -, -, g7, -⟩ := parts_setRet hl
    have hu' : UnknownToken (ctx cfg (n + 1)) s1 tok := ⟨g3.trans hu.token, find_congr (s := a) g1.symm g2.symm hu.notWord⟩
    have h1 : integerValue (s1.ds.cellAt s1.ds.baseAddr) (utf8 tok) = none := by
      rw [g2]
      cases h : integerValue (a.ds.cellAt a.ds.baseAddr) (utf8 tok) with
      | none => rfl
      | some v => exact absurd ((integerValue_iff _ _ _).1 h) (hi v)
    have hev : evalToken (ctx cfg (n + 1)) s1 = evaluateNumber (ctx cfg (n + 1)) tok { s1 with tkn := none } := by
      rw [evalToken, M.bind_apply, getSt_apply]
      dsimp only
      split
      · have hf' : find (ctx cfg (n + 1)) (utf8 tok) { s1 with tkn := none } = .ok (none, { s1 with tkn := none }) :=
          find_congr (s := s1) rfl rfl hu'.notWord
        simp only [compileToken, M.bind_apply, takeToken, hu'.token, hf']
      · exact interpretToken_none hu'.token hu'.notWord
    refine ⟨{ s1 with lastError := some x }, n, by omega, ⟨?_, hwp⟩, fun y hy => ⟨y, ?_, .refl _⟩⟩
    · obtain ⟨ip, wp, ds, rs, fs, e1, e2, e3, rfl⟩ := hl
      exact ⟨ip, wp, ds, rs, fs, e1, e2, e3, rfl⟩
    · rw [hev, evaluateNumber_none (s := { s1 with tkn := none }) (by show SoundSpace s1.ds; rw [g2]; exact hs) h1 hfv]
      have ht := hu'.token
      have : ({ s1 with tkn := some tok, lastError := some x } : VM) = { s1 with lastError := some x } := by
        rw [← ht]
      rw [← hy, ← this]

/-- C66. A token that names a word for compiling only raises an error when the machine interprets. -/
theorem C66_compile_only (d : Dict a) (hi : InSpace a) (ht : a.tkn = some tok) (hn : Newest a (utf8 tok) (some i))
    (hw : a.wl.words[i]? = some w) (hm : a.task.st.isCompiling = false) (hc : w.isCompileOnly = true) (r : List Cell) :
    TokenRaises cfg (n + 1) .interpretingCompileOnly (RaisedOn a r) (setRet a r) := by
  intro s1 hl hpc hwp
  obtain ⟨g1, g2, g3, -, -, -, g7, -⟩ := parts_setRet hl
  refine ⟨s1, n, by omega, ⟨hl, hwp⟩, fun y hy => ⟨y, ?_, .refl _⟩⟩
  have hi' : InSpace s1 := by simpa only [InSpace, g2] using hi
  have hn' : Newest s1 (utf8 tok) (some i) := by simpa only [Newest, Visible, g1, g2] using hn
  have hw' : s1.wl.words[i]? = some w := by rw [g1]; exact hw
  rw [C33_compileOnly (c := ctx cfg (n + 1)) (d.congr g1 g2) hi' (g3.trans ht) hn' hw' (g7.trans hm) hc, ← hy, abortWith_run]
  rfl

/-- C66. A token that names a word which raises an error raises that error. -/
theorem C66_word {P : VM → Prop} {r : List Cell} (d : Dict a) (hi : InSpace a) (ht : a.tkn = some tok) (hn : Newest a (utf8 tok) (some i))
    (hw : a.wl.words[i]? = some w) (hm : if a.task.st.isCompiling then w.isImmediate = true else w.isCompileOnly = false)
    (hx : ∀ s1, Like s1 (setRet a r) → pc s1 < 2 ^ 64 → ∃ u m, m < n ∧ P u ∧
      ∀ x, abortWith (ctx cfg (m + 1)) e u = .ok ((), x) → ∃ s2, execWord cfg n i s1 = .ok ((), s2) ∧ Steps cfg n s2 x) :
    TokenRaises cfg n e P (setRet a r) := by
  intro s1 hl hpc hwp
  obtain ⟨u, m, hmn, hu, f⟩ := hx s1 hl hpc
  refine ⟨u, m, hmn, hu, fun x hx => ?_⟩
  obtain ⟨s2, f1, f2⟩ := f x hx
  obtain ⟨g1, g2, g3, -, -, -, g7, -⟩ := parts_setRet hl
  refine ⟨s2, ?_, f2⟩
  have hi' : InSpace s1 := by simpa only [InSpace, g2] using hi
  have hn' : Newest s1 (utf8 tok) (some i) := by simpa only [Newest, Visible, g1, g2] using hn
  have hw' : s1.wl.words[i]? = some w := by rw [g1]; exact hw
  rw [← g7] at hm
  cases hq : s1.task.st.isCompiling
  · rw [hq] at hm
    exact (C33_interpret (c := ctx cfg n) (d.congr g1 g2) hi' (g3.trans ht) hn' hw' hq (by simpa using hm)).trans f1
  · rw [hq] at hm
    exact (C33_immediate (c := ctx cfg n) (d.congr g1 g2) hi' (g3.trans ht) hn' hw' hq (by simpa using hm)).trans f1

/-- C66. For instance `abort`, after which nothing is told. -/
theorem C66_abort {r : List Cell} (d : Dict a) (hi : InSpace a) (ht : a.tkn = some tok) (hn : Newest a (utf8 tok) (some i))
    (hw : a.wl.words[i]? = some w) (hm : a.task.st.isCompiling = false) (hc : w.isCompileOnly = false)
    (hp : primOf "abort" = some w.action) :
    TokenRaises cfg (n + 2) .abort (RaisedOn a r) (setRet a r) ∧ Quiet .abort := by
  refine ⟨C66_word d hi ht hn hw (by rw [hm]; exact hc) fun s1 hl hpc => ?_, by decide⟩
  obtain ⟨g1, g2, g3, -, -, -, g7, -⟩ := parts_setRet hl
  have hw' : s1.wl.words[i]? = some w := by rw [g1]; exact hw
  refine ⟨s1.at s1.task.st.ip i, n, by omega, ⟨hl.at _ _, by simpa using (List.getElem?_eq_some_iff.1 hw').1⟩, fun x hx => ⟨x, ?_, .refl _⟩⟩
  rw [exec_word hw', ← hx, ← Option.some.inj hp]
  rfl

theorem recovered_facts {text hld o : List Byte} (h : Like t (recovered s text hld)) (ho : s.outbuf = some o) (hne : o ++ text ≠ []) :
    data t = [] ∧ ret t = [] ∧ t.lastError = none ∧ t.task.st.isCompiling = false ∧ t.ds = s.ds ∧ t.wl = s.wl ∧
      t.outbuf = some [] ∧ t.stdout = s.stdout ++ (o ++ text) ++ [10] := by
  have hf : flushed (printed s text) = { printed s text with stdout := s.stdout ++ (o ++ text) ++ [10], outbuf := some [] } := by
    rw [flushed, printed, ho]
    cases hx : o ++ text with
    | nil => exact absurd hx hne
    | cons b l => simp [hx]
  have ht : (recovered s text hld).task = fresh { s.task with s := s.task.s.reset, f := s.task.f.reset, c := s.task.c.reset } := by
    exact VM.task_setTask (flushed (printed s text)) _
  have h1 : t.task.s.items = (recovered s text hld).task.s.items := h.s.items
  have h2 : t.task.r.items = (recovered s text hld).task.r.items := h.r.items
  rw [ht] at h1 h2
  refine ⟨h1, h2, ?_, ?_, h.ds.trans ?_, h.wl.trans ?_, ?_, ?_⟩
  · obtain ⟨_, _, _, _, _, -, -, -, rfl⟩ := h; rfl
  · obtain ⟨_, _, _, _, _, -, -, -, e⟩ := h.task
    rw [e, ht]; rfl
  · rw [recovered, hf]; rfl
  · rw [recovered, hf]; rfl
  · obtain ⟨_, _, _, _, _, -, -, -, rfl⟩ := h; rw [recovered, hf]; rfl
  · obtain ⟨_, _, _, _, _, -, -, -, rfl⟩ := h; rw [recovered, hf]; rfl

theorem Spec.RaisedOn.ready {u : VM} {r : List Cell} {gs : List (Nat × Nat)} (h : RaisedOn b r u) (hk : StillLoaded lv gs s0 b)
    (hh : b.handler = ix "(abort)") (hT : Tellable V b) (hm : SoundSpace b.ds) (ho : b.outbuf ≠ none) (ht : Traceable b)
    (hr : r.length + 1 < capacity) : StillLoaded lv gs s0 u ∧ Recoverable V ix u := by
  obtain ⟨hl, hw⟩ := h
  have hc : capacity = 64 := rfl
  obtain ⟨g1, g2, g3, g4, g5, g6, g7, g8⟩ := parts_setRet hl
  have hri : ret u = r := hl.ret.trans (ret_setRet (by omega))
  have hcu : u.cur = b.cur := by obtain ⟨_, _, _, _, _, -, -, -, rfl⟩ := hl; rfl
  have hou : u.outbuf = b.outbuf := by obtain ⟨_, _, _, _, _, -, -, -, rfl⟩ := hl; rfl
  have htu : u.task.st.sourceId = b.task.st.sourceId ∧ u.task.sources = b.task.sources ∧ u.task.lines = b.task.lines := by
    obtain ⟨_, _, _, _, _, -, -, -, e⟩ := hl.task
    rw [e]
    simp [setRet]
  refine ⟨hk.congr g5 hcu g2 g1, g6.trans hh, ?_, by rw [g2]; exact hm, by rw [hou]; exact ho, ?_, hw, by rw [hri]; exact hr⟩
  · rw [Tellable, htu.1, htu.2.1, htu.2.2, g2]; exact hT
  · obtain ⟨t1, t2, t3, t4⟩ := ht
    exact ⟨by rw [g2]; exact t1, by rw [g1, g2]; exact t2, by rw [g1, g2]; exact t3, by rw [g1]; exact t4⟩

/-- C66. A typo: the first token of the line typed is neither a word nor a number. The machine prints it, says that it is undefined, and
comes back to the prompt with empty stacks and with its memory and dictionary as they were. -/
theorem C66_typo (h : HasRepl lv g1 g2 g V ix s0) (hA : Asked lv [g1, g2, g] room s0 s) {pre bs more : List Char}
    (hx : Next (printed s (ascii " ")) pre bs tok more) (hne : tok ≠ []) (hu : UnknownToken (ctx cfg (n + 1)) (took (printed s (ascii " ")) pre bs tok) tok)
    (hi : ∀ v, ¬IntegerToken (currentBase s).toInt (utf8 tok) v) (hf : ∀ v, ¬FloatToken cfg.fops (utf8 tok) v)
    (hh : s.handler = ix "(abort)") (hm : SoundSpace s.ds) (ht : Traceable s) {o : List Byte} (ho : s.outbuf = some o)
    (hid : s.task.st.sourceId = 0) (hr : (ret s).length + 2 < capacity)
    {a : Nat} (ha : PromptAt ix s0 a) {s1 : VM} (hl : Like s1 s) (hp : pc s1 = a + 8) :
    ∃ t1 bt, Steps cfg (n + 2) s1 t1 ∧ pc t1 = a ∧ data t1 = [] ∧ ret t1 = [] ∧ t1.lastError = none ∧
      t1.task.st.isCompiling = false ∧ t1.ds = s.ds ∧ t1.wl = s.wl ∧ t1.outbuf = some [] ∧
      t1.stdout = s.stdout ++ o ++ ascii " " ++ utf8 tok ++ ascii " Undefined word, backtrace: " ++ bt ++ [13, 10] := by
  have hc : capacity = 64 := rfl
  generalize hb : took (printed s (ascii " ")) pre bs tok = b at hu
  have hbd : b.ds = s.ds := by rw [← hb]; rfl
  have hbw : b.wl = s.wl := by rw [← hb]; rfl
  have hbt : b.tkn = some tok := by rw [← hb]; rfl
  have hbh : b.handler = s.handler := by rw [← hb]; rfl
  have hbi : b.task.st.sourceId = 0 := by rw [← hb, took_task]; exact hid
  have hbo : b.outbuf = some (o ++ ascii " ") := by rw [← hb]; show (printed s _).outbuf = _; rw [printed, ho]; rfl
  have hbs : b.stdout = s.stdout := by rw [← hb]; rfl
  have hbk : StillLoaded lv [g1, g2, g] s0 b := by rw [← hb]; exact hA.still.congr rfl rfl rfl rfl
  have hbase : currentBase b = currentBase s := by rw [currentBase, hbd]; rfl
  obtain ⟨x, hx2⟩ := C66_unknown (cfg := cfg) (n := n) (by rw [hbd]; exact hm) hu (by rw [hbase]; exact hi) hf
  have hF : Fails cfg (n + 1) room (StillLoaded lv [g1, g2, g] s0) .undefinedWord (RaisedOn { b with lastError := some x }) [tok] (printed s (ascii " ")) :=
    .raises hx hne fun r _ => by rw [hb]; exact hx2 r
  have hready : ∀ z u, RaisedOn { b with lastError := some x } (toCell z :: ret s) u → StillLoaded lv [g1, g2, g] s0 u ∧ Recoverable V ix u := by
    intro z u hu
    refine hu.ready (hbk.congr rfl rfl rfl rfl) (hbh.trans hh) (.inl hbi) (by show SoundSpace b.ds; rw [hbd]; exact hm)
      (by show b.outbuf ≠ none; rw [hbo]; simp) ?_ (by simp; omega)
    obtain ⟨t1, t2, t3, t4⟩ := ht
    exact ⟨by show b.ds.limit < _; rw [hbd]; exact t1, by show ∀ (i : Nat) (w : Word), b.wl.words[i]? = some w → b.ds.start ≤ w.nfa; rw [hbd, hbw]; exact t2,
      by show ∀ (i : Nat) (w : Word), b.wl.words[i]? = some w → w.nfa + 8 + (b.ds.cellAt w.nfa).toNat ≤ b.ds.limit; rw [hbd, hbw]; exact t3,
      by show ∀ (i j : Nat) (v w : Word), i < j → b.wl.words[i]? = some v → b.wl.words[j]? = some w → v.nfa < w.nfa; rw [hbw]; exact t4⟩
  obtain ⟨z, u, t1, hz, hur, f1, f2, f3⟩ := C66_bad_line h hA (by omega) hF (fun z u _ => hready z u) ha hl hp
  obtain ⟨g1', g2', g3', -⟩ := parts_setRet hur.1
  have hou : u.outbuf = some (o ++ ascii " ") := by rw [← hbo]; obtain ⟨⟨_, _, _, _, _, -, -, -, rfl⟩, -⟩ := hur; rfl
  have hsu : u.stdout = s.stdout := by rw [← hbs]; obtain ⟨⟨_, _, _, _, _, -, -, -, rfl⟩, -⟩ := hur; rfl
  have hiu : u.task.st.sourceId = 0 := by
    rw [← hbi]; obtain ⟨_, _, _, _, _, -, -, -, e⟩ := hur.1.task
    rw [e]; simp [setRet]
  rw [Recovered, if_neg (by decide)] at f3
  obtain ⟨bb, -, hrec⟩ := f3
  obtain ⟨r1, r2, r3, r4, r5, r6, r7, r8⟩ := recovered_facts hrec hou (by simp [message])
  refine ⟨t1, traced u .undefinedWord bb |>.drop 11, f1, f2, r1, r2, r3, r4, r5.trans (g2'.trans hbd), r6.trans (g1'.trans hbw), r7, ?_⟩
  rw [r8, hsu, message, show u.tkn = some tok from g3'.trans hbt, origin, if_pos hiu]
  have : traced u .undefinedWord bb = ascii "backtrace: " ++ (traced u .undefinedWord bb).drop 11 := by
    rw [traced]
    simp only [List.append_assoc]
    rfl
  rw [this]
  have e1 : ascii " Undefined word, backtrace: " = ascii " " ++ ascii (description .undefinedWord) ++ ascii ", " ++ ascii "backtrace: " := by decide
  rw [e1]
  simp only [List.append_assoc, Option.getD_some, List.nil_append]
  rfl

end

/-! ### A machine with `quit` and `(abort)` -/

/-- The machine with the words of rtf/rtf.fth, where `line` was typed. -/
def Spec.replTyped (line : List Char) : VM := replImage.setTask { replImage.task with inbuf := some line }

/-- What is needed of this machine. -/
structure Spec.Standing (s : VM) (line : List Char) : Prop where
  repl : HasRepl (replIx "leave") (5184, 7408) (10984, 11144) (12224, 12848) 11144 replIx s
  names : Traceable s
  space : SoundSpace s.ds
  handler : s.handler = replIx "(abort)"
  input : Reading s.task [] line
  token : ∃ t, s.tkn = some t
  output : s.outbuf = some []
  stdout : s.stdout = []
  calm : Calm s.task.s ∧ Calm s.task.r ∧ Calm s.task.c ∧ Calm s.task.f
  data : data s = []
  ret : ret s = []
  base : (currentBase s).toInt = 10
  error : s.lastError = none
  mode : s.task.st.isCompiling = false
  id : s.task.st.sourceId = 0
  words : ∀ b, s.wl.buckets b = 0
  quit : ∃ w, s.wl.words[replIx "quit"]? = some w ∧ w.dfa = 12224
  receive : ∃ w, s.wl.words[replIx "receive"]? = some w ∧ w.action = .core .noop
  
set_option maxRecDepth 10000 in
theorem replTyped_standing (line : List Char) (hb : byteLen line < 2 ^ 63) : Standing (replTyped line) line := by
  have ht : (replTyped line).task = { replImage.task with inbuf := some line } := VM.task_setTask replImage _
  have h := replImage_hasRepl
  have hT := replImage_traceable
  have c1 : Calm replImage.task.s ∧ Calm replImage.task.r ∧ Calm replImage.task.c ∧ Calm replImage.task.f := by
    refine ⟨⟨?_, ?_, ?_⟩, ⟨?_, ?_, ?_⟩, ⟨?_, ?_, ?_⟩, ⟨?_, ?_, ?_⟩⟩ <;> decide +kernel
  have c2 : (currentBase replImage).toInt = 10 := by decide +kernel
  have c3 : SoundSpace replImage.ds := ⟨by decide, by decide, by decide, by decide, by decide⟩
  have i1 : replImage.task.st.sourceIndex = 0 ∧ replImage.task.st.sourceId = 0 ∧ replImage.task.s.items = [] ∧ replImage.task.r.items = [] ∧
    replImage.task.st.isCompiling = false := ⟨rfl, rfl, rfl, rfl, rfl⟩
  obtain ⟨i1, i2, i3, i4, i5⟩ := i1
  refine ⟨⟨⟨h.equipped.words, h.equipped.library⟩, ⟨h.reader.words, h.reader.region, h.reader.uses, h.reader.coded⟩, h.region, h.uses, h.coded,
    h.place, h.lower, h.upper⟩, ⟨hT.small, hT.low, hT.high, hT.rising⟩, c3, rfl, ⟨?_, ?_, ?_⟩, ⟨_, rfl⟩, rfl, rfl, ?_, ?_, ?_, c2, rfl, ?_, ?_,
    fun _ => rfl, ⟨_, rfl, rfl⟩, ⟨_, rfl, rfl⟩⟩
  · rw [ht, inputBuffer]; dsimp only; rw [if_neg (by rw [i2]; decide)]; rfl
  · rw [ht]; exact i1
  · simpa using hb
  · rw [ht]; exact c1
  · rw [Verif.Spec.data, ht]; exact i3
  · rw [Verif.Spec.ret, ht]; exact i4
  · rw [ht]; exact i5
  · rw [ht]; exact i2

theorem flushed_task (s : VM) : (flushed s).task = s.task := by unfold flushed; split <;> rfl

theorem Spec.Standing.loaded {s : VM} {line : List Char} (h : Standing s line) :
    StillLoaded (replIx "leave") [(5184, 7408), (10984, 11144), (12224, 12848)] s s :=
  ⟨rfl, fun _ _ => ⟨rfl, rfl, rfl, fun _ _ _ => rfl, h.repl.equipped.words, fun _ w hw => ⟨w, hw, rfl, rfl⟩⟩⟩

/-- Non-vacuity of C66_typo, and so of C66_error, C66_bad_line and C66_unknown: the line `foo`. -/
example (n : Nat) : ∃ s1 t1 bt, Steps demoCfg (n + 2) s1 t1 ∧ pc t1 = 12232 ∧ data t1 = [] ∧
    t1.stdout = ascii " foo Undefined word, backtrace: " ++ bt ++ [13, 10] := by
  obtain ⟨s, h⟩ : ∃ s, Standing s "foo".toList := ⟨_, replTyped_standing _ (by decide)⟩
  have hc : capacity = 64 := rfl
  have hk := h.loaded
  obtain ⟨w, w1, w2⟩ := h.quit
  obtain ⟨t1, bt, f1, f2, f3, -, -, -, -, -, -, f4⟩ := C66_typo (cfg := demoCfg) (n := n) (room := 0) (s1 := s.at 12240 0) (tok := "foo".toList)
    (pre := []) (bs := []) (more := []) h.repl ⟨hk, h.calm.1, by rw [h.data]; decide, by rw [h.ret]; decide⟩
    ⟨h.input, by simp, by decide, by simp [EndsToken], by simp, h.token⟩ (by decide)
    ⟨rfl, by rw [find]; simp only [findLoop, show (took (printed s (ascii " ")) [] [] "foo".toList).wl.buckets = s.wl.buckets from rfl, h.words]; rfl⟩
    (fun v hv => by rw [h.base] at hv; have := (integerValue_iff 10 _ v).2 hv; rw [show integerValue 10 (utf8 "foo".toList) = none by decide] at this; cases this)
    (fun v hv => by 
      have := (floatValue_iff _ _ v).2 hv
      have e : (floatValue demoCfg.fops (utf8 "foo".toList)).toOption = none := by decide
      rw [this] at e; cases e)
    h.handler h.space h.names h.output h.id (by rw [h.ret]; decide) ⟨w, w1, rfl⟩ ((Like.refl s).at _ _) (by rw [w2]; simp [pc])
  rw [h.stdout] at f4
  refine ⟨_, t1, bt, f1, by rw [f2, w2], f3, f4.trans ?_⟩
  have e1 : ascii " foo Undefined word, backtrace: " = ascii " " ++ utf8 "foo".toList ++ ascii " Undefined word, backtrace: " := by decide
  rw [e1]; rfl

theorem Spec.Standing.typed {s : VM} {line : List Char} (h : Standing s line) (cfg : Cfg) (n : Nat) {t : VM} (ht : t.wl = s.wl) :
    Acts cfg (n + 1) (replIx "receive") t t := by
  obtain ⟨w, w1, w2⟩ := h.receive
  intro s1 hl hp
  refine ⟨s1.at s1.task.st.ip (replIx "receive"), s1.at s1.task.st.ip (replIx "receive"), ?_, rfl, .refl _, hl.at _ _, by simp [pc]⟩
  rw [exec_word (by rw [hl.wl, ht]; exact w1), w2]
  rfl

/-- Non-vacuity of C66_session and C66_line: the line `5` and an empty line. -/
example (n : Nat) : ∃ s, Standing s "5".toList ∧
    Session demoCfg (n + 1) 0 (replIx "leave") [(5184, 7408), (10984, 11144), (12224, 12848)] 11144 replIx s (fun t => data t = [5]) s := by
  obtain ⟨s, h⟩ : ∃ s, Standing s ("5".toList) := ⟨_, replTyped_standing _ (by decide)⟩
  refine ⟨s, h, ?_⟩
  have hc : capacity = 64 := rfl
  generalize hs' : printed s (ascii " ") = s'
  have hr : Reading s'.task [] ("5".toList) := by rw [← hs']; exact h.input
  have hd : data s' = [] := by rw [← hs']; exact h.data
  have hcalm : Calm s'.task.s ∧ Calm s'.task.r ∧ Calm s'.task.c ∧ Calm s'.task.f := by rw [← hs']; exact h.calm
  have hk : StillLoaded (replIx "leave") [(5184, 7408), (10984, 11144), (12224, 12848)] s s' := by rw [← hs']; exact h.loaded.congr rfl rfl rfl rfl
  have hwl : s'.wl = s.wl := by rw [← hs']; rfl
  have hn : Next s' [] [] "5".toList [] := ⟨hr, by simp, by decide, by simp [EndsToken], by simp, by rw [← hs']; exact h.token⟩
  have e1 := C64_integer (cfg := demoCfg) (n := n + 1) (room := 0) (a := took s' [] [] "5".toList) (tok := "5".toList) (v := 5)
    (by rw [← hs']; exact h.space)
    ⟨rfl, by rw [find]; simp only [findLoop, show (took s' [] [] "5".toList).wl.buckets = s.wl.buckets by rw [← hwl]; rfl, h.words]; rfl⟩
    (by rw [took_task, ← hs']; exact h.mode)
    (by rw [show currentBase (took s' [] [] "5".toList) = currentBase s by rw [← hs']; rfl, h.base]
        exact .digits (pre := []) (sg := []) (bs := [53]) (ds := [5]) .none .none (.cons (.inl rfl) .nil) (by simp))
    (by rw [← hs']; exact h.error) (by rw [data_took, hd]; decide) (by rw [took_task]; exact hcalm)
  rw [data_took, hd] at e1
  generalize ha : setData (took s' [] [] "5".toList) [5] = a at e1
  have hra : Reading a.task "5".toList [] := by
    rw [← ha]
    refine ⟨?_, ?_, by decide⟩
    · have := hr.buffer
      simp only [setData, VM.task_setTask, took_task]
      simpa [inputBuffer, atPosition] using this
    · simp only [setData, VM.task_setTask, took_task]; rfl
  have hda : data a = [5] := by rw [← ha]; exact data_setData (by decide)
  have hna : Next a "5".toList [] [] [] := ⟨hra, by simp, by simp, by simp [EndsToken], by simp, by rw [← ha]; exact ⟨_, rfl⟩⟩
  have hka : StillLoaded (replIx "leave") [(5184, 7408), (10984, 11144), (12224, 12848)] s a := by rw [← ha]; exact hk.congr rfl rfl rfl rfl
  have hdt : data (took a "5".toList [] []) = [5] := by rw [data_took]; exact hda
  have hwa : a.wl = s.wl := by rw [← ha, ← hwl]; rfl
  refine .line (toks := ["5".toList]) (h.typed demoCfg (n + 1) rfl) ⟨h.loaded, h.calm.1, by rw [h.data]; decide, by rw [h.ret]; decide⟩
    (by rw [hs']; exact .token hn (by decide) e1 hka (.done hna)) (by rw [hdt]; decide) ?_
  generalize hb : took a "5".toList [] [] = b at hdt
  have hbt : b.task = atPosition a.task (byteLen ("5".toList ++ [] ++ [])) := by rw [← hb]; exact took_task _ _ _ _
  have hbk : StillLoaded (replIx "leave") [(5184, 7408), (10984, 11144), (12224, 12848)] s b := by rw [← hb]; exact hka.congr rfl rfl rfl rfl
  have hbw : b.wl = s.wl := by rw [← hb, ← hwa]; rfl
  rw [h.ret]
  generalize hc' : setRet (answered b) [] = c
  have hct : c.task = { b.task with r := holding b.task.r [] } := by
    rw [← hc', answered, setRet, VM.task_setTask, flushed_task]; rfl
  have hcw : c.wl = s.wl := by rw [← hbw, ← hc', answered, flushed_beside]; rfl
  have hck : StillLoaded (replIx "leave") [(5184, 7408), (10984, 11144), (12224, 12848)] s c := by
    rw [← hc', answered, flushed_beside]; exact hbk.congr rfl rfl rfl rfl
  have hcd : data c = [5] := by rw [← hdt, Verif.Spec.data, hct]; rfl
  have hcr : ret c = [] := by rw [ret, hct]; exact holding_items _ (by simp)
  have hcc : Calm c.task.s := by rw [hct, hbt]; exact e1.calm.1
  have hcn : Next (printed c (ascii " ")) "5".toList [] [] [] := by
    refine ⟨⟨?_, ?_, ?_⟩, by simp, by simp, by simp [EndsToken], by simp, ?_⟩
    · show inputBuffer c.task = _
      rw [hct, hbt]
      have := hra.buffer
      simpa [inputBuffer, atPosition] using this
    · show c.task.st.sourceIndex = _
      rw [hct, hbt]; rfl
    · decide
    · show ∃ t, c.tkn = some t
      rw [← hc', answered, flushed_beside, ← hb]
      exact ⟨_, rfl⟩
  have hcd2 : data (took (printed c (ascii " ")) "5".toList [] []) = [5] := by rw [data_took]; exact hcd
  refine .line (toks := []) (h.typed demoCfg (n + 1) hcw) ⟨hck, hcc, by rw [hcd]; decide, by rw [hcr]; decide⟩ (.done hcn) (by rw [hcd2]; decide) (.here ?_)
  show data (setRet (answered _) _) = _
  rw [← hcd2, Verif.Spec.data, Verif.Spec.data, answered, setRet, VM.task_setTask, flushed_task]
  rfl

/-- Non-vacuity of C66_compile_only and C66_abort: the tokens `i` and `abort` where nothing is compiled. -/
example (n : Nat) (r : List Cell) : (∃ a, TokenRaises demoCfg (n + 1) .interpretingCompileOnly (RaisedOn a r) (setRet a r)) ∧
    ∃ a, TokenRaises demoCfg (n + 2) .abort (RaisedOn a r) (setRet a r) := by
  have hl := desk_listening (l := [5]) (by decide) ""
  constructor
  · obtain ⟨n1, w, w1, w2, w3, w4, w5⟩ := desk_word [5] "" (List.mem_of_getElem? (i := 9) rfl)
    generalize desk [5] "" = s at *
    exact ⟨{ s with tkn := some "i".toList }, C66_compile_only (a := { s with tkn := some "i".toList }) (tok := "i".toList) (i := 25) (w := w) (hl.dict.congr rfl rfl)
      ⟨hl.space.small, hl.space.inside⟩ rfl (by simpa only [Newest, Visible] using n1) w1 hl.interpreting w4 r⟩
  · obtain ⟨n1, w, w1, w2, w3, w4, w5⟩ := desk_word [5] "" (List.mem_of_getElem? (i := 14) rfl)
    generalize desk [5] "" = s at *
    exact ⟨{ s with tkn := some "abort".toList }, (C66_abort (a := { s with tkn := some "abort".toList }) (tok := "abort".toList) (i := 52) (w := w) (hl.dict.congr rfl rfl)
      ⟨hl.space.small, hl.space.inside⟩ rfl (by simpa only [Newest, Visible] using n1) w1 hl.interpreting w4 (by rw [w2]; rfl)).1⟩

/-! ### What an error leaves behind -/

/-- C66. After an error in a file being included the terminal is read, but the sources saved by `included` stay saved. -/
theorem C66_saved {V A : Nat} {ix : String → Nat} {s0 s t : VM} {e : Exn} {srcs : List (Cell × Cell)} (h : Recovered V ix s0 e s t)
    (hS : Saved s.ds A srcs) : Saved t.ds A srcs ∧ source t = (0, 0) := by
  refine ⟨by rw [(C66_kept h).1]; exact hS, ?_⟩
  have key : ∀ text hld, Like t (recovered s text hld) → source t = (0, 0) := by
    intro text hld hl
    obtain ⟨_, _, _, _, _, -, -, -, e⟩ := hl.task
    have ht : (recovered s text hld).task = fresh { s.task with s := s.task.s.reset, f := s.task.f.reset, c := s.task.c.reset } := by
      exact VM.task_setTask (flushed (printed s text)) _
    rw [source, e, ht]; rfl
  rw [Recovered] at h
  split at h
  · exact key _ _ h
  · obtain ⟨b, -, h⟩ := h
    exact key _ _ h

set_option maxRecDepth 100000 in
/-- C66. That an error ends what was begun is false: after an error in a file the machine reads the terminal, but the file stays
open and its includer saved. -/
theorem C66_unwound_refuted : ¬∀ (cfg : Cfg) (n : Nat) (g1 g2 g : Nat × Nat) (lv V A : Nat) (ix : String → Nat) (s : VM) (e : Exn) (srcs : List (Cell × Cell)),
    HasRepl lv g1 g2 g V ix s → Recoverable V ix s → Saved s.ds A srcs →
    ∃ s2 t, abortWith (ctx cfg (n + 1)) e s = .ok ((), s2) ∧ Steps cfg (n + 1) s2 t ∧ PromptAt ix s (pc t) ∧ Recovered V ix s e s t ∧
      (Saved t.ds A [] ∨ ∀ f, t.task.sources[0]? ≠ some (some f)) := by
  intro h
  have hR : Recoverable 11144 replIx replIncluding := by
    have ht : replIncluding.task = { replImage.task with sources := [some ⟨⟨0, 0, true, false⟩, ascii "a.fth"⟩], lines := [some "foo".toList], st := { replImage.task.st with sourceId := 1 } } :=
      VM.task_setTask replImage _
    refine ⟨rfl, ?_, ⟨by decide, by decide, by decide, by decide, by decide⟩, ?_, namesB_traceable replIncluding_namesB rfl (by decide), ?_, ?_⟩
    · refine .inr ?_
      rw [ht]
      exact ⟨by decide, ⟨_, rfl⟩, ⟨_, rfl⟩, ascii "0", by decide +kernel⟩
    · exact Option.some_ne_none []
    · rw [ht]; decide +kernel
    · rw [ret, ht]; decide +kernel
  have hf : ∃ f, replIncluding.task.sources[0]? = some (some f) := ⟨_, rfl⟩
  obtain ⟨s2, t, -, -, -, hr, hx⟩ := h demoCfg 0 _ _ _ _ _ 10264 _ _ .undefinedWord _ (replB_hasRepl replIncluding_replB) hR replIncluding_saved
  obtain ⟨c1, -, -, -, -, c2, -⟩ := C66_kept hr
  have hs := replIncluding_saved.count
  rcases hx with hx | hx
  · have := hx.count
    rw [c1, hs] at this
    revert this; decide
  · obtain ⟨f, hf⟩ := hf
    exact hx f (by rw [c2]; exact hf)

end Verif
