import Verif.Lemmas.Session

/-!
# Evaluating a line that comes to an error
-/

namespace Verif
open Spec Stack

section
variable {R : Refs} {wl : Wordlist} {lv lo hi n i : Nat} {k : Fin 5} {d : DataSpace} {s t : VM} {cfg : Cfg}
  {l l' r : List Cell} {m : DataSpace} {ix : String → Nat} {p q : Stmt} {e : Exn} {Q : VM → Prop}

/-- The code of `p` comes to raising error `e` on a machine with property `Q`. -/
def Spec.Breaks (cfg : Cfg) (n : Nat) (R : Refs) (lv : Nat) (wl : Wordlist) (lo hi : Nat) (k : Fin 5) (d : DataSpace)
    (e : Exn) (p : Stmt) (s : VM) (Q : VM → Prop) : Prop :=
  Loaded R lv wl lo hi k d s → ∀ a s1, p.At R lv d a → lo ≤ a → p.next a ≤ hi → Like s1 s → pc s1 = a →
    ∃ u m, m < n ∧ Q u ∧ ∀ x, abortWith (ctx cfg (m + 1)) e u = .ok ((), x) → Steps cfg (n + 1) s1 x

local notation "Go" => Going cfg n R lv wl lo hi k d
local notation "Do" => Doing cfg n R lv wl lo hi k d
local notation "Break" => Breaks cfg n R lv wl lo hi k d e

theorem Spec.Breaks.seq (h1 : Go p s t) (h2 : Break q t Q) : Break (.seq p q) s Q := by
  intro hL a s1 hat ha hn hli hp
  simp only [Stmt.next] at hn
  have := q.le_next (p.next a); have := p.le_next a
  obtain ⟨e1, e2⟩ := h1 hL
  obtain ⟨u, u1, u2, u3⟩ := e2 a s1 hat.1 ha (by omega) hli hp
  obtain ⟨v, m, hm, v1, v2⟩ := h2 e1 _ u hat.2 (by omega) hn u2 u3
  exact ⟨v, m, hm, v1, fun x hx => u1.trans (v2 x hx)⟩

theorem Spec.Breaks.head (h1 : Break p s Q) : Break (.seq p q) s Q := by
  intro hL a s1 hat ha hn hli hp
  simp only [Stmt.next] at hn
  have := q.le_next (p.next a)
  exact h1 hL a s1 hat.1 ha (by omega) hli hp

theorem Spec.Breaks.elseTrue (g : Region d lo hi) {f : Cell} (hl : l.length < capacity) (hr : r.length ≤ capacity) (hf : f ≠ 0)
    (h : Break p (shape s l r m) Q) : Break (.ifElse p q) (shape s (f :: l) r m) Q := by
  intro hL a s1 hat ha hn hli hp
  simp only [Stmt.next] at hn
  obtain ⟨c1, c2, c3, c4, c5, c6⟩ := hat
  have := p.le_next (a + 16); have := q.le_next (p.next (a + 16) + 16)
  obtain ⟨u, u1, u2, u3⟩ := run_nonzero (cfg := cfg) (n := n) hli hL g hp ha (by omega) c1
    (shape_data (by simp; omega)) hf
  obtain ⟨v, m, hm, v1, v2⟩ := h hL.stacks _ u c3 (by omega) (by omega) (u2.trans (like_setData (by simp; omega) hr (by omega))) u3
  exact ⟨v, m, hm, v1, fun x hx => u1.trans (v2 x hx)⟩

theorem Spec.Breaks.elseFalse (g : Region d lo hi) (hl : l.length < capacity) (hr : r.length ≤ capacity)
    (h : Break q (shape s l r m) Q) : Break (.ifElse p q) (shape s (0 :: l) r m) Q := by
  intro hL a s1 hat ha hn hli hp
  simp only [Stmt.next] at hn
  obtain ⟨c1, c2, c3, c4, c5, c6⟩ := hat
  have := p.le_next (a + 16); have := q.le_next (p.next (a + 16) + 16)
  obtain ⟨u, u1, u2, u3⟩ := run_zero (cfg := cfg) (n := n) hli hL g hp ha (by omega) c1 c2
    (shape_data (by simp; omega))
  obtain ⟨v, m, hm, v1, v2⟩ := h hL.stacks _ u c6 (by omega) (by omega) (u2.trans (like_setData (by simp; omega) hr (by omega))) u3
  exact ⟨v, m, hm, v1, fun x hx => u1.trans (v2 x hx)⟩

/-- The body of the loop comes to an error. -/
theorem Spec.Breaks.body (g : Region d lo hi) {f : Cell} (hl : l.length < capacity) (hr : r.length ≤ capacity)
    (hf : f ≠ 0) (h : Go p t (shape s (f :: l) r m)) (h2 : Break q (shape s l r m) Q) : Break (.whileLoop p q) t Q := by
  intro hL a s1 hat ha hn hli hp
  obtain ⟨e1, e2⟩ := h hL
  simp only [Stmt.next] at hn
  obtain ⟨c1, c2, c3, c4, c5, c6⟩ := hat
  have := p.le_next a; have := q.le_next (p.next a + 16)
  obtain ⟨t1, k1, k2, k3⟩ := e2 _ s1 c1 ha (by omega) hli hp
  obtain ⟨u1, v1, v2, v3⟩ := run_nonzero (cfg := cfg) (n := n) k2 e1 g k3 (by omega) (by omega) c2
    (shape_data (by simp; omega)) hf
  obtain ⟨v, m, hm, w1, w2⟩ := h2 e1.stacks _ u1 c4 (by omega) (by omega) (v2.trans (like_setData (by simp; omega) hr (by omega))) v3
  exact ⟨v, m, hm, w1, fun x hx => (k1.trans v1).trans (w2 x hx)⟩

/-- The loop comes to an error later. -/
theorem Spec.Breaks.later (g : Region d lo hi) {f : Cell} {u : VM} (hl : l.length < capacity) (hr : r.length ≤ capacity)
    (hf : f ≠ 0) (h : Go p t (shape s (f :: l) r m)) (h2 : Go q (shape s l r m) u) (h3 : Break (.whileLoop p q) u Q) :
    Break (.whileLoop p q) t Q := by
  intro hL a s1 hat ha hn hli hp
  obtain ⟨e1, e2⟩ := h hL
  obtain ⟨f1, f2⟩ := h2 e1.stacks
  have hat0 := hat
  have hn0 := hn
  simp only [Stmt.next] at hn
  obtain ⟨c1, c2, c3, c4, c5, c6⟩ := hat
  have := p.le_next a; have := q.le_next (p.next a + 16)
  obtain ⟨t1, k1, k2, k3⟩ := e2 _ s1 c1 ha (by omega) hli hp
  obtain ⟨u1, v1, v2, v3⟩ := run_nonzero (cfg := cfg) (n := n) k2 e1 g k3 (by omega) (by omega) c2
    (shape_data (by simp; omega)) hf
  obtain ⟨w1, x1, x2, x3⟩ := f2 _ u1 c4 (by omega) (by omega) (v2.trans (like_setData (by simp; omega) hr (by omega))) v3
  obtain ⟨y1, z1, z2, z3⟩ := run_branch (cfg := cfg) (n := n) x2 f1 g x3 (by omega) (by omega) c5 c6
  obtain ⟨v, m, hm, j1, j2⟩ := h3 f1 _ y1 hat0 ha hn0 z2 z3
  exact ⟨v, m, hm, j1, fun x hx => (((k1.trans v1).trans x1).trans z1).trans (j2 x hx)⟩

/-- The word that evaluates a token comes to an error. -/
theorem breaks_token (g : Region d lo hi) (hT : TokenRaises cfg n e Q s)
    (hb : Builtin wl i (if s.task.st.isCompiling then "compile-token" else "interpret-token")) : Break (.word i) s Q := by
  obtain ⟨w, hw, hp⟩ := hb
  intro hL a s1 hat ha hn hli hpc
  simp only [Stmt.next] at hn
  have hlt : a + 8 < 2 ^ 64 := by have := g.upper; have := g.small; omega
  obtain ⟨v, e1, e2, -⟩ := (hL.like hli).kept i w hw
  have hl' := hli.at (a + 8) i
  obtain ⟨u, m, hm, hu, hx⟩ := hT _ hl' (by simp [pc]; omega) (by simpa using (List.getElem?_eq_some_iff.1 e1).1)
  refine ⟨u, m, hm, hu, fun x hxx => ?_⟩
  obtain ⟨s2, f1, f2⟩ := hx x hxx
  have hc : (s1.at (a + 8) i).task.st.isCompiling = s.task.st.isCompiling := by
    obtain ⟨_, _, _, _, _, -, -, -, e⟩ := hl'.task
    rw [e]
  refine Steps.trans (.one (step_word (hL.like hli) g hpc ha hn hat (u := s2) ?_)) (f2.deeper (by omega))
  rw [exec_word (w := v) (by simpa using e1), e2]
  have ea : (s1.at (a + 8) s1.task.st.wp).at (s1.at (a + 8) s1.task.st.wp).task.st.ip i = s1.at (a + 8) i := by
    simp [VM.at]
  rw [ea]
  simp only [evalToken, M.bind_apply, getSt_apply, hc] at f1
  cases hm : s.task.st.isCompiling
  · rw [hm] at hp f1
    have hp' := prim_inj hp (p := .core .interpretToken) rfl
    rw [hp']; exact f1
  · rw [hm] at hp f1
    have hp' := prim_inj hp (p := .core .compileToken) rfl
    rw [hp']; exact f1

/-- The check of the stacks comes to an error. -/
theorem breaks_stacks (g : Region d lo hi) (hn0 : 0 < n) (hb : Builtin wl i "?stacks")
    (hT : ∀ c s1, Like s1 s → s1.task.st.wp < s1.wl.words.length → checkStacks c s1 = abortWith c e s1 ∧ Q s1) :
    Break (.word i) s Q := by
  obtain ⟨w, hw, hp⟩ := hb
  have hp' := prim_inj hp (p := .core .checkStacks) rfl
  intro hL a s1 hat ha hn hli hpc
  simp only [Stmt.next] at hn
  obtain ⟨v, e1, e2, -⟩ := (hL.like hli).kept i w hw
  have hl' := hli.at (a + 8) i
  obtain ⟨f1, f2⟩ := hT (ctx cfg n) _ hl' (by simpa using (List.getElem?_eq_some_iff.1 e1).1)
  refine ⟨_, n - 1, by omega, f2, fun x hx => .one (step_word (hL.like hli) g hpc ha hn hat ?_)⟩
  rw [exec_word (w := v) (by simpa using e1), e2, hp']
  have ea : (s1.at (a + 8) s1.task.st.wp).at (s1.at (a + 8) s1.task.st.wp).task.st.ip i = s1.at (a + 8) i := by
    simp [VM.at]
  rw [ea]
  rw [show n - 1 + 1 = n by omega] at hx
  exact f1.trans hx

/-- What is done with a token that goes well. -/
theorem going_body (g : Region d lo hi) (hu : ∀ name, name ∈ readerUses → Builtin wl (ix name) name) {room : Nat} {a b : VM}
    (he : Evaluates cfg n room a b) (hL : Loaded R lv wl lo hi k d b) (hd : (data a).length < capacity)
    (hr : r.length + room ≤ capacity) :
    Go (code ix ["compiling?", Stmt.ifElse (code ix ["compile-token", "?stacks"]) (code ix ["interpret-token", "?stacks"])])
      (shape a (data a) r a.ds) (setRet b r) := by
  have hacts := he.acts r hr
  obtain ⟨c1, c2, c3, c4⟩ := he.calm
  have hcheck : ∀ i, Builtin wl i "?stacks" → Do i (setRet b r) (setRet b r) := fun i hi =>
    doing_checkStacks hi (by simpa [setRet] using c1) (by simpa [setRet] using c2.holding (by omega)) (by simpa [setRet] using c3) (by simpa [setRet] using c4)
  have hLb : Loaded R lv wl lo hi k d (setRet b r) := hL.congr rfl rfl rfl
  have hcomp : (setRet a r).task.st.isCompiling = a.task.st.isCompiling := by simp [setRet]
  steps
  refine .seq (.doing g (doing_compiling (hu _ (by simp [readerUses])) hd (by omega))) ?_
  refine .seq ?_ .skip
  cases hm : a.task.st.isCompiling
  · rw [show truth (false = true) = 0 from truth_zero (by simp)]
    refine .elseFalse g hd (by omega) ?_
    rw [shape_setRet]
    refine .seq (.word g (calling_token hacts (i := ix "interpret-token") ?_ hLb)) ?_
    · rw [hcomp, hm]; exact hu _ (by simp [readerUses])
    · exact .seq (.doing g (hcheck _ (hu _ (by simp [readerUses])))) .skip
  · refine .elseTrue g hd (by omega) (truth_ne (by simp)) ?_
    rw [shape_setRet]
    refine .seq (.word g (calling_token hacts (i := ix "compile-token") ?_ hLb)) ?_
    · rw [hcomp, hm]; exact hu _ (by simp [readerUses])
    · exact .seq (.doing g (hcheck _ (hu _ (by simp [readerUses])))) .skip

/-- What is done with a token, if evaluating it or the check after it comes to an error. -/
theorem breaks_body (g : Region d lo hi) (hu : ∀ name, name ∈ readerUses → Builtin wl (ix name) name) {a : VM}
    (hd : (data a).length < capacity) (hr : r.length ≤ capacity)
    (h : ∀ i j, Builtin wl i (if a.task.st.isCompiling then "compile-token" else "interpret-token") → Builtin wl j "?stacks" →
      Break (.seq (.word i) (.seq (.word j) .skip)) (setRet a r) Q) :
    Break (code ix ["compiling?", Stmt.ifElse (code ix ["compile-token", "?stacks"]) (code ix ["interpret-token", "?stacks"])])
      (shape a (data a) r a.ds) Q := by
  steps
  refine .seq (.doing g (doing_compiling (hu _ (by simp [readerUses])) hd (by omega))) ?_
  refine .head ?_
  cases hm : a.task.st.isCompiling
  · rw [show truth (false = true) = 0 from truth_zero (by simp)]
    refine .elseFalse g hd (by omega) ?_
    rw [shape_setRet]
    refine h _ _ ?_ (hu _ (by simp [readerUses]))
    rw [hm]; exact hu _ (by simp [readerUses])
  · refine .elseTrue g hd (by omega) (truth_ne (by simp)) ?_
    rw [shape_setRet]
    refine h _ _ ?_ (hu _ (by simp [readerUses]))
    rw [hm]; exact hu _ (by simp [readerUses])

/-- The loop of `evaluate-input` comes to an error. -/
theorem breaks_reader (g : Region d lo hi) (hu : ∀ name, name ∈ readerUses → Builtin wl (ix name) name) {room : Nat}
    {P : List Cell → VM → Prop} {toks : List (List Char)} (h : Fails cfg n room (Loaded R lv wl lo hi k d) e P toks s)
    (hn0 : 0 < n) (hd : (data s).length < capacity) (hr : r.length + room ≤ capacity) :
    Break (.whileLoop (code ix ["parse-word", "token-empty?", "not"])
      (code ix ["compiling?", Stmt.ifElse (code ix ["compile-token", "?stacks"]) (code ix ["interpret-token", "?stacks"])]))
      (setRet s r) (P r) := by
  have htest : ∀ {s : VM} {pre bs tok more : List Char}, (data s).length < capacity → Next s pre bs tok more → 
      Go (code ix ["parse-word", "token-empty?", "not"]) (setRet s r)
      (shape (took s pre bs tok) (truth (¬tok = []) :: data s) r s.ds) := fun hd hn => going_test g hu hn hd (by omega)
  have hcomp : ∀ a : VM, (setRet a r).task.st.isCompiling = a.task.st.isCompiling := fun a => by simp [setRet]
  induction h with
  | @raises s pre bs tok more hn hne ht =>
    refine .body g hd (by omega) (truth_ne (by simpa using hne)) (htest hd hn) ?_
    rw [show s.ds = (took s pre bs tok).ds from rfl, ← data_took s pre bs tok]
    refine breaks_body g hu (by rw [data_took]; exact hd) (by omega) fun i j hi hj => ?_
    rw [← hcomp] at hi
    exact .head (breaks_token g (ht r hr) hi)
  | @stacks s b pre bs tok more hn hne ht hL hc =>
    refine .body g hd (by omega) (truth_ne (by simpa using hne)) (htest hd hn) ?_
    rw [show s.ds = (took s pre bs tok).ds from rfl, ← data_took s pre bs tok]
    refine breaks_body g hu (by rw [data_took]; exact hd) (by omega) fun i j hi hj => ?_
    rw [← hcomp] at hi
    exact .seq (.word g (calling_token (ht r hr) hi (hL.congr rfl rfl rfl))) (.head (breaks_stacks g hn0 hj fun c s1 => hc r c s1 hr))
  | @token s b pre bs tok more toks hn hne he hL hw ih =>
    refine .later g hd (by omega) (truth_ne (by simpa using hne)) (htest hd hn) ?_ (ih he.room)
    rw [show s.ds = (took s pre bs tok).ds from rfl, ← data_took s pre bs tok]
    exact going_body g hu he hL (by rw [data_took]; exact hd) hr

end

section
variable {lv n V room : Nat} {s0 s : VM} {cfg : Cfg} {r : List Cell} {ix : String → Nat}
  {g1 g2 g : Nat × Nat} {bs : List Byte} {toks : List (List Char)} {e : Exn} {P : List Cell → VM → Prop}

theorem Spec.Fails.mono {L L' : VM → Prop} (h : Fails cfg n room L e P toks s) (hL : ∀ b, L b → L' b) :
    Fails cfg n room L' e P toks s := by
  induction h with
  | raises h1 h2 h3 => exact .raises h1 h2 h3
  | stacks h1 h2 h3 h4 h5 => exact .stacks h1 h2 h3 (hL _ h4) h5
  | token h1 h2 h3 h4 _ ih => exact .token h1 h2 h3 (hL _ h4) ih

/-- `evaluate-input`, called where evaluating the input comes to an error. -/
theorem breaks_read (h : HasRepl lv g1 g2 g V ix s0) (hw : Fails cfg n room (StillLoaded lv [g1, g2, g] s0) e P toks s)
    (hk : StillLoaded lv [g1, g2, g] s0 s) (hn0 : 0 < n) (hd : (data s).length < capacity) (hr : r.length + 1 + room ≤ capacity) {b : Nat}
    {t : VM} (c3 : CellIs s0.ds b (ix "evaluate-input")) (ha : g.1 ≤ b) (hn : b + 8 ≤ g.2) (u2 : Like t (setRet s r)) (u3 : pc t = b) :
    ∃ u m, m < n ∧ P (toCell (b + 8) :: r) u ∧ ∀ x, abortWith (ctx cfg (m + 1)) e u = .ok ((), x) → Steps cfg (n + 1) t x := by
  have hc : capacity = 64 := rfl
  have gg := h.region
  have hup := gg.upper; have hsm := gg.small
  obtain ⟨w, w1, w2, w3, w4, w5⟩ := h.reader.coded _ (List.mem_of_getElem? (i := 0) rfl)
  have hLt : Loaded s0.refs lv s0.wl g.1 g.2 s0.cur s0.ds t :=
    ((hk.loaded (g := g) (by simp)).congr (t := setRet s r) rfl rfl rfl).like u2
  obtain ⟨w', k1, k2, k3⟩ := hLt.kept _ _ w1
  have hri : t.task.r.items = r := by
    refine u2.ret.trans ?_
    rw [ret_setRet (by omega)]
  have hp1 := push_holding t.task.r (toCell (b + 8)) (by rw [hri]; omega)
  rw [hri] at hp1
  have ex : execWord cfg (n + 1) (ix "evaluate-input") (t.at (b + 8) t.task.st.wp) = .ok ((), t.put t.task.s (t.task.r.push (toCell (b + 8)))
      t.task.f w.dfa (ix "evaluate-input")) := by
    rw [exec_word (w := w') (by simpa using k1), k2, w2]
    simp only [action, coreAction, nest, M.bind_apply, getSt_apply, VM.at_task, rPush_apply]
    rw [wordAt_ok (w := w') (by simpa using k1)]
    simp [setIp, VM.at, VM.put, k3]
  have hl2 : Like (t.put t.task.s (t.task.r.push (toCell (b + 8))) t.task.f w.dfa (ix "evaluate-input"))
      (setRet s (toCell (b + 8) :: r)) := by
    rw [← shape_setRet] at u2 ⊢
    have hdt : t.task.s.items = data s := u2.data.trans (shape_data (by omega))
    have hds : t.ds = s.ds := u2.ds
    have := like_shape (m' := s.ds) (l' := data s) (by omega) (by omega)
      (by omega) (r' := toCell (b + 8) :: r) (by simp; omega) u2
      (ds := t.task.s) (rs := t.task.r.push (toCell (b + 8))) (by rw [← hdt, holding_self]; exact .refl _)
      (by rw [hp1]; exact .refl _) w.dfa (ix "evaluate-input")
    rw [← hds] at this ⊢
    exact this
  have hread := breaks_reader (k := s0.cur) (r := toCell (b + 8) :: r) h.reader.region h.reader.uses
    (hw.mono fun b hb => hb.loaded (g := g2) (by simp)) hn0 (by omega) (by simp; omega)
  simp only [code, Stmt.all, List.map, Part.code] at hread
  have hall : Breaks cfg n s0.refs lv s0.wl g2.1 g2.2 s0.cur s0.ds e _ _ _ := .head (q := .exit) (.head (q := .skip) hread)
  obtain ⟨u, m, hm, hu, hx⟩ := hall ((hk.loaded (g := g2) (by simp)).congr rfl rfl rfl) w.dfa _ w5 w3 w4 hl2 (by simp [pc, VM.put])
  exact ⟨u, m, hm, hu, fun x hxx => Steps.trans (.one (step_word hLt gg u3 (by omega) (by omega) c3 ex)) (hx x hxx)⟩

/-- `evaluate-input`, called behind `." "`, comes to an error. -/
theorem breaks_called (h : HasRepl lv g1 g2 g V ix s0)
    (hw : Fails cfg n room (StillLoaded lv [g1, g2, g] s0) e P toks (printed s bs)) (hk : StillLoaded lv [g1, g2, g] s0 s)
    (hn0 : 0 < n) (hq : Calm s.task.s) (hd : (data s).length + 2 ≤ capacity) (hr : r.length + 1 + room ≤ capacity) {a adr : Nat} {s1 : VM}
    {q : Stmt} (hat : (Stmt.seq (.str adr bs) (.seq (.word (ix "type")) (.seq (.word (ix "evaluate-input")) q))).At s0.refs lv s0.ds a)
    (ha : g.1 ≤ a) (hn : (Stmt.seq (.str adr bs) (.seq (.word (ix "type")) (.seq (.word (ix "evaluate-input")) q))).next a ≤ g.2)
    (hl : Like s1 (setRet s r)) (hp : pc s1 = a) :
    ∃ z u m, a < z ∧ z ≤ (Stmt.seq (.str adr bs) (.seq (.word (ix "type")) (.seq (.word (ix "evaluate-input")) q))).next a ∧
      m < n ∧ P (toCell z :: r) u ∧ ∀ x, abortWith (ctx cfg (m + 1)) e u = .ok ((), x) → Steps cfg (n + 1) s1 x := by
  have hc : capacity = 64 := rfl
  have gg := h.region
  have hL : Loaded s0.refs lv s0.wl g.1 g.2 s0.cur s0.ds (setRet s r) := (hk.loaded (g := g) (by simp)).congr rfl rfl rfl
  have hprefix : Going cfg n s0.refs lv s0.wl g.1 g.2 s0.cur s0.ds (.seq (.str adr bs) (.seq (.word (ix "type")) .skip))
      (setRet s r) (setRet (printed s bs) r) := by
    have hs : Going cfg n s0.refs lv s0.wl g.1 g.2 s0.cur s0.ds .skip (shape (printed s bs) (data s) r s.ds) (setRet (printed s bs) r) := by
      rw [← shape_setRet (printed s bs)]
      exact .skip
    rw [← shape_setRet s]
    exact .typed gg (h.uses "type" (by simp [replUses])) hq.under (by omega) (by omega) hs
  obtain ⟨c1, c2, c3, c4⟩ := hat
  simp only [Stmt.next] at c2 c3 c4 hn ⊢
  have hru := roundUp8_le (a + 16 + bs.length)
  have hge : a + 16 + bs.length ≤ roundUp8 (a + 16 + bs.length) := by simp only [roundUp8] at *; omega
  have hqn := q.le_next (roundUp8 (a + 16 + bs.length) + 8 + 8)
  obtain ⟨e1, e2⟩ := hprefix hL
  obtain ⟨t, u1, u2, u3⟩ := e2 a s1 ⟨c1, c2, trivial⟩ ha (by simp only [Stmt.next]; omega) hl hp
  simp only [Stmt.next] at u3
  generalize roundUp8 (a + 16 + bs.length) = b at *
  obtain ⟨u, m, hm, hu, hx⟩ := breaks_read h hw (hk.congr rfl rfl rfl rfl) hn0 (by show (data s).length < _; omega) hr c3 (by omega) (by omega) u2 u3
  exact ⟨b + 8 + 8, u, m, by omega, hqn, hm, hu, fun x hxx => u1.trans (hx x hxx)⟩

end
end Verif
