import Verif.Lemmas.Teach
import Verif.Lemmas.Reject
import Verif.Lemmas.Stumbling

/-!
# Lines at the prompt of the program rtf
-/

namespace Verif
open Spec Stack

section
variable {cfg : Cfg} {n b k m m' : Nat} {s s' s0 a u t : VM} {ix : String → Nat} {text tok pre rest : List Char} {toks more : List (List Char)}
  {l l' : List Cell} {o out p : List Byte} {why : Option (List Byte)} {V V' : Vocabulary}

theorem Spec.Turns.room (h : Turns toks V m l V' m' l' out) : l.length + 4 ≤ capacity := by
  cases h with
  | nil h => exact h
  | run h _ => cases h <;> assumption
  | define h => exact h

theorem Spec.Turns.room' (h : Turns toks V m l V' m' l' out) : l'.length + 4 ≤ capacity := by
  induction h with
  | nil h => exact h
  | run _ _ ih => exact ih
  | define _ _ _ _ _ _ _ _ _ _ _ ih => exact ih

theorem Spec.Calculation.room (h : Calculation toks l l' out) : l.length + 4 ≤ capacity := by cases h <;> assumption

theorem Spec.Calculation.room' (h : Calculation toks l l' out) : l'.length + 4 ≤ capacity := by
  induction h with
  | nil h => exact h
  | cons _ _ _ ih => exact ih

theorem reading_next {x y : Task} {bs : List Char} (h : Reading x pre (bs ++ rest)) (hi : y.inbuf = x.inbuf)
    (hs : y.st = (atPosition x (byteLen (pre ++ bs))).st) (h0 : x.st.sourceId = 0) : Reading y (pre ++ bs) rest := by
  have e0 : y.st.sourceId = 0 := by rw [hs]; exact h0
  refine ⟨?_, by rw [hs]; rfl, by have := h.bounded; rwa [List.append_assoc]⟩
  have := h.buffer
  rw [inputBuffer, if_neg (by rw [h0]; decide)] at this
  rw [inputBuffer, if_neg (by rw [e0]; decide), hi, this, List.append_assoc]

/-- Tokens and definitions without an error. -/
theorem Spec.Turns.passes (hC : Turns toks V m l V' m' l' out) : ∀ {s a : VM} {pre rest : List Char} {o : List Byte}, Kit b ix text V m s0 s →
    Sits s ix l o k p a → Tokens rest (toks ++ more) → Reading a.task pre rest → ∃ s' t toks' pre' rest',
      Passes cfg (n + 1) 54 (StillLoaded (ix "leave") (rtfRegions b) s0) toks' a t ∧ Kit b ix text V' m' s0 s' ∧ Sits s' ix l' (o ++ out) k p t ∧
      Tokens rest' more ∧ Reading t.task pre' rest' := by
  induction hC with
  | nil h =>
    intro s a pre rest o hK h hT hr
    exact ⟨s, a, [], pre, rest, .nil, hK, by rw [List.append_nil]; exact h, hT, hr⟩
  | @run t0 ts V V' m m' l l1 l' x y hR _ ih =>
    intro s a pre rest o hK h hT hr
    cases hT with
    | @word bs _ rest _ hb hne hs hend hrest =>
      obtain ⟨c, c1, c2, c3, c4⟩ := hR.evaluates (cfg := cfg) (n := n) hK (h.took pre bs t0) rfl
      have ht := took_task a pre bs t0
      have hr' : Reading c.task (pre ++ (bs ++ t0)) rest := by
        refine reading_next (x := a.task) (by rw [List.append_assoc]; exact hr) (by rw [c3, ht]; rfl) (by rw [c4, ht, ← List.append_assoc]) h.source
      obtain ⟨s', u, toks', pre', rest', u1, u2, u3, u4⟩ := ih hK c2 hrest hr'
      rw [List.append_assoc] at u3
      exact ⟨s', u, t0 :: toks', pre', rest', .token (more := rest) ⟨hr, hb, hs, hend, fun e => absurd e hne, h.token⟩ hne c1 (c2.still hK) u1, u2, u3, u4⟩
  | define hl hx hn' hn hU hS hp hh hy hc _ ih =>
    intro s a pre rest o hK h hT hr
    obtain ⟨t, pre1, rest1, t1, t2, t3, t4, t5⟩ := teach (cfg := cfg) (n := n) (room := 54) hK h hl hx hn' hn hU hS hp hh hy hc
      (by simpa only [List.cons_append, List.append_assoc] using hT) hr
    obtain ⟨s', u, toks', pre', rest', u1, u2⟩ := ih t2 t3 t4 t5
    rw [List.append_assoc] at u2
    exact ⟨s', u, _, pre', rest', t1.append u1, u2⟩

/-- A whole text without an error. -/
theorem Spec.Turns.works (hC : Turns toks V m l V' m' l' out) (hK : Kit b ix text V m s0 s) (h : Sits s ix l o k p a) (hT : Tokens rest toks)
    (hr : Reading a.task pre rest) : ∃ s' t toks', Works cfg (n + 1) 54 (StillLoaded (ix "leave") (rtfRegions b) s0) toks' a t ∧
      Kit b ix text V' m' s0 s' ∧ Sits s' ix l' (o ++ out) k p t := by
  obtain ⟨s', t, toks', pre', rest', h1, h2, h3, h4, h5⟩ := hC.passes (cfg := cfg) (n := n) (more := []) hK h (by rw [List.append_nil]; exact hT) hr
  cases h4 with
  | @blank bs hb =>
    exact ⟨s', _, _, h1.works (.done (pre := pre') (bs := rest') (more := []) ⟨by simpa using h5, hb, by simp, by simp [EndsToken], by simp, h3.token⟩), h2,
      h3.took _ _ _⟩

/-- A bad token. -/
theorem Spec.Trouble.raises (hB : Trouble cfg.fops tok l why) (hR : Kit b ix text V m s0 s) (hU : Unused V tok) (h : Sits s ix l o k p a) (ht : a.tkn = some tok) :
    ∃ e x, (∀ r : List Cell, r.length + 4 ≤ capacity → TokenRaises cfg (n + 2) e (RaisedOn { a with lastError := x } r) (setRet a r)) ∧
      (∀ d, why = some d → ¬Quiet e ∧ d = ascii (description e)) ∧ (why = none → Quiet e) := by
  have he : ({ a with lastError := none } : VM) = a := by rw [← h.error]
  have hd := h.data
  cases hB with
  | unknown hn hi hf =>
    obtain ⟨x, hx⟩ := C66_unknown (cfg := cfg) (n := n + 1) (h.space hR) (hR.unknown h hn hU ht _) (by rw [h.base hR]; exact hi) hf
    exact ⟨.undefinedWord, some x, fun r _ => hx r, fun d hd => by cases hd; exact ⟨by decide, rfl⟩, nofun⟩
  | compileOnly hm hs =>
    obtain ⟨i, w, w1, w2, w3⟩ := hR.loaded.only _ hm
    refine ⟨.interpretingCompileOnly, none, fun r _ => ?_, fun d hd => by cases hd; exact ⟨by decide, rfl⟩, nofun⟩
    rw [he]
    exact C66_compile_only (n := n + 1) (h.dict hR) (h.inSpace hR) ht (h.newest (hR.newest hU hs w1)) (by rw [h.wl]; exact hR.words _ _ w2) h.mode w3 r
  | @divide name f x l1 hm hs hl =>
    have hin : name ∈ ["/", "mod"] := by
      simp only [divisions, List.mem_cons, Prod.mk.injEq, List.not_mem_nil, or_false] at hm
      rcases hm with ⟨rfl, -⟩ | ⟨rfl, -⟩ <;> simp
    have hin' : name ∈ effects.map (·.1) ++ ["/", "mod", "abort"] := by
      refine List.mem_append_right _ ?_
      simp only [List.mem_cons, List.not_mem_nil, or_false] at hin ⊢
      rcases hin with h | h <;> simp [h]
    obtain ⟨w, w2, w3, w4⟩ := hR.prim h hin'
    obtain ⟨w1, -⟩ := hR.word h hU (calcWords_prim hin') hs
    refine ⟨.divisionByZero, none, fun r hr => ?_, fun d hd => by cases hd; exact ⟨by decide, rfl⟩, nofun⟩
    rw [he]
    refine C66_word (h.dict hR) (h.inSpace hR) ht w1 w2 (by rw [h.mode]; exact w3) fun s1 hl1 hpc => ?_
    obtain ⟨g1, g2, g3, -, -, -, g7, g8⟩ := parts_setRet hl1
    have hw' : s1.wl.words[ix name]? = some w := by rw [g1]; exact w2
    refine ⟨s1.at s1.task.st.ip (ix name), n, by omega, ⟨hl1.at _ _, by simpa using (List.getElem?_eq_some_iff.1 hw').1⟩, fun y hy => ⟨y, ?_, .refl _⟩⟩
    obtain ⟨q, q1, q2⟩ := C05_zero_divisor (ctx cfg (n + 1)) name (by
      simp only [List.mem_cons, List.not_mem_nil, or_false] at hin ⊢
      rcases hin with h | h <;> simp [h])
    rw [q1] at w4
    have hs1 : (s1.at s1.task.st.ip (ix name)).task.s.items = 0 :: x :: l1 := by
      rw [VM.at_task]
      exact g8.trans (hd.trans hl)
    rw [exec_word hw', ← Option.some.inj w4, ← hy]
    exact (q2 _).1 (items_eq_iff.1 hs1).top
  | abort hs =>
    obtain ⟨w, w2, w3, w4⟩ := hR.prim h (name := "abort") (by simp)
    obtain ⟨w1, -⟩ := hR.word h hU (calcWords_prim (by simp)) hs
    refine ⟨.abort, none, fun r _ => ?_, nofun, fun _ => by decide⟩
    rw [he]
    exact (C66_abort (h.dict hR) (h.inSpace hR) ht w1 w2 h.mode w3 w4).1

/-- A bad token, or one that names a word in which there is an error. It prints `out`. -/
def Spec.Upsets (fops : FloatOps) (V : Vocabulary) (tok : List Char) (l : List Cell) (out : List Byte) (why : Option (List Byte)) : Prop :=
  Unused V tok ∧ Trouble fops tok l why ∧ out = [] ∨ Stumbles (prompt V) [] (.body (.token tok)) l out why

/-- The machine on which an error is raised, whatever is on its return stack. -/
def Spec.RaisedIn (b : VM) (u : VM) : Prop := ∃ r : List Cell, r.length + 4 ≤ capacity ∧ RaisedOn b r u

/-- A text with an error. -/
theorem Spec.Turns.fails {out' : List Byte} (hC : Turns toks V m l V' m' l' out) (hB : Upsets cfg.fops V' tok l' out' why) (hK : Kit b ix text V m s0 s)
    (h : Sits s ix l o k p a) (hT : Tokens rest (toks ++ tok :: more)) (hr : Reading a.task pre rest) :
    ∃ s' e x c toks' l2, Fails cfg (n + 2) 54 (StillLoaded (ix "leave") (rtfRegions b) s0) e (fun _ => RaisedIn { c with lastError := x }) toks' a ∧
      Kit b ix text V' m' s0 s' ∧ Sits s' ix l2 (o ++ (out ++ out')) k p c ∧ c.tkn = some tok ∧ Told why e := by
  have hc : capacity = 64 := rfl
  obtain ⟨s', t, toks', pre', rest', h1, h2, h3, h4, h5⟩ := hC.passes (cfg := cfg) (n := n + 1) hK h hT hr
  cases h4 with
  | @word bs _ rest _ hb hne hs hend hrest =>
    rcases hB with ⟨hU, hB, rfl⟩ | hB
    · obtain ⟨e, x, e1, e2⟩ := hB.raises (n := n) h2 hU (h3.took pre' bs tok) rfl
      refine ⟨s', e, x, _, _, l', h1.fails (.raises (more := rest) ⟨h5, hb, hs, hend, fun e => absurd e hne, h3.token⟩ hne fun r hr s1 g1 g2 g3 => ?_),
        h2, by rw [List.append_nil]; exact h3.took pre' bs tok, rfl, e2⟩
      obtain ⟨u, m, u1, u2, u3⟩ := e1 r (by omega) s1 g1 g2 g3
      exact ⟨u, m, u1, ⟨r, by omega, u2⟩, u3⟩
    · obtain ⟨e, c, l2, c1, c2, c3, c4⟩ := hB.raises (cfg := cfg) (n := n) h2 (h3.took pre' bs tok) rfl
      have he : ({ c with lastError := none } : VM) = c := by rw [← c1.error]
      refine ⟨s', e, none, c, _, l2, h1.fails (.raises (more := rest) ⟨h5, hb, hs, hend, fun e => absurd e hne, h3.token⟩ hne ?_),
        h2, by rw [← List.append_assoc]; exact c1, c2, c3⟩
      rw [he]; exact c4

theorem Spec.Sits.like (h : Sits s ix l o k p u) (hl : Like t u) : Sits s ix l o k p t := by
  obtain ⟨ip, wp, ds, rs, fs, k1, k2, k3, e⟩ := hl.task
  have hs := hl.s; have hr := hl.r; have hf := hl.f
  refine ⟨?_, ?_, hl.ds.trans h.ds, hl.wl.trans h.wl, ?_, hl.data.trans h.data, ⟨hs.calm h.calm.1, hr.calm h.calm.2.1, ?_, hf.calm h.calm.2.2.2⟩,
    ?_, ?_, ?_, ?_, ?_, ?_, ?_, ?_, ?_, ?_⟩
  · refine Eq.trans ?_ h.refs; obtain ⟨_, _, _, _, _, -, -, -, rfl⟩ := hl; rfl
  · refine Eq.trans ?_ h.cur; obtain ⟨_, _, _, _, _, -, -, -, rfl⟩ := hl; rfl
  · refine Eq.trans ?_ h.handler; obtain ⟨_, _, _, _, _, -, -, -, rfl⟩ := hl; rfl
  · rw [e]; exact h.calm.2.2.1
  · rw [e]; exact h.control
  · refine Eq.trans ?_ h.labels; obtain ⟨_, _, _, _, _, -, -, -, rfl⟩ := hl; rfl
  · obtain ⟨_, _, _, _, _, -, -, -, rfl⟩ := hl; exact h.token
  · refine Eq.trans ?_ h.output; obtain ⟨_, _, _, _, _, -, -, -, rfl⟩ := hl; rfl
  · refine Eq.trans ?_ h.error; obtain ⟨_, _, _, _, _, -, -, -, rfl⟩ := hl; rfl
  · rw [e]; exact h.mode
  · rw [e]; exact h.source
  · rw [e]; exact h.input
  · refine Eq.trans ?_ h.calls; obtain ⟨_, _, _, _, _, -, -, -, rfl⟩ := hl; rfl
  · refine Eq.trans ?_ h.stdout; obtain ⟨_, _, _, _, _, -, -, -, rfl⟩ := hl; rfl

theorem Spec.Sits.flush (h : Sits s ix l o k p u) : Sits s ix l [] k (p ++ lineOf o) (flushed u) := by
  have hf : flushed u = { u with stdout := p ++ lineOf o, outbuf := some [] } := by
    rw [Verif.Spec.flushed, h.output, lineOf]
    cases o with
    | nil =>
      have h1 := h.output
      have h2 := h.stdout
      simp only [if_true, List.append_nil]
      rw [← h1, ← h2]
    | cons x y => simp [h.stdout]
  rw [hf]
  exact ⟨h.refs, h.cur, h.ds, h.wl, h.handler, h.data, h.calm, h.control, h.labels, h.token, rfl, h.error, h.mode, h.source, h.input, h.calls, rfl⟩

theorem Spec.Sits.receive (h : Sits s ix l o k p u) (text : List Char) : Sits s ix l o (k + 1) p (typed u text) := by
  have ht : (Verif.Spec.typed u text).task = { u.task with inbuf := some text, st := { u.task.st with sourceIndex := 0 } } := VM.task_setTask u _
  refine ⟨h.refs, h.cur, h.ds, h.wl, h.handler, ?_, ?_, ?_, h.labels, h.token, h.output, h.error, ?_, ?_, ⟨text, by rw [ht]⟩, ?_, h.stdout⟩
  · rw [Verif.Spec.data, ht]; exact h.data
  · rw [ht]; exact h.calm
  · rw [ht]; exact h.control
  · rw [ht]; exact h.mode
  · rw [ht]; exact h.source
  · show u.host.calls + 1 = _
    rw [h.calls]

theorem flushed_error (w : VM) (x : Option Exn) : flushed { w with lastError := x } = { flushed w with lastError := x } := by
  cases h : w.outbuf with
  | none => simp [flushed, h]
  | some o => cases o <;> simp [flushed, h]

/-- The machine after an error. -/
theorem Spec.Sits.recover (h : Sits s ix l o k p u) (x : Option Exn) (txt hld : List Byte) :
    Sits s ix [] [] k (p ++ lineOf (o ++ txt)) (recovered { u with lastError := x } txt hld) ∧ ret (recovered { u with lastError := x } txt hld) = [] := by
  have h2 := (h.prints txt).flush
  have e : recovered { u with lastError := x } txt hld = { (flushed (printed u txt)).setTask
      (fresh { u.task with s := u.task.s.reset, f := u.task.f.reset, c := u.task.c.reset }) with hldbuf := hld, lastError := none } := by
    rw [Verif.Spec.recovered]
    rw [show printed { u with lastError := x } txt = { printed u txt with lastError := x } from rfl, flushed_error]; rfl
  rw [e]
  generalize hy : fresh { u.task with s := u.task.s.reset, f := u.task.f.reset, c := u.task.c.reset } = y
  generalize hv : flushed (printed u txt) = v at h2
  have ht : ({ v.setTask y with hldbuf := hld, lastError := none } : VM).task = y := VM.task_setTask v y
  refine ⟨⟨h2.refs, h2.cur, h2.ds, h2.wl, h2.handler, ?_, ?_, ?_, h2.labels, h2.token, h2.output, rfl, ?_, ?_, ?_, h2.calls, h2.stdout⟩, ?_⟩
  · rw [Verif.Spec.data, ht, ← hy]; rfl
  · rw [ht, ← hy]; exact ⟨calm_reset _, calm_reset _, calm_reset _, calm_reset _⟩
  · rw [ht, ← hy]; rfl
  · rw [ht, ← hy]; rfl
  · rw [ht, ← hy]; rfl
  · obtain ⟨buf, hb⟩ := h.input
    rw [ht, ← hy]
    exact ⟨[], by show u.task.inbuf.map _ = _; rw [hb]; rfl⟩
  · rw [ret, ht, ← hy]; rfl

theorem Spec.Sits.raisedOn {c : VM} {x : Option Exn} {r : List Cell} (h : Sits s ix l o k p c) (hr : r.length ≤ capacity)
    (hu : RaisedOn { c with lastError := x } r u) : ∃ c' x', Sits s ix l o k p c' ∧ c'.tkn = c.tkn ∧ u = { c' with lastError := x' } := by
  have h1 := (h.setRet hr).like (t := { u with lastError := none }) (by
    obtain ⟨ip, wp, ds, rs, fs, k1, k2, k3, e⟩ := hu.1
    refine ⟨ip, wp, ds, rs, fs, k1, k2, k3, ?_⟩
    have he := h.error
    cases c
    cases he
    rw [e]; rfl)
  refine ⟨_, u.lastError, h1, ?_, rfl⟩
  obtain ⟨_, _, _, _, _, -, -, -, e⟩ := hu.1
  rw [e]; rfl

/-- Telling about an error. -/
theorem Spec.Sits.tell {c t1 : VM} {x : Option Exn} {r : List Cell} {e : Exn} (h : Sits s ix l o k p c)
    (ht : c.tkn = some tok) (hr : r.length + 1 < capacity) (hu : RaisedOn { c with lastError := x } r u)
    (hrec : Recovered (b + 10136) ix s0 e u t1) :
    (Quiet e → Sits s ix [] [] k (p ++ lineOf o) t1) ∧
    (¬Quiet e → ∃ trace, Sits s ix [] [] k (p ++ (o ++ complaint tok (ascii (description e)) trace)) t1) ∧
    ret t1 = [] := by
  obtain ⟨c', x', h1, h2, rfl⟩ := h.raisedOn (by omega) hu
  rw [Recovered] at hrec
  split at hrec
  · rename_i hq
    obtain ⟨k1, k2⟩ := h1.recover x' [] c'.hldbuf
    rw [List.append_nil] at k1
    exact ⟨fun _ => k1.like hrec, fun hn => absurd hq hn, hrec.ret.trans k2⟩
  · rename_i hq
    obtain ⟨bb, -, hrec⟩ := hrec
    obtain ⟨k1, k2⟩ := h1.recover x' (message (b + 10136) { c' with lastError := x' } e bb) (note (b + 10136) { c' with lastError := x' })
    refine ⟨fun h => absurd h hq, fun _ => ⟨(traced { c' with lastError := x' } e bb).drop 11, ?_⟩, hrec.ret.trans k2⟩
    have k3 := k1.like hrec
    have e2 : traced { c' with lastError := x' } e bb = ascii "backtrace: " ++ (traced { c' with lastError := x' } e bb).drop 11 := by
      rw [traced]
      simp only [List.append_assoc]
      rfl
    generalize hT : traced { c' with lastError := x' } e bb = T at e2 k3 ⊢
    have e3 : message (b + 10136) { c' with lastError := x' } e bb =
        utf8 tok ++ ascii " " ++ ascii (description e) ++ ascii ", backtrace: " ++ T.drop 11 ++ [13] := by
      rw [message, hT, origin, if_pos (show ({ c' with lastError := x' } : VM).task.st.sourceId = 0 from h1.source), show ({ c' with lastError := x' } : VM).tkn = some tok from h2.trans ht]
      have e1 : ascii ", backtrace: " = ascii ", " ++ ascii "backtrace: " := by decide
      rw [e1]
      conv => lhs; rw [e2]
      simp only [List.append_assoc, Option.getD_some, List.nil_append]
    rw [e3, lineOf, if_neg (by simp)] at k3
    simpa only [complaint, List.append_assoc, List.cons_append, List.nil_append] using k3

theorem Spec.Sits.ready (hR : Kit b ix text V m s0 s) {c : VM} {x : Option Exn} {r : List Cell} (h : Sits s ix l o k p c)
    (hr : r.length + 1 < capacity) (hu : RaisedOn { c with lastError := x } r u) :
    StillLoaded (ix "leave") (rtfRegions b) s0 u ∧ Recoverable (b + 10136) ix u :=
  hu.ready ((h.still hR).congr rfl rfl rfl rfl) h.handler (.inl h.source) (h.space hR) (by show c.outbuf ≠ none; rw [h.output]; simp)
    (((h.dict hR).traceable (h.inSpace hR)).congr rfl rfl) hr

/-- A line is typed at the prompt and answered. -/
theorem replies (hK : Kit b ix text V m s0 s) {line : List Char} {ans : List Byte → List Byte} (hA : Replies cfg.fops line V m l V' m' l' ans)
    (hb : byteLen line < 2 ^ 63) (h : Sits s ix l o k p u) (hr : ret u = []) (hk : cfg.answers k = .line line) {q : Nat} (hq : PromptAt ix s0 q) {u1 : VM}
    (hl : Like u1 u) (hp : pc u1 = q) : ∃ s' t t1 tr, Kit b ix text V' m' s0 s' ∧ Steps cfg (n + 3) u1 t1 ∧ Like t1 t ∧ pc t1 = q ∧
      Sits s' ix l' [] (k + 1) (p ++ (o ++ ans tr)) t ∧ ret t = [] := by
  have hc : capacity = 64 := rfl
  have hR := hK.loaded
  obtain ⟨w, w1, w2⟩ := hR.receive
  obtain ⟨buf, hbuf⟩ := h.input
  have hx := C69_receive (cfg := cfg) (n := n + 2) (by rw [h.wl]; exact hK.words _ _ w1) w2 h.source hbuf (by rw [h.calls]; exact hk)
  have h1 := h.receive line
  obtain ⟨u2, f1, f2, f3⟩ : ∃ t1, Steps cfg (n + 3) u1 t1 ∧ Like t1 (typed u line) ∧ pc t1 = q + 8 := by
    obtain ⟨wq, w1, w2, w3, w4, w5, -⟩ := hR.repl.layout
    obtain ⟨w', k1, rfl⟩ := hq
    rw [w1] at k1; cases k1
    have hL := (((h.still hK).loaded (g := (b + 10696, b + 11496)) (by simp [rtfRegions]))).like hl
    have := (answerCode ix).le_next (wq.dfa + 16)
    have g := hR.repl.region
    have := g.upper; have := g.small
    obtain ⟨s2, t1, f1, -, f3, f4, f5⟩ := hx (u1.at (wq.dfa + 8 + 8) u1.task.st.wp) (hl.at _ _) (by simp [pc]; omega)
    exact ⟨t1, Steps.trans (.one (step_word hL g hp (by omega) (by omega) w3 f1)) f3, f4, by rw [f5]; simp [pc]⟩
  have h2 := h1.prints (ascii " ")
  generalize hv : typed u line = v at h1 h2 f2
  have hvt : v.task = { u.task with inbuf := some line, st := { u.task.st with sourceIndex := 0 } } := by rw [← hv]; exact VM.task_setTask u _
  have hrv : ret v = [] := by rw [ret, hvt]; exact hr
  have hrd : Reading (printed v (ascii " ")).task [] line := by
    show Reading v.task [] line
    rw [hvt]
    refine ⟨?_, rfl, hb⟩
    rw [inputBuffer, if_neg (by rw [show ({ u.task with inbuf := some line, st := { u.task.st with sourceIndex := 0 } } : Task).st.sourceId = 0 from h.source]; decide)]
    rfl
  have hAsk : l.length + 4 ≤ capacity → Asked (ix "leave") (rtfRegions b) 54 s0 v := fun h4 =>
    ⟨h1.still hK, h1.calm.1, by rw [h1.data]; omega, by rw [hrv]; decide⟩
  have bad : ∀ {toks more : List (List Char)} {tok : List Char} {l1 : List Cell} {a a' : List Byte} {why : Option (List Byte)},
      Tokens line (toks ++ tok :: more) → Turns toks V m l V' m' l1 a → Upsets cfg.fops V' tok l1 a' why → ∃ s' e c x r u3 t1 l2, r.length + 1 < capacity ∧
        Kit b ix text V' m' s0 s' ∧
        Sits s' ix l2 (o ++ ascii " " ++ (a ++ a')) (k + 1) p c ∧ c.tkn = some tok ∧ RaisedOn { c with lastError := x } r u3 ∧ Steps cfg (n + 3) u2 t1 ∧
        pc t1 = q ∧ Recovered (b + 10136) ix s0 e u3 t1 ∧ Told why e := by
    intro toks more tok l1 a a' why hT hC hB
    obtain ⟨s', e, x, c, toks', l2, c1, c0, c2, c3, c4⟩ := hC.fails (cfg := cfg) (n := n) hB hK h2 hT hrd
    obtain ⟨z, u3, t1, -, ⟨r, hr, z2⟩, z3, z4, z5⟩ := C66_bad_line (cfg := cfg) (n := n + 2) hR.repl (hAsk hC.room) (by omega) c1
      (fun z u3 _ ⟨r, hr, hu⟩ => c2.ready c0 (by omega) hu) hq f2 f3
    exact ⟨s', e, c, x, r, u3, t1, l2, by omega, c0, c2, c3, z2, z3, z4, z5, c4⟩
  have told : ∀ {toks more : List (List Char)} {tok : List Char} {l1 : List Cell} {a a' why : List Byte},
      Tokens line (toks ++ tok :: more) → Turns toks V m l V' m' l1 a → Upsets cfg.fops V' tok l1 a' (some why) → ∃ s' t t1 tr,
        Kit b ix text V' m' s0 s' ∧ Steps cfg (n + 3) u1 t1 ∧ Like t1 t ∧ pc t1 = q ∧
        Sits s' ix [] [] (k + 1) (p ++ (o ++ (ascii " " ++ (a ++ a') ++ complaint tok why tr))) t ∧ ret t = [] := by
    intro toks more tok l1 a a' why hT hC hB
    obtain ⟨s', e, c, x, r, u3, t1, l2, g1, g0, g2, g3, g4, g5, g6, g7, g8, -⟩ := bad hT hC hB
    obtain ⟨hq', rfl⟩ := g8 why rfl
    obtain ⟨-, k2, k3⟩ := g2.tell g3 g1 g4 g7
    obtain ⟨tr, k2⟩ := k2 hq'
    refine ⟨s', t1, t1, tr, g0, f1.trans g5, .refl _, g6, ?_, k3⟩
    simpa only [List.append_assoc, List.cons_append, List.nil_append] using k2
  have quiet : ∀ {toks more : List (List Char)} {tok : List Char} {l1 : List Cell} {a a' : List Byte},
      Tokens line (toks ++ tok :: more) → Turns toks V m l V' m' l1 a → Upsets cfg.fops V' tok l1 a' none → ∃ s' t t1,
        Kit b ix text V' m' s0 s' ∧ Steps cfg (n + 3) u1 t1 ∧ Like t1 t ∧ pc t1 = q ∧
        Sits s' ix [] [] (k + 1) (p ++ (o ++ (ascii " " ++ (a ++ a') ++ [10]))) t ∧ ret t = [] := by
    intro toks more tok l1 a a' hT hC hB
    obtain ⟨s', e, c, x, r, u3, t1, l2, g1, g0, g2, g3, g4, g5, g6, g7, -, g8⟩ := bad hT hC hB
    obtain ⟨k1, -, k3⟩ := g2.tell g3 g1 g4 g7
    have k1 := k1 (g8 rfl)
    rw [lineOf, if_neg (by rw [show ascii " " = [32] by decide]; simp)] at k1
    refine ⟨s', t1, t1, g0, f1.trans g5, .refl _, g6, ?_, k3⟩
    simpa only [List.append_assoc, List.cons_append, List.nil_append] using k1
  cases hA with
  | @ok toks _ _ _ a hT hC =>
    obtain ⟨s', t, toks', t1, t0, t2⟩ := hC.works (cfg := cfg) (n := n + 1) hK h2 hT hrd
    have h4 := hC.room'
    obtain ⟨t3, g1, g2, g3⟩ := C66_line (cfg := cfg) (n := n + 2) hR.repl (hAsk hC.room) t1 (by rw [t2.data]; omega) hq f2 f3
    have h5 := (t2.prints (ascii " ok" ++ [13])).flush
    have e5 : answered t = flushed (printed t (ascii " ok" ++ [13])) := by rw [answered, t2.mode]; rfl
    rw [← e5, lineOf, if_neg (by simp)] at h5
    refine ⟨s', _, t3, [], t0, f1.trans g1, g3, g2, ?_, ?_⟩
    · rw [hrv]
      have := h5.setRet (r := []) (by simp)
      simpa only [List.append_assoc, List.cons_append, List.nil_append] using this
    · rw [hrv]; exact ret_setRet (by simp)
  | @error toks more tok _ _ l1 a why hT hC hU hB =>
    obtain ⟨s', t, t1, tr, g⟩ := told hT hC (.inl ⟨hU, hB, rfl⟩)
    rw [List.append_nil] at g
    exact ⟨s', t, t1, tr, g⟩
  | @abort toks more tok _ _ l1 a hT hC hU hB =>
    obtain ⟨s', t, t1, g⟩ := quiet hT hC (.inl ⟨hU, hB, rfl⟩)
    rw [List.append_nil] at g
    exact ⟨s', t, t1, [], g⟩
  | errorInside hT hC hB => exact told hT hC (.inr hB)
  | abortInside hT hC hB =>
    obtain ⟨s', t, t1, g⟩ := quiet hT hC (.inr hB)
    exact ⟨s', t, t1, [], g⟩

end

section
variable {cfg : Cfg} {n b k m : Nat} {s s0 u : VM} {ix : String → Nat} {text extra : List Char} {texts : List (List Char)}
  {l : List Cell} {o p : List Byte} {out : (Nat → List Byte) → List Byte} {V : Vocabulary}

theorem lessons (hD : Lessons cfg.fops V m l o texts out) : ∀ {k : Nat} {p : List Byte} {s u u1 : VM}, Kit b ix text V m s0 s →
    Types cfg k texts → Sits s ix l o k p u → ret u = [] → ∀ {q : Nat}, PromptAt ix s0 q → Like u1 u → pc u1 = q →
    ∃ V' m' s' t t1 tr l' o' k' p', Kit b ix text V' m' s0 s' ∧ Steps cfg (n + 3) u1 t1 ∧ Like t1 t ∧ pc t1 = q ∧ Sits s' ix l' o' k' p' t ∧
      cfg.answers k' = .eof ∧ p' ++ lineOf o' = p ++ out tr := by
  induction hD with
  | done =>
    intro k p s u u1 hK hA h hr q hq hl hp
    exact ⟨_, _, s, u, u1, fun _ => [], _, _, _, _, hK, .refl _, hl, hp, h, hA.2, rfl⟩
  | @line V V' m m' l l' o a out x xs hb hx _ ih =>
    intro k p s u u1 hK hA h hr q hq hl hp
    obtain ⟨s', t, t1, tr, g0, g1, g2, g3, g4, g5⟩ := replies (n := n) hK hx hb h hr (hA.1 0 x rfl) hq hl hp
    obtain ⟨V2, m2, s2, v, v1, trs, l2, o2, k2, p2, f0, f1, f2, f3, f4, f5, f6⟩ := ih (k := k + 1) (u := t) (u1 := t1) g0
      ⟨fun i y hy => by rw [Nat.add_assoc, Nat.add_comm 1 i]; exact hA.1 (i + 1) y hy,
        by have := hA.2; rw [List.length_cons] at this; rw [Nat.add_assoc, Nat.add_comm 1]; exact this⟩ g4 g5 hq g2 g3
    refine ⟨V2, m2, s2, v, v1, fun i => match i with | 0 => tr | i + 1 => trs i, l2, o2, k2, p2, f0, g1.trans f1, f2, f3, f4, f5, ?_⟩
    rw [f6]
    simp only [List.append_assoc]

theorem Spec.RtfLoaded.sits (h : RtfLoaded b ix text s) (q : Nat) : Sits s ix [] [] s.host.calls s.stdout (roused s (ix "(abort)") q) := by
  have hL := h.core.listening
  have ht : (roused s (ix "(abort)") q).task = s.task := by simp [roused, VM.task]
  refine ⟨rfl, rfl, rfl, rfl, rfl, ?_, ?_, ?_, hL.labels, Option.isSome_iff_exists.1 hL.token, h.output, rfl, ?_, ?_, ?_, rfl, rfl⟩
  · rw [data_roused]; exact h.core.empty
  · rw [ht]; exact ⟨hL.data, hL.ret, hL.control, hL.floats⟩
  · rw [ht]; exact hL.balanced
  · rw [ht]; exact hL.interpreting
  · rw [ht]; exact h.terminal
  · obtain ⟨pre, hp⟩ := h.input
    have := hp.buffer
    rw [inputBuffer, if_neg (by rw [h.terminal]; decide)] at this
    rw [ht]
    exact ⟨_, Except.ok.inj this⟩

theorem Spec.Sits.afresh (h : Sits s ix l o k p u) : Sits s ix l o k p (Spec.afresh u) ∧ ret (Spec.afresh u) = [] := by
  have ht : (Verif.Spec.afresh u).task = fresh u.task := VM.task_setTask u _
  refine ⟨⟨h.refs, h.cur, h.ds, h.wl, h.handler, ?_, ?_, ?_, h.labels, h.token, h.output, rfl, ?_, ?_, ?_, h.calls, h.stdout⟩, ?_⟩
  · rw [Verif.Spec.data, ht]; exact h.data
  · rw [ht]; exact ⟨h.calm.1, calm_reset _, h.calm.2.2⟩
  · rw [ht]; exact h.control
  · rw [ht]; rfl
  · rw [ht]; rfl
  · obtain ⟨buf, hb⟩ := h.input
    rw [ht]
    exact ⟨[], by show u.task.inbuf.map _ = _; rw [hb]; rfl⟩
  · rw [ret, ht]; rfl

/-- There is more text at the end of the line, and something was printed. -/
theorem Spec.RtfLoaded.extended (h : RtfLoaded b ix text s) {buf : List Char} (hi : s.task.inbuf = some buf) (hl : byteLen (buf ++ extra) < 2 ^ 63)
    {t : VM} (ht : t = { s.setTask { s.task with inbuf := some (buf ++ extra) } with stdout := o }) : RtfLoaded b ix (text ++ extra) t := by
  have e : t.task = { s.task with inbuf := some (buf ++ extra) } := by rw [ht]; exact VM.task_setTask s _
  have hL := h.core.listening
  have hl0 := h.core.loader
  have hE : ∀ {lv lo hi : Nat}, Equipped lv lo hi ix s → Equipped lv lo hi ix t := fun k => by rw [ht]; exact ⟨k.words, k.library⟩
  have hRd : ∀ {lv lo hi : Nat}, HasReader lv lo hi ix s → HasReader lv lo hi ix t := fun k => by
    rw [ht]; exact ⟨k.words, k.region, k.uses, k.coded⟩
  have t1 : t.wl = s.wl := by rw [ht]; rfl
  have t2 : t.ds = s.ds := by rw [ht]; rfl
  have t3 : t.refs = s.refs := by rw [ht]; rfl
  have hN : ∀ {nm : List Byte} {i : Option Nat}, Newest s nm i → Newest t nm i := fun k => by simpa only [Newest, Visible, t1, t2] using k
  have t4 : pc t = pc s := by simp only [pc]; rw [e]
  have core : CoreLoaded (b + 16) ix t := by
    refine ⟨⟨by rw [e]; exact hL.interpreting, by rw [ht]; exact hL.noError, by rw [ht]; exact hL.token, ?_, ?_, by rw [t2]; exact hL.space,
      by rw [e]; exact hL.data, by rw [e]; exact hL.ret, by rw [e]; exact hL.floats, by rw [e]; exact hL.control, by rw [e]; exact hL.balanced,
      by rw [ht]; exact hL.labels⟩, ?_, by rw [e]; exact h.core.empty, fun n hn => hN (h.core.names n hn), ?_, by rw [t2]; exact h.core.saved, ?_, ?_⟩
    · have := hL.idle
      rw [Idle] at this ⊢
      rw [t4, t2]; exact this
    · exact hL.dict.congr t1 t2
    · have := h.core.decimal
      rw [baseOf] at this ⊢
      rw [t2]; exact this
    · have k := hl0.saves
      exact ⟨⟨hE k.equipped, by rw [t2]; exact k.region, by rw [t1]; exact k.uses, by rw [t1, t2, t3]; exact k.coded, by rw [t1]; exact k.place,
        by rw [t2]; exact k.lower, by rw [t2]; exact k.upper, k.apart1, k.apart2⟩, hRd hl0.reader, by rw [t2]; exact hl0.region,
        by rw [t1]; exact hl0.uses, by rw [t1, t2, t3]; exact hl0.coded, by rw [t1]; exact hl0.place, by rw [t1, t2]; exact hl0.readOnly,
        by rw [t1]; exact hl0.bracket, by rw [t2]; exact hl0.lower, by rw [t2]; exact hl0.upper, hl0.apart, hl0.apartA⟩
    · have k := h.core.definers
      exact ⟨hE k.equipped, by rw [t1]; exact k.uses, by rw [t3]; exact k.does, by rw [t1, t2, t3]; exact k.coded⟩
    · have k := h.core.facilities
      exact ⟨by rw [t1, t3]; exact k.words, by rw [t2]; exact k.region, by rw [t1]; exact k.uses, k.lower, k.upper, k.apart,
        by rw [t1]; exact k.getWord, by rw [t1]; exact k.releaseWord, by rw [t2, t3]; exact k.getAt, by rw [t2, t3]; exact k.releaseAt⟩
  have k := h.repl
  obtain ⟨pre, hp⟩ := h.input
  refine ⟨core, fun n hn => hN (h.names n hn), ⟨hE k.equipped, hRd k.reader, by rw [t2]; exact k.region, by rw [t1]; exact k.uses,
    by rw [t1, t2, t3]; exact k.coded, by rw [t1]; exact k.place, by rw [t2]; exact k.lower, by rw [t2]; exact k.upper⟩,
    by rw [t1]; exact h.uses, by rw [t1]; exact h.receive, by rw [t2]; exact h.place, by rw [t1, t2, t3]; exact h.tasks,
    by rw [t1, t2, t3]; exact h.cold, fun n hn => (h.words n hn).imp fun _ => hN, fun nm hn => hN (h.others nm hn),
    fun n hn => ⟨hN (h.calcs n hn).1, by rw [t1]; exact (h.calcs n hn).2⟩, by rw [t1]; exact h.basic, by rw [t1, t2, t3]; exact h.dot,
    fun n hn => ?_, by rw [ht]; exact h.first, by rw [ht]; exact h.output, by rw [e]; exact h.terminal, ⟨pre, ?_, ?_, ?_⟩, ?_, ?_⟩
  · obtain ⟨i, w, h1, h2⟩ := h.only n hn
    exact ⟨i, w, hN h1, by rw [t1]; exact h2⟩
  · have := hp.buffer
    rw [inputBuffer, if_neg (by rw [h.terminal]; decide), hi] at this
    rw [e, inputBuffer]
    dsimp only
    rw [if_neg (by rw [h.terminal]; decide), Option.some.inj (Except.ok.inj this), List.append_assoc]
  · rw [e]; exact hp.position
  · have := hp.buffer
    rw [inputBuffer, if_neg (by rw [h.terminal]; decide), hi] at this
    rw [← List.append_assoc, ← Option.some.inj (Except.ok.inj this)]
    exact hl
  · have := h.ret
    rw [Verif.Spec.ret] at this ⊢
    rw [e]; exact this
  · have k := h.workshop
    refine ⟨by rw [t2]; exact k.lower, by rw [t2]; exact k.upper, by rw [t1]; exact k.count, by rw [t1, t3]; exact k.compiler, by rw [t3]; exact k.float,
      by rw [t1]; exact k.calls, fun e he => ?_, by rw [t3]; exact k.exit, fun n hn => ?_, ?_⟩
    · obtain ⟨i, w, h1, h2⟩ := k.structures e he
      exact ⟨i, w, hN h1, by rw [t1]; exact h2⟩
    · obtain ⟨h1, h2⟩ := k.loops n hn
      exact ⟨hN h1, by rw [t1]; exact h2⟩
    · obtain ⟨i, w, h1, h2⟩ := k.colon
      exact ⟨i, w, hN h1, by rw [t1]; exact h2⟩

end
end Verif
