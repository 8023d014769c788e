import Verif.Spec.Errors
import Verif.Lemmas.Orderly
import Verif.Lemmas.NumberWords
import Verif.Lemmas.Demo

/-!
# C30, C31, C32, C33: errors and the evaluation of a line
-/

namespace Verif
open Spec

/-! ## C30 -/

/-- C30. Raising an error empties the data, float and control stacks of the running task, records the
error, and runs the installed handler; other tasks, the return stack of this one, memory and dictionary are
as before when the handler starts. -/
theorem C30_abort (c : Ctx) (e : Exn) (s : VM) :
    abortWith c e s = c.ex s.handler (raised s e) ∧
    (raised s e).task.s.items = [] ∧ (raised s e).task.f.items = [] ∧ (raised s e).task.c.items = [] ∧
    (raised s e).task.s.underflow = false ∧ (raised s e).task.f.underflow = false ∧
    (raised s e).task.c.underflow = false ∧
    (raised s e).lastError = some e ∧ (raised s e).task.r = s.task.r ∧
    (raised s e).cur = s.cur ∧ (∀ j, j ≠ s.cur → (raised s e).tasks j = s.tasks j) ∧
    (raised s e).ds = s.ds ∧ (raised s e).wl = s.wl := by
  have ht : (raised s e).task = { s.task with
        s := s.task.s.reset, f := s.task.f.reset, c := s.task.c.reset,
        st := { s.task.st with abortedWp := s.task.st.wp } } := VM.task_setTask s _
  rw [ht]
  refine ⟨abortWith_run c e s, rfl, rfl, rfl, ?_, ?_, ?_, rfl, rfl, rfl, ?_, rfl, rfl⟩
  · simp [Stack.underflow, Stack.reset]
  · simp [Stack.underflow, Stack.reset]
  · simp [Stack.underflow, Stack.reset]
  · exact fun j hj => if_neg hj

/-- An error that a chain of changes leaves pending was there before or was raised on the way. -/
theorem Spec.Changes.raised {K : List Kind} {s t : VM} (h : Changes K s t) {e : Exn}
    (he : t.lastError = some e) :
    s.lastError = some e ∨ Reserved e ∧ ∃ u, Changes K s u ∧ Changes K (Spec.raised u e) t := by
  induction h with
  | refl => exact .inl he
  | @tail u v k h hk hc ih =>
    by_cases h1 : k = .raise
    · subst h1
      obtain ⟨x, hx, rfl⟩ := hc
      cases he
      exact .inr ⟨hx, u, h, .refl _⟩
    have key : v.lastError = u.lastError ∨ v.lastError = none := by
      cases k <;> simp only [Change] at hc
      case raise => exact absurd rfl h1
      case sourceOpen => obtain ⟨src, ⟨p, -, rfl⟩ | rfl⟩ := hc <;> exact .inl rfl
      case clear => subst hc; exact .inr rfl
      case activate => obtain ⟨_, _, rfl⟩ := hc; exact .inr rfl
      all_goals
        first
        | (obtain ⟨_, rfl⟩ := hc; exact .inl rfl)
        | (obtain ⟨_, _, rfl⟩ := hc; exact .inl rfl)
        | (obtain ⟨_, _, _, rfl⟩ := hc; exact .inl rfl)
        | (obtain ⟨_, _, _, _, rfl⟩ := hc; exact .inl rfl)
        | (obtain ⟨_, _, _, _, _, rfl⟩ := hc; exact .inl rfl)
        | (obtain ⟨_, _, _, _, _, _, rfl⟩ := hc; exact .inl rfl)
        | (subst hc; exact .inl rfl)
    rcases key with h2 | h2
    · rw [h2] at he
      rcases ih he with h3 | ⟨hx, x, h3, h4⟩
      · exact .inl h3
      · exact .inr ⟨hx, x, h3, h4.tail hk hc⟩
    · rw [h2] at he; cases he

/-- C30. There is no other way to an error: in every execution, of any program and any length, an error
that is pending at the end and was not at the start was raised on the way, on a machine whose stacks were
emptied at that moment. -/
theorem C30_only {cfg : Cfg} {s t : VM} (h : Reach cfg s t) (hi : InSpace s) {e : Exn}
    (hs : s.lastError ≠ some e) (ht : t.lastError = some e) :
    ∃ u, Changes runKinds s u ∧ Changes runKinds (raised u e) t := by
  rcases (h.changes hi).raised ht with h1 | h1
  · exact absurd h1 hs
  · exact h1.2

/-- C30. A single word leaves a new error only by raising it. The changes on the way are in its footprint
or made by the handler (`L`). -/
theorem C30_word (c : Ctx) (p : Prim) (K : List Kind) (hc : ∀ i, Does (Inv.any K) (c.ex i))
    (hk : ∀ k, k ∈ footprint p → k ∈ K) {s t : VM} {u : Unit} (hi : InSpace s)
    (h : action c p s = .ok (u, t)) {e : Exn} (hs : s.lastError ≠ some e) (ht : t.lastError = some e) :
    ∃ u, Changes K s u ∧ Changes K (raised u e) t := by
  rcases (Does.action p (fun _ => Does.runHandler hc) (fun _ => hc) hk s u t ⟨hi, trivial⟩ h).raised ht with h1 | h1
  · exact absurd h1 hs
  · exact h1.2

/-- Non-vacuity: an error raised while a token is evaluated. -/
example : succeeds (evaluateInput demoCfg 4 30) (demo "x") = true ∧ (demo "x").lastError = none ∧
    (after (evaluateInput demoCfg 4 30) (demo "x")).lastError = some .undefinedWord := by decide +kernel

/-! ## C31 -/

theorem run_more {cfg : Cfg} {depth : Nat} : ∀ {n : Nat} {s t : VM} {u : Unit},
    run cfg depth n s = .ok (u, t) → ∀ m, n ≤ m → run cfg depth m s = .ok (u, t) := by
  intro n
  induction n with
  | zero => intro s t u h; cases h
  | succ n ih =>
    intro s t u h m hm
    obtain ⟨m, rfl⟩ : ∃ k, m = k + 1 := ⟨m - 1, by omega⟩
    unfold run at h ⊢
    obtain ⟨b, s1, h1, h2⟩ := M.bind_inv h
    rw [M.bind_ok h1]
    cases b with
    | false => exact h2
    | true => exact ih h2 m (by omega)

theorem evaluateInput_more {cfg : Cfg} {depth : Nat} : ∀ {n : Nat} {s t : VM} {u : Unit},
    evaluateInput cfg depth n s = .ok (u, t) → ∀ m, n ≤ m → evaluateInput cfg depth m s = .ok (u, t) := by
  intro n
  induction n with
  | zero => intro s t u h; cases h
  | succ n ih =>
    intro s t u h m hm
    obtain ⟨m, rfl⟩ : ∃ k, m = k + 1 := ⟨m - 1, by omega⟩
    unfold evaluateInput at h ⊢
    obtain ⟨_, a, h1, h⟩ := M.bind_inv h
    rw [M.bind_ok h1]
    rw [M.bind_apply, getVM_apply] at h ⊢
    dsimp only at h ⊢
    by_cases ht : a.tkn = some []
    · rw [if_pos ht] at h ⊢; exact h
    rw [if_neg ht] at h ⊢
    obtain ⟨_, b, h2, h⟩ := M.bind_inv h
    rw [M.bind_ok h2]
    rw [M.bind_apply, getError_apply] at h ⊢
    dsimp only at h ⊢
    split at h
    · rw [if_pos ‹_›]; exact h
    rw [if_neg ‹_›]
    obtain ⟨_, x, h3, h⟩ := M.bind_inv h
    rw [M.bind_ok (run_more h3 m (by omega))]
    obtain ⟨_, y, h4, h⟩ := M.bind_inv h
    rw [M.bind_ok h4]
    rw [M.bind_apply, getError_apply] at h ⊢
    dsimp only at h ⊢
    split at h
    · rw [if_pos ‹_›]; exact h
    rw [if_neg ‹_›]
    exact ih h m (by omega)

theorem tkn_parseWord {s t : VM} {u : Unit} (h : parseWord s = .ok (u, t)) : ∃ tok, t.tkn = some tok := by
  unfold parseWord at h
  obtain ⟨_, s1, h1, h⟩ := M.bind_inv h
  obtain ⟨b, s2, h2, h⟩ := M.bind_inv h
  cases b with
  | none => cases h; exact ⟨[], rfl⟩
  | some buf =>
    dsimp only at h
    rw [M.bind_apply, getSt_apply] at h
    dsimp only at h
    split at h
    · obtain ⟨_, s3, h3, h⟩ := M.bind_inv h
      obtain ⟨_, s4, h4, h⟩ := M.bind_inv h
      obtain ⟨_, s5, h5, h⟩ := M.bind_inv h
      cases h
      exact ⟨_, rfl⟩
    · obtain ⟨_, s5, h5, h⟩ := M.bind_inv h
      cases h
      exact ⟨_, rfl⟩

theorem tkn_before {s t : VM} {u : Unit} (h : parseWord s = .ok (u, t)) : ∃ tok, s.tkn = some tok := by
  unfold parseWord at h
  obtain ⟨tok, s1, h1, h⟩ := M.bind_inv h
  exact ⟨tok, (takeToken_inv h1).1⟩

/-- C31. Evaluating the input is working through a line turn by turn: when the evaluation ends, it has
processed the tokens one after the other, stopped with the first turn that left an error pending, and
otherwise gone on until no token was left. -/
theorem C31_line {cfg : Cfg} {depth : Nat} {s t : VM} :
    (∃ fuel, evaluateInput cfg depth fuel s = .ok ((), t)) ↔ ∃ ts, Line cfg depth s ts t := by
  constructor
  · rintro ⟨fuel, h⟩
    induction fuel generalizing s with
    | zero => cases h
    | succ n ih =>
      unfold evaluateInput at h
      obtain ⟨_, a, h1, h⟩ := M.bind_inv h
      rw [M.bind_apply, getVM_apply] at h
      dsimp only at h
      by_cases ht : a.tkn = some []
      · rw [if_pos ht] at h
        cases h
        exact ⟨[], .done h1 ht⟩
      rw [if_neg ht] at h
      obtain ⟨tok, htok⟩ := tkn_parseWord h1
      have hne : tok ≠ [] := by rintro rfl; exact ht htok
      obtain ⟨_, b, h2, h⟩ := M.bind_inv h
      rw [M.bind_apply, getError_apply] at h
      dsimp only at h
      by_cases he : b.lastError.isSome = true
      · rw [if_pos he] at h
        cases h
        have : t.lastError ≠ none := by rintro e; rw [e] at he; cases he
        exact ⟨_, .failed h1 htok hne (.failed h2 this) this⟩
      rw [if_neg he] at h
      have he' : b.lastError = none := by cases hb : b.lastError with
        | none => rfl
        | some x => rw [hb] at he; exact absurd rfl he
      obtain ⟨_, x, h3, h⟩ := M.bind_inv h
      obtain ⟨_, y, h4, h⟩ := M.bind_inv h
      rw [M.bind_apply, getError_apply] at h
      dsimp only at h
      have hp : Processed cfg depth a y := .ran h2 he' h3 h4
      by_cases hy : y.lastError.isSome = true
      · rw [if_pos hy] at h
        cases h
        exact ⟨_, .failed h1 htok hne hp (by rintro e; rw [e] at hy; cases hy)⟩
      · rw [if_neg hy] at h
        obtain ⟨ts, hl⟩ := ih h
        refine ⟨_, .next h1 htok hne hp ?_ hl⟩
        cases hb : y.lastError with
        | none => rfl
        | some x => rw [hb] at hy; exact absurd rfl hy
  · rintro ⟨ts, h⟩
    have some_of : ∀ {o : Option Exn}, o ≠ none → o.isSome = true := by
      intro o ho; cases o with
      | none => exact absurd rfl ho
      | some x => rfl
    have turn : ∀ {s a b : VM} {tok : List Char}, parseWord s = .ok ((), a) → a.tkn = some tok → tok ≠ [] →
        Processed cfg depth a b → ∃ n, ∀ m, n ≤ m → evaluateInput cfg depth (m + 1) s =
          if b.lastError.isSome then .ok ((), b) else evaluateInput cfg depth m b := by
      intro s a b tok h1 htok hne hp
      have ht : ¬ a.tkn = some [] := by rw [htok]; simpa using hne
      cases hp with
      | failed h2 h3 =>
        refine ⟨0, fun m _ => ?_⟩
        rw [if_pos (some_of h3), evaluateInput, M.bind_ok h1, M.bind_apply, getVM_apply]
        dsimp only
        rw [if_neg ht, M.bind_ok h2, M.bind_apply, getError_apply]
        dsimp only
        rw [if_pos (some_of h3)]
        rfl
      | @ran _ u v fuel h2 h3 h4 h5 =>
        refine ⟨fuel, fun m hm => ?_⟩
        rw [evaluateInput, M.bind_ok h1, M.bind_apply, getVM_apply]
        dsimp only
        rw [if_neg ht, M.bind_ok h2, M.bind_apply, getError_apply]
        dsimp only
        rw [if_neg (by rw [h3]; simp), M.bind_ok (run_more h4 m hm), M.bind_ok h5, M.bind_apply,
          getError_apply]
        dsimp only
        rw [M.ite_apply]
        rfl
    induction h with
    | done h1 ht =>
      refine ⟨1, ?_⟩
      rw [evaluateInput, M.bind_ok h1, M.bind_apply, getVM_apply]
      dsimp only
      rw [if_pos ht]
      rfl
    | failed h1 htok hne hp he =>
      obtain ⟨n, hn⟩ := turn h1 htok hne hp
      refine ⟨n + 1, ?_⟩
      rw [hn n (Nat.le_refl _), if_pos (some_of he)]
    | next h1 htok hne hp he _ ih =>
      obtain ⟨n, hn⟩ := turn h1 htok hne hp
      obtain ⟨f, hf⟩ := ih
      refine ⟨max n f + 1, ?_⟩
      rw [hn _ (Nat.le_max_left _ _), if_neg (by rw [he]; simp)]
      exact evaluateInput_more hf _ (Nat.le_max_right _ _)

/-- C31. All turns but the last leave no error pending. -/
theorem C31_first {cfg : Cfg} {depth : Nat} {s t : VM} {ts : List Turn} (h : Line cfg depth s ts t)
    {init : List Turn} {x : Turn} (hx : ts = init ++ [x]) :
    (∀ y ∈ init, y.after.lastError = none) ∧ (x.after.lastError ≠ none → t = x.after) := by
  induction h generalizing init with
  | done => simp at hx
  | failed _ _ _ _ _ =>
    cases init with
    | nil => cases hx; exact ⟨by simp, fun _ => rfl⟩
    | cons y ys => simp at hx
  | @next s a b t tok ts h1 _ _ _ he hl ih =>
    cases init with
    | nil =>
      cases hx
      exact ⟨by simp, fun hn => absurd he hn⟩
    | cons y ys =>
      simp only [List.cons_append, List.cons.injEq] at hx
      obtain ⟨rfl, hx⟩ := hx
      obtain ⟨i1, i2⟩ := ih hx
      exact ⟨fun z hz => (List.mem_cons.1 hz).elim (fun e => e ▸ he) (i1 z), i2⟩

/-- C31. If the tokens leave the input alone (unlike `parse-word`, say), the tokens processed are those of
the text, from left to right, up to and including the first that leaves an error pending; the tokens after
it are still unread. If none does, all tokens of the text are processed. -/
theorem C31_tokens {cfg : Cfg} {depth : Nat} {s t : VM} {ts : List Turn} (h : Line cfg depth s ts t)
    {pre rest : List Char} {toks : List (List Char)} (hr : Reading s.task pre rest) (htk : Tokens rest toks)
    (hsame : ∀ x ∈ ts, SameInput x.before.task x.after.task) :
    ∃ later, toks = ts.map (·.token) ++ later ∧
      (∃ pre' rest', Reading t.task pre' rest' ∧ Tokens rest' later) ∧
      ((∀ x ∈ ts, x.after.lastError = none) → later = []) := by
  have word : ∀ {s a : VM} {tok : List Char} {pre rest : List Char} {toks : List (List Char)},
      parseWord s = .ok ((), a) → a.tkn = some tok → tok ≠ [] → Reading s.task pre rest → Tokens rest toks →
      ∃ ts pre' rest', toks = tok :: ts ∧ Reading a.task pre' rest' ∧ Tokens rest' ts := by
    intro s a tok pre rest toks h1 htok hne hr htk
    obtain ⟨old, hold⟩ := tkn_before h1
    cases htk with
    | blank hb =>
      have hp := parseWord_reading hr hold (tok := []) (n := byteLen rest)
        (fun _ => scanWord_end rest hb) (by rintro rfl; simp [byteLen])
      rw [hp] at h1
      cases h1
      cases htok
      exact absurd rfl hne
    | @word bs t rest ts hb hnt hnb he hts =>
      have hsc : scanWord (bs ++ (t ++ rest)) 0 [] = (t, byteLen (bs ++ t)) := by
        rw [scanWord_blank _ _ _ hb, scanWord_word t rest _ [] hnb he (.inl hnt)]
        simp
      have hp := parseWord_reading hr hold (fun _ => hsc) (by intro h; simp at h; exact absurd h.2.1 hnt)
      have hr' := reading_advance (t := s.task) (pre := pre) (a := bs ++ t) (rest := rest)
        (by simpa using hr)
      rw [hp] at h1
      cases h1
      cases htok
      exact ⟨ts, _, rest, rfl, by vm_simp [id]; exact hr', hts⟩
  have move : ∀ {t t' : Task} {pre rest : List Char}, SameInput t t' → Reading t pre rest →
      Reading t' pre rest := fun h hr => ⟨h.1.trans hr.buffer, h.2.trans hr.position, hr.bounded⟩
  induction h generalizing pre rest toks with
  | @done s t h1 ht =>
    obtain ⟨old, hold⟩ := tkn_before h1
    cases htk with
    | blank hb =>
      have hp := parseWord_reading hr hold (tok := []) (n := byteLen rest)
        (fun _ => scanWord_end rest hb) (by rintro rfl; simp [byteLen])
      have hr' := reading_advance (t := s.task) (pre := pre) (a := rest) (rest := [])
        (by simpa using hr)
      rw [hp] at h1
      cases h1
      exact ⟨[], rfl, ⟨_, _, by vm_simp [id]; exact hr', .blank (by simp)⟩, fun _ => rfl⟩
    | @word bs t rest ts hb hnt hnb he hts =>
      have hsc : scanWord (bs ++ (t ++ rest)) 0 [] = (t, byteLen (bs ++ t)) := by
        rw [scanWord_blank _ _ _ hb, scanWord_word t rest _ [] hnb he (.inl hnt)]
        simp
      have hp := parseWord_reading hr hold (fun _ => hsc) (by intro h; simp at h; exact absurd h.2.1 hnt)
      rw [hp] at h1
      cases h1
      cases ht
      exact absurd rfl hnt
  | failed h1 htok hne hp he =>
    obtain ⟨ts, pre', rest', rfl, h2, h3⟩ := word h1 htok hne hr htk
    exact ⟨ts, rfl, ⟨pre', rest', move (hsame _ (List.mem_singleton.2 rfl)) h2, h3⟩,
      fun h => absurd (h _ (List.mem_singleton.2 rfl)) he⟩
  | next h1 htok hne hp he hl ih =>
    obtain ⟨ts, pre', rest', rfl, h2, h3⟩ := word h1 htok hne hr htk
    obtain ⟨later, e, h4, h5⟩ := ih (move (hsame _ (List.mem_cons_self ..)) h2) h3
      fun x hx => hsame x (List.mem_cons_of_mem _ hx)
    exact ⟨later, by rw [e]; rfl, h4, fun h => h5 fun x hx => h x (List.mem_cons_of_mem _ hx)⟩

/-- Non-vacuity: evaluating `x exit` stops after `x`, which is not defined; the position is then after `x`. -/
example : succeeds (evaluateInput demoCfg 4 30) (demo "x exit") = true ∧
    (after (evaluateInput demoCfg 4 30) (demo "x exit")).lastError = some .undefinedWord ∧
    (after (evaluateInput demoCfg 4 30) (demo "x exit")).task.st.sourceIndex = 1 := by decide +kernel

/-! ## C32 -/

/-- `: t abort true ; t`, on a machine where nothing else has been done. -/
def breaking : VM := demoWith (demoTable ++ [⟨"abort", .core .abort, false, false⟩,
  ⟨"true", .core .pTrue, false, false⟩]) ": t abort true ; t"

/-- C32 is false of the code: with the default handler, which does nothing, the inner interpreter goes on
with the definition after an exception. Here `abort` empties the stack and leaves its error pending, and
then `true` is executed all the same. -/
theorem C32_refuted : ∃ s t : VM, evaluateInput demoCfg 4 30 s = .ok ((), t) ∧
    s.task.inbuf = some ": t abort true ; t".toList ∧ s.lastError = none ∧
    t.lastError = some .abort ∧ t.task.s.items = [-1] := by
  have h : succeeds (evaluateInput demoCfg 4 30) breaking = true ∧
      breaking.task.inbuf = some ": t abort true ; t".toList ∧ breaking.lastError = none ∧
      (after (evaluateInput demoCfg 4 30) breaking).lastError = some .abort ∧
      (after (evaluateInput demoCfg 4 30) breaking).task.s.items = [-1] := by decide +kernel
  exact ⟨_, _, succeeds_spec h.1, h.2⟩

/-- The handler is a word that does `p`. -/
theorem abort_runs {cfg : Cfg} {depth : Nat} {s : VM} {w : Word} {e : Exn} {p : Prim}
    (hw : s.wl.words[s.handler]? = some w) (hp : w.action = p) :
    abortWith (ctx cfg (depth + 1)) e s = action (ctx cfg depth) p
      ((raised s e).setTask { (raised s e).task with st := { (raised s e).task.st with wp := s.handler } }) := by
  rw [abortWith_run]
  have hw' : (s.aborted e).wl.words[s.handler]? = some w := hw
  simp only [ctx, execWord, M.bind_apply, modSt_apply, getWl_apply]
  rw [show ((s.aborted e).setTask { (s.aborted e).task with st := { (s.aborted e).task.st with wp := s.handler } }).wl = (s.aborted e).wl from rfl, hw']
  simp only [hp]
  rfl

/-- What remains of C32, first part: when the handler leaves the program (`bye`), an exception raised as the
last act of a word ends the inner loop at once. -/
theorem C32_bye_partial {cfg : Cfg} {depth : Nat} {s : VM} {w : Word} {e : Exn}
    (hw : s.wl.words[s.handler]? = some w) (hb : w.action = .core .bye) (h0 : 0 < s.ds.start) :
    ∃ t, abortWith (ctx cfg (depth + 1)) e s = .ok ((), t) ∧ t.lastError = some e ∧ t.task.s.items = [] ∧
      ∀ d fuel, run cfg d (fuel + 1) t = .ok ((), t) := by
  have hr : (raised s e).task = { s.task with
        s := s.task.s.reset, f := s.task.f.reset, c := s.task.c.reset,
        st := { s.task.st with abortedWp := s.task.st.wp } } := VM.task_setTask s _
  rw [abort_runs hw hb]
  generalize hz : VM.setTask _ _ = z
  have h1 : z.task.s = s.task.s.reset := by rw [← hz, VM.task_setTask, hr]
  have h2 : z.ds = s.ds := by rw [← hz]; rfl
  have h3 : z.lastError = some e := by rw [← hz]; rfl
  have h4 : action (ctx cfg depth) (.core .bye) z =
      .ok ((), z.setTask { z.task with st := { z.task.st with ip := 0 } }) := rfl
  refine ⟨_, h4, h3, by rw [VM.task_setTask, h1]; rfl, fun d fuel => ?_⟩
  generalize ht : z.setTask _ = t
  have h5 : t.task.st.ip = 0 := by rw [← ht, VM.task_setTask]
  have h6 : t.ds = s.ds := by rw [← ht]; exact h2
  have h7 : step cfg d t = .ok (false, t) := by
    rw [step, M.bind_apply, getSt_apply]
    dsimp only
    rw [h5, M.bind_ok (dsRd_ok (a := false) (by
      rw [h6, ipOk, rangeOk, if_neg (by omega)]))]
    rfl
  rw [run, M.bind_ok h7]
  rfl

/-- What remains of C32, second part: when the handler is a definition, its body is what runs next; the rest
of the interrupted definition is resumed only if the handler returns, for its address is on the return
stack, above what was there. -/
theorem C32_handler_partial {cfg : Cfg} {depth : Nat} {s : VM} {w : Word} {e : Exn}
    (hw : s.wl.words[s.handler]? = some w) (hb : w.action = .core .nest) :
    ∃ t, abortWith (ctx cfg (depth + 1)) e s = .ok ((), t) ∧ t.lastError = some e ∧ t.task.s.items = [] ∧
      t.task.st.ip = w.dfa ∧ t.task.r = s.task.r.push (toCell s.task.st.ip) := by
  rw [abort_runs hw hb]
  have hr : (raised s e).task = { s.task with
        s := s.task.s.reset, f := s.task.f.reset, c := s.task.c.reset,
        st := { s.task.st with abortedWp := s.task.st.wp } } := VM.task_setTask s _
  generalize hz : VM.setTask _ _ = z
  have h1 : z.task = { s.task with
        s := s.task.s.reset, f := s.task.f.reset, c := s.task.c.reset,
        st := { s.task.st with abortedWp := s.task.st.wp, wp := s.handler } } := by
    rw [← hz, VM.task_setTask, hr]
  have h2 : z.wl.words[s.handler]? = some w := by rw [← hz]; exact hw
  have h3 : z.lastError = some e := by rw [← hz]; rfl
  have h4 : wordAt s.handler (z.setTask { z.task with r := z.task.r.push (toCell s.task.st.ip) }) =
      .ok (w, z.setTask { z.task with r := z.task.r.push (toCell s.task.st.ip) }) := wordAt_ok h2
  have e1 : action (ctx cfg depth) (.core .nest) z = nest z := rfl
  rw [e1, nest, M.bind_apply, getSt_apply]
  dsimp only
  rw [M.bind_ok (a := ()) (s' := z.setTask { z.task with r := z.task.r.push (toCell s.task.st.ip) })
    (by rw [show z.task.st.ip = s.task.st.ip by rw [h1]]; rfl)]
  rw [show z.task.st.wp = s.handler by rw [h1], M.bind_ok h4]
  refine ⟨_, rfl, h3, ?_, ?_, ?_⟩
  all_goals rw [VM.task_setTask, VM.task_setTask, h1]
  rfl

/-- A machine whose handler is `bye`. -/
example : let s := { demoWith (demoTable ++ [⟨"bye", .core .bye, false, false⟩]) "" with handler := 6 }
    s.wl.words[s.handler]?.map (·.action) = some (.core .bye) ∧ 0 < s.ds.start := by decide +kernel

/-! ## C33 -/

section tokens
variable {c : Ctx} {s : VM} {tok : List Char} {i : Nat} {w : Word}
  (d : Dict s) (hi : InSpace s) (ht : s.tkn = some tok) (hn : Newest s (utf8 tok) (some i))
  (hw : s.wl.words[i]? = some w)
include d hi ht hn hw

theorem token_found (k : Nat → Word → M Unit) : (takeToken >>= fun tok => find c (utf8 tok) >>= fun f =>
    match f with
    | some i => putToken tok >>= fun _ => wordAt i >>= fun w => k i w
    | none => evaluateNumber c tok) s = k i w s := by
  obtain ⟨r, h1, h2⟩ := d.find hi c (utf8 tok)
  cases Newest.unique h2 hn
  have h3 : find c (utf8 tok) (s.setTkn none) = .ok (some i, s.setTkn none) := find_congr (s := s) rfl rfl h1
  have h4 : (s.setTkn none).setTkn (some tok) = s := by rw [VM.setTkn_setTkn, ← ht]; rfl
  rw [M.bind_ok (a := tok) (s' := s.setTkn none) (by rw [takeToken, ht]; rfl), M.bind_ok h3]
  dsimp only
  rw [M.bind_ok (a := ()) (s' := s) (by rw [putToken, modVM_apply]; exact congrArg (fun x => Except.ok ((), x)) h4),
    M.bind_ok (wordAt_ok hw)]

/-- C33. Outside compilation, a token that names a compile-only word is refused: the word is not executed,
the error is raised on the machine as it was. -/
theorem C33_compileOnly (hm : s.task.st.isCompiling = false) (ho : w.isCompileOnly = true) :
    evalToken c s = c.ex s.handler (raised s .interpretingCompileOnly) := by
  have h : evalToken c s = interpretToken c s := by
    rw [evalToken, M.bind_apply, getSt_apply]; dsimp only; rw [hm]; rfl
  rw [h]
  refine (token_found d hi ht hn hw _).trans ?_
  rw [if_pos ho]
  exact abortWith_run c _ s

/-- C33. Outside compilation, a token that names any other word executes it. -/
theorem C33_interpret (hm : s.task.st.isCompiling = false) (ho : w.isCompileOnly = false) :
    evalToken c s = c.ex i s := by
  have h : evalToken c s = interpretToken c s := by
    rw [evalToken, M.bind_apply, getSt_apply]; dsimp only; rw [hm]; rfl
  rw [h]
  refine (token_found d hi ht hn hw _).trans ?_
  rw [if_neg (by rw [ho]; decide)]

/-- C33. While compiling, a token that names an immediate word executes it. -/
theorem C33_immediate (hm : s.task.st.isCompiling = true) (ho : w.isImmediate = true) :
    evalToken c s = c.ex i s := by
  have h : evalToken c s = compileToken c s := by
    rw [evalToken, M.bind_apply, getSt_apply]; dsimp only; rw [hm]; rfl
  rw [h]
  refine (token_found d hi ht hn hw _).trans ?_
  rw [if_pos ho]

/-- C33. While compiling, a token that names a word which is not immediate executes nothing: the outcome
does not depend on what executing words does (other than the handler, for `leave` outside a loop). What
happens is that code is appended, or, for `leave`, an error raised. -/
theorem C33_compile (hm : s.task.st.isCompiling = true) (ho : w.isImmediate = false) :
    (∀ c' : Ctx, c'.cfg = c.cfg → w.compSem = .word ∨ c'.ex s.handler = c.ex s.handler →
      evalToken c' s = evalToken c s) ∧
    (∀ t u, w.compSem = .word → evalToken c s = .ok (u, t) → Changes [.memAppend] s t) := by
  have h : ∀ c : Ctx, evalToken c s = compSemRun c w.compSem i s := by
    intro c
    have h : evalToken c s = compileToken c s := by
      rw [evalToken, M.bind_apply, getSt_apply]; dsimp only; rw [hm]; rfl
    rw [h]
    refine (token_found d hi ht hn hw _).trans ?_
    rw [if_neg (by rw [ho]; decide)]
  refine ⟨fun c' hc he => ?_, fun t u hs e => ?_⟩
  · have hword : compileWord c' i s = compileWord c i s := by simp only [compileWord, Ctx.oc, hc]
    rw [h c', h c]
    cases hs : w.compSem with
    | word => exact hword
    | leave =>
      have he := he.resolve_left (by rw [hs]; decide)
      simp only [compSemRun, compileLeave]
      rw [M.bind_apply, M.bind_apply]
      cases hl : leavePart s with
      | error x => rfl
      | ok r =>
        obtain ⟨o, s1⟩ := r
        have : s1 = s := by
          cases hl
          rfl
        subst this
        cases o with
        | some x => exact hword
        | none =>
          dsimp only
          rw [abortWith_run, abortWith_run]
          exact congrFun he _
  · rw [h c, hs] at e
    exact Does.compileWord (A := Inv.any [.memAppend]) (by decide) c i s u t ⟨hi, trivial⟩ e

end tokens

/-- Non-vacuity: `;` is compile-only and immediate, `exit` is neither. -/
example : let s := { demo "" with tkn := some ";".toList }
    s.wl.words[3]?.map (fun w => (w.isCompileOnly, w.isImmediate)) = some (true, true) ∧
    s.wl.words[1]?.map (fun w => (w.isCompileOnly, w.isImmediate, w.compSem)) = some (false, false, .word) ∧
    ((find (ctx demoCfg 2) (ascii ";") s).toOption.map (·.1)) = some (some 3) := by decide +kernel

end Verif
