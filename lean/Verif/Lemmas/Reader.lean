import Verif.Spec.Reader
import Verif.Lemmas.LibraryCalls
import Verif.Lemmas.Quoting
import Verif.Lemmas.Depth
import Verif.Lemmas.Run
import Verif.Lemmas.Sources

/-!
# Running the interpreter of core.fth
-/

namespace Verif
open Spec Stack

theorem Spec.Like.next {s t : VM} (h : Like s t) {pre bs tok more : List Char} (hn : Next t pre bs tok more) :
    Next s pre bs tok more := by
  obtain ⟨ip, wp, ds, rs, fs, -, -, -, e⟩ := h
  refine ⟨⟨?_, ?_, hn.reading.bounded⟩, hn.blank, hn.solid, hn.ends, hn.last, ?_⟩
  · rw [e, VM.task_setTask]; exact hn.reading.buffer
  · rw [e, VM.task_setTask]; exact hn.reading.position
  · rw [e]; exact hn.old

theorem took_setTask (s : VM) (pre bs tok : List Char) (x : Task) :
    (took s pre bs tok).setTask x = { s.setTask x with tkn := some tok } := by
  show { (s.setTask _).setTask x with tkn := some tok } = _
  rw [VM.setTask_setTask]

theorem Spec.Like.took {s t : VM} (h : Like s t) (pre bs tok : List Char) : Like (took s pre bs tok) (took t pre bs tok) := by
  obtain ⟨ip, wp, ds, rs, fs, h1, h2, h3, rfl⟩ := h
  refine ⟨ip, wp, ds, rs, fs, ?_, ?_, ?_, ?_⟩
  · rw [took_task]; exact h1
  · rw [took_task]; exact h2
  · rw [took_task]; exact h3
  · rw [took_task, took_setTask, Spec.took, VM.task_setTask, VM.setTask_setTask]
    rfl

theorem took_pc (s : VM) (pre bs tok : List Char) : pc (took s pre bs tok) = pc s := by
  simp only [pc, took_task]; rfl

theorem setRet_took (s : VM) (r : List Cell) (pre bs tok : List Char) :
    took (setRet s r) pre bs tok = setRet (took s pre bs tok) r := by
  rw [setRet, setRet, took_task, took_setTask, took, VM.task_setTask, VM.setTask_setTask]
  rfl

theorem Spec.Next.setRet {s : VM} {pre bs tok more : List Char} (h : Next s pre bs tok more) (r : List Cell) :
    Next (setRet s r) pre bs tok more := by
  refine ⟨⟨?_, ?_, h.reading.bounded⟩, h.blank, h.solid, h.ends, h.last, h.old⟩
  · rw [Spec.setRet, VM.task_setTask]; exact h.reading.buffer
  · rw [Spec.setRet, VM.task_setTask]; exact h.reading.position

theorem Spec.Steps.deeper {cfg : Cfg} {m n : Nat} (hmn : m ≤ n) {s t : VM} (h : Steps cfg m s t) : Steps cfg n s t := by
  induction h with
  | refl => exact .refl _
  | tail _ e ih => exact .tail ih ((step_le hmn).ok e)

theorem shape_setRet (s : VM) (r : List Cell) : shape s (data s) r s.ds = setRet s r := by
  rw [shape, setData_self]; rfl

section
variable {R : Refs} {wl : Wordlist} {lv lo hi n i : Nat} {k : Fin 5} {d : DataSpace} {s t : VM} {cfg : Cfg}
  {l r : List Cell} {m : DataSpace} {ix : String → Nat}

local notation "Call" => Calling cfg n R lv wl lo hi k d
local notation "Go" => Going cfg n R lv wl lo hi k d
local notation "Do" => Doing cfg n R lv wl lo hi k d

theorem doing_parseWord (hb : Builtin wl i "parse-word") {pre bs tok more : List Char} (hn : Next s pre bs tok more) :
    Do i s (took s pre bs tok) := by
  obtain ⟨w, hw, hp⟩ := hb
  have hp' := prim_inj hp (p := .core .parseWord) rfl
  intro hL
  refine ⟨fun s1 hli => ?_, hL.congr rfl rfl rfl⟩
  obtain ⟨v, e1, e2, -⟩ := (hL.like hli).kept i w hw
  refine ⟨took (s1.at (pc s1) i) pre bs tok, ?_, (hli.at _ _).took _ _ _, by rw [took_pc]; simp [pc]⟩
  rw [exec_word e1, e2, hp']
  exact ((hli.at _ _).next hn).parse

theorem doing_tokenEmpty (hb : Builtin wl i "token-empty?") {tok : List Char} (ht : s.tkn = some tok)
    (hl : l.length < capacity) (hr : r.length ≤ capacity) : Do i (shape s l r m) (shape s (truth (tok = []) :: l) r m) := by
  obtain ⟨w, hw, hp⟩ := hb
  have hp' := prim_inj hp (p := .core .tokenEmpty) rfl
  simp only [capacity] at hl
  refine doing_data hw (by simp [capacity]; omega) hr (by simp [capacity]; omega)
    (fun u v k1 k2 k3 k4 k5 k6 _ k8 => ?_)
  refine ⟨u.task.s.push (truth (tok = [])), ?_, by rw [push_holding _ _ (by rw [k1]; omega), k1]; exact .refl _⟩
  have hu : u.tkn = some tok := by obtain ⟨_, _, _, _, _, _, _, _, rfl⟩ := k8; exact ht
  rw [hp']
  simp only [action, coreAction, tokenEmpty, M.bind_apply, getVM_apply, hu]
  cases tok <;> simp [truth, flag] <;> rfl

theorem doing_compiling (hb : Builtin wl i "compiling?") (hl : l.length < capacity) (hr : r.length ≤ capacity) :
    Do i (shape s l r m) (shape s (truth (s.task.st.isCompiling = true) :: l) r m) := by
  obtain ⟨w, hw, hp⟩ := hb
  have hp' := prim_inj hp (p := .core .compiling) rfl
  simp only [capacity] at hl
  refine doing_data hw (by simp [capacity]; omega) hr (by simp [capacity]; omega)
    (fun u v k1 k2 k3 k4 k5 k6 _ k8 => ?_)
  refine ⟨u.task.s.push (truth (s.task.st.isCompiling = true)), ?_, by rw [push_holding _ _ (by rw [k1]; omega), k1]; exact .refl _⟩
  have hu : u.task.st.isCompiling = s.task.st.isCompiling := by
    obtain ⟨_, _, _, _, _, _, _, _, e⟩ := k8.task
    rw [e, shape_task]
  rw [hp']
  simp only [action, coreAction, compiling, M.bind_apply, getSt_apply, hu]
  cases s.task.st.isCompiling <;> simp [truth, flag] <;> rfl

theorem doing_checkStacks (hb : Builtin wl i "?stacks") (h1 : Calm s.task.s) (h2 : Calm s.task.r) (h3 : Calm s.task.c)
    (h4 : Calm s.task.f) : Do i s s := by
  obtain ⟨w, hw, hp⟩ := hb
  have hp' := prim_inj hp (p := .core .checkStacks) rfl
  intro hL
  refine ⟨fun s1 hli => ?_, hL⟩
  obtain ⟨v, e1, e2, -⟩ := (hL.like hli).kept i w hw
  have hl' := hli.at (pc s1) i
  refine ⟨s1.at (pc s1) i, ?_, hl', by simp [pc]⟩
  rw [exec_word e1, e2, hp']
  refine calm_check (hl'.s.calm h1) (hl'.r.calm h2) ?_ (hl'.f.calm h4)
  obtain ⟨_, _, _, _, _, -, -, -, e⟩ := hl'.task
  show Calm (s1.at (pc s1) i).task.c
  rw [e]; exact h3

/-- Calling the word that evaluates tokens in the present state. -/
theorem calling_token {b : VM} (hT : TokenActs cfg n s b) (hb : Builtin wl i (if s.task.st.isCompiling then "compile-token" else "interpret-token"))
    (hL' : Loaded R lv wl lo hi k d b) : Call i s b := by
  obtain ⟨w, hw, hp⟩ := hb
  intro hL
  refine ⟨fun s1 hli hpc => ?_, hL'⟩
  obtain ⟨v, e1, e2, -⟩ := (hL.like hli).kept i w hw
  have hl' := hli.at (pc s1) i
  obtain ⟨s2, t1, f1, f2, f3, f4, f5⟩ := hT _ hl' (by simpa [pc] using hpc)
  have hc : (s1.at (pc s1) i).task.st.isCompiling = s.task.st.isCompiling := by
    obtain ⟨_, _, _, _, _, -, -, -, e⟩ := hl'.task
    rw [e]
  refine ⟨s2, t1, ?_, f2, f3.deeper (by omega), f4, by rw [f5]; simp [pc]⟩
  rw [exec_word e1, e2]
  simp only [evalToken, M.bind_apply, getSt_apply, hc] at f1
  cases hm : s.task.st.isCompiling
  · rw [hm] at hp f1
    have hp' := prim_inj hp (p := .core .interpretToken) rfl
    rw [hp']; exact f1
  · rw [hm] at hp f1
    have hp' := prim_inj hp (p := .core .compileToken) rfl
    rw [hp']; exact f1

theorem data_took (s : VM) (pre bs tok : List Char) : data (took s pre bs tok) = data s := by
  rw [data, took_task]; rfl

theorem not_truth_zero {p : Prop} [Decidable p] : truth ((truth p).toInt = 0) = truth ¬p := by
  refine truth_congr ?_
  by_cases h : p <;> simp [truth, h] <;> decide

/-- The test of the loop. -/
theorem going_test (g : Region d lo hi) (hu : ∀ name, name ∈ readerUses → Builtin wl (ix name) name) {pre bs tok more : List Char}
    (hn : Next s pre bs tok more) (hd : (data s).length < capacity) (hr : r.length ≤ capacity) :
    Go (code ix ["parse-word", "token-empty?", "not"]) (setRet s r)
      (shape (took s pre bs tok) (truth (¬tok = []) :: data s) r s.ds) := by
  steps
  refine .seq (.doing g (doing_parseWord (hu _ (by simp [readerUses])) (hn.setRet r))) ?_
  rw [setRet_took, ← shape_setRet, data_took]
  refine .seq (.doing g (doing_tokenEmpty (tok := tok) (hu _ (by simp [readerUses])) rfl hd hr)) ?_
  refine .seq (.doing g (doing_effect 28 rfl (hu _ (by simp [readerUses])) rfl (by len) (by len) hr)) ?_
  dsimp only
  rw [not_truth_zero]
  exact .skip

theorem going_reader (g : Region d lo hi) (hu : ∀ name, name ∈ readerUses → Builtin wl (ix name) name) {room : Nat}
    {toks : List (List Char)} (h : Works cfg n room (Loaded R lv wl lo hi k d) toks s t) (hd : (data s).length < capacity)
    (hr : r.length + room ≤ capacity) :
    Go (.whileLoop (code ix ["parse-word", "token-empty?", "not"])
      (code ix ["compiling?", Stmt.ifElse (code ix ["compile-token", "?stacks"]) (code ix ["interpret-token", "?stacks"])]))
      (setRet s r) (setRet t r) := by
  induction h with
  | @done s pre bs more hn =>
    have := going_test (cfg := cfg) (n := n) (R := R) (lv := lv) (k := k) g hu hn hd (r := r) (by omega)
    rw [show truth (¬([] : List Char) = []) = 0 from truth_zero (by simp)] at this
    have e := Going.whileEnd g hd (by omega) (q := (code ix ["compiling?", Stmt.ifElse (code ix ["compile-token", "?stacks"]) (code ix ["interpret-token", "?stacks"])])) this
    rw [← data_took s pre bs []] at e
    rw [← shape_setRet (took s pre bs [])]
    exact e
  | @token s b t pre bs tok more toks hn hne he hL hw ih =>
    have h1 := going_test (cfg := cfg) (n := n) (R := R) (lv := lv) (k := k) g hu hn hd (r := r) (by omega)
    refine Going.whileNext g hd (by omega) (truth_ne (by simpa using hne)) h1 ?_ (ih he.room)
    generalize hd' : data s = l at *
    rw [← data_took s pre bs tok] at hd'
    have hds : s.ds = (took s pre bs tok).ds := rfl
    rw [hds]
    have hacts := he.acts r hr
    obtain ⟨c1, c2, c3, c4⟩ := he.calm
    generalize took s pre bs tok = a at *
    have hcheck : ∀ i, Builtin wl i "?stacks" → Do i (setRet b r) (setRet b r) := fun i hi =>
      doing_checkStacks hi (by simpa [setRet] using c1) (by simpa [setRet] using c2.holding (by omega)) (by simpa [setRet] using c3) (by simpa [setRet] using c4)
    have hLb : Loaded R lv wl lo hi k d (setRet b r) := hL.congr rfl rfl rfl
    have hcomp : (setRet a r).task.st.isCompiling = a.task.st.isCompiling := by simp [setRet]
    subst hd'
    steps
    refine .seq (.doing g (doing_compiling (hu _ (by simp [readerUses])) hd (by omega))) ?_
    refine .seq ?_ .skip
    cases hm : a.task.st.isCompiling
    · rw [show truth (false = true) = 0 from truth_zero (by simp)]
      refine .elseFalse g hd (by omega) ?_
      rw [shape_setRet]
      refine .seq (.word g (calling_token hacts (i := ix "interpret-token") ?_ hLb)) ?_
      · rw [hcomp, hm]; exact hu _ (by simp [readerUses])
      · exact .seq (.doing g (hcheck _ (hu _ (by simp [readerUses])))) .skip
    · refine .elseTrue g hd (by omega) (truth_ne (by simp)) ?_
      rw [shape_setRet]
      refine .seq (.word g (calling_token hacts (i := ix "compile-token") ?_ hLb)) ?_
      · rw [hcomp, hm]; exact hu _ (by simp [readerUses])
      · exact .seq (.doing g (hcheck _ (hu _ (by simp [readerUses])))) .skip

theorem call_reader (g : Region d lo hi) (hu : ∀ name, name ∈ readerUses → Builtin wl (ix name) name)
    (B : Coded R lv wl lo hi d ix (readerCode ix)) {room : Nat} {toks : List (List Char)}
    (h : Works cfg n room (Loaded R lv wl lo hi k d) toks s t) (hd : (data s).length < capacity)
    (hd' : (data t).length ≤ capacity) (hr : r.length + 1 + room ≤ capacity) :
    Call (ix "evaluate-input") (setRet s r) (setRet t r) := by
  rw [← shape_setRet, ← shape_setRet]
  refine B.call g 0 rfl (by omega) (by omega) hd' fun z q => ?_
  rw [shape_setRet, shape_setRet]
  have := going_reader (r := z :: r) g hu h hd (by len)
  simp only [code, Stmt.all, List.map, Part.code] at this
  steps
  exact .seq this .skip

theorem Spec.Works.room {room : Nat} {L : VM → Prop} {toks : List (List Char)} (h : Works cfg n room L toks s t)
    (hd : (data s).length < capacity) : (data t).length < capacity := by
  induction h with
  | done => rw [data_took]; exact hd
  | token _ _ he _ _ ih => exact ih he.room

/-- The interpreter written in Rust. -/
theorem works_rust {room : Nat} {toks : List (List Char)}
    (h : Works cfg n room (Loaded R lv wl lo hi k d) toks s t) (hL : Loaded R lv wl lo hi k d s) (he : s.lastError = none)
    (hr : r.length + room ≤ capacity) : ∀ s1, Like s1 (setRet s r) → Idle s1 →
    ∃ N t1, (∀ fuel, evaluateInput cfg n (fuel + N) s1 = .ok ((), t1)) ∧ Like t1 (setRet t r) ∧ pc t1 = pc s1 := by
  induction h with
  | @done s pre bs more hn =>
    intro s1 hl hI
    have hn1 := hl.next (hn.setRet r)
    refine ⟨1, took s1 pre bs [], fun fuel => ?_, by rw [← setRet_took]; exact hl.took _ _ _, took_pc _ _ _ _⟩
    rw [evaluateInput, M.bind_ok hn1.parse]
    rfl
  | @token s b t pre bs tok more toks hn hne hE hLb hw ih =>
    intro s1 hl hI
    have hn1 := hl.next (hn.setRet r)
    have hl1 : Like (took s1 pre bs tok) (setRet (took s pre bs tok) r) := by rw [← setRet_took]; exact hl.took _ _ _
    obtain ⟨s2, t1, f1, f2, f3, f4, f5⟩ := hE.acts r hr _ hl1 (by rw [took_pc]; have := hI.2; omega)
    rw [took_pc] at f5
    have e1 : s1.lastError = none := by
      obtain ⟨_, _, _, _, _, -, -, -, rfl⟩ := hl; exact he
    have e2 : t1.lastError = none := by
      obtain ⟨_, _, _, _, _, -, -, -, rfl⟩ := f4; exact hE.error.trans he
    have hI1 : Idle t1 := by
      have d1 : s1.ds = s.ds := hl.ds
      have d2 : t1.ds = b.ds := f4.ds
      simp only [Idle, f5, d2, DataSpace.limit, hLb.start, hLb.cap]
      simp only [Idle, d1, DataSpace.limit, hL.start, hL.cap] at hI
      exact hI
    obtain ⟨N, hrun⟩ := steps_run f3
    obtain ⟨K, t2, g1, g2, g3⟩ := ih hLb (hE.error.trans he) t1 f4 hI1
    refine ⟨(N + 1 + K) + 1, t2, fun fuel => ?_, g2, g3.trans f5⟩
    rw [← Nat.add_assoc, evaluateInput, M.bind_ok hn1.parse, M.bind_apply, getVM_apply]
    dsimp only
    rw [if_neg (by simp [took, hne]), M.bind_ok f1, M.bind_apply, getError_apply]
    dsimp only
    rw [f2, show (took s1 pre bs tok).lastError = none from e1]
    have hr1 : run cfg n (fuel + (N + 1 + K)) s2 = .ok ((), t1) := by
      rw [show fuel + (N + 1 + K) = (fuel + K) + 1 + N by omega, hrun, idle_run hI1]
    have hck : checkStacks (ctx cfg n) t1 = .ok ((), t1) := by
      obtain ⟨c1, c2, c3, c4⟩ := hE.calm
      refine calm_check (f4.s.calm (by simpa [setRet] using c1)) (f4.r.calm (by simpa [setRet] using c2.holding (by omega))) ?_
        (f4.f.calm (by simpa [setRet] using c4))
      obtain ⟨_, _, _, _, _, -, -, -, e⟩ := f4.task
      rw [e]; simpa [setRet] using c3
    simp only [Option.isSome_none, Bool.false_eq_true, if_false]
    rw [M.bind_ok hr1, M.bind_ok hck, M.bind_apply, getError_apply, e2]
    simp only [Option.isSome_none, Bool.false_eq_true, if_false]
    rw [show fuel + (N + 1 + K) = (fuel + (N + 1)) + K by omega]
    exact g1 _

end

end Verif
