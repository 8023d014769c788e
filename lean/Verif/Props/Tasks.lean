import Verif.Spec.Tasks
import Verif.Lemmas.MemoryWords
import Verif.Lemmas.Demo
import Verif.Lemmas.Monad

/-!
# C34, C35: cooperative multitasking
-/

namespace Verif
open Spec

theorem add_one_val (i : Fin 5) : (i + 1).val = (i.val + 1) % 5 := by revert i; decide

/-- What the loop of `pause` finds. -/
theorem nextAwake_spec (awake : Fin 5 → Bool) : ∀ (n : Nat) (i : Fin 5),
    match nextAwake awake n i with
    | some j => ∃ d : Nat, 1 ≤ d ∧ d ≤ n ∧ j.val = (i.val + d) % 5 ∧ awake j = true ∧
        ∀ (k : Nat) (m : Fin 5), 1 ≤ k → k < d → m.val = (i.val + k) % 5 → awake m = false
    | none => ∀ (k : Nat) (m : Fin 5), 1 ≤ k → k ≤ n → m.val = (i.val + k) % 5 → awake m = false := by
  intro n
  induction n with
  | zero => intro i; simp only [nextAwake]; intro k m h1 h2; omega
  | succ n ih =>
    intro i
    have hv := add_one_val i
    simp only [nextAwake]
    by_cases ha : awake (i + 1) = true
    · rw [if_pos ha]
      exact ⟨1, Nat.le_refl _, by omega, hv, ha, fun k m h1 h2 => by omega⟩
    · rw [if_neg ha]
      have ha' : awake (i + 1) = false := by simpa using ha
      have hm : ∀ (m : Fin 5), m.val = (i.val + 1) % 5 → awake m = false := by
        intro m hm
        have : m = i + 1 := Fin.ext (hm.trans hv.symm)
        rw [this]; exact ha'
      have := ih (i + 1)
      cases hn : nextAwake awake n (i + 1) with
      | some j =>
        rw [hn] at this
        obtain ⟨d, h1, h2, h3, h4, h5⟩ := this
        refine ⟨d + 1, by omega, by omega, by omega, h4, fun k m k1 k2 k3 => ?_⟩
        by_cases hk : k = 1
        · subst hk; exact hm m k3
        · exact h5 (k - 1) m (by omega) (by omega) (by omega)
      | none =>
        rw [hn] at this
        intro k m k1 k2 k3
        by_cases hk : k = 1
        · subst hk; exact hm m k3
        · exact this (k - 1) m (by omega) (by omega) (by omega)

/-- There is at most one next awake task. -/
theorem Spec.NextAwake.unique {s : VM} {i j j' : Fin 5} (h : NextAwake s i j) (h' : NextAwake s i j') :
    j = j' := by
  obtain ⟨d, h1, h2, h3, h4, h5⟩ := h
  obtain ⟨d', k1, k2, k3, k4, k5⟩ := h'
  rcases Nat.lt_trichotomy d d' with hd | rfl | hd
  · rw [k5 d j h1 hd h3] at h4; cases h4
  · exact Fin.ext (h3.trans k3.symm)
  · rw [h5 d' j' k1 hd k3] at k4; cases k4

/-! ## C34 -/

/-- C34. `pause` gives control to the next awake task in cyclic order, and changes nothing else. -/
theorem C34_pause (c : Ctx) {s t : VM} : action c (.core .pause) s = .ok ((), t) ↔
    ∃ j, NextAwake s s.cur j ∧ t = { s with cur := j } := by
  have e : action c (.core .pause) s = pause s := rfl
  have hs := nextAwake_spec (fun i => (s.tasks i).awake) 5 s.cur
  rw [e, pause, M.bind_apply, getVM_apply]
  dsimp only
  cases hn : nextAwake (fun i => (s.tasks i).awake) 5 s.cur with
  | some j =>
    rw [hn] at hs
    have hj : NextAwake s s.cur j := hs
    constructor
    · intro h; cases h; exact ⟨j, hj, rfl⟩
    · rintro ⟨j', h1, rfl⟩
      cases NextAwake.unique hj h1
      rfl
  | none =>
    rw [hn] at hs
    constructor
    · intro h; cases h
    · rintro ⟨j, ⟨d, h1, h2, h3, h4, -⟩, -⟩
      have := hs d j h1 h2 h3
      rw [h4] at this; cases this

/-- C34. A sleeping task never gets control. -/
theorem C34_asleep (c : Ctx) {s t : VM} (h : action c (.core .pause) s = .ok ((), t)) :
    (s.tasks t.cur).awake = true := by
  obtain ⟨j, ⟨d, -, -, -, h4, -⟩, rfl⟩ := (C34_pause c).1 h
  exact h4

/-- C34. A task that stays awake gets control after at most four other pauses, whatever the others do in
between, from any moment on. -/
theorem C34_fair {c : Ctx} {j : Fin 5} {trace : Nat → VM} (h : Schedule c j trace) (start : Nat) :
    ∃ k, 1 ≤ k ∧ k ≤ 5 ∧ (trace (start + k)).cur = j := by
  have key : ∀ (n : Nat) (s : Nat), (∃ d : Nat, 1 ≤ d ∧ d ≤ n ∧ d ≤ 5 ∧ j.val = ((trace s).cur.val + d) % 5) →
      ∃ k, 1 ≤ k ∧ k ≤ n ∧ (trace (s + k)).cur = j := by
    intro n
    induction n with
    | zero => rintro s ⟨d, h1, h2, -⟩; omega
    | succ n ih =>
      rintro s ⟨d, h1, h2, h3, h4⟩
      obtain ⟨w, w1, w2, w3⟩ := h.turn s
      obtain ⟨i, ⟨e, e1, e2, e3, e4, e5⟩, hv⟩ := (C34_pause c).1 w3
      have hc : (trace (s + 1)).cur = i := by rw [hv]
      rw [w1] at e3 e5
      rcases Nat.lt_trichotomy e d with hd | rfl | hd
      · obtain ⟨k, k1, k2, k3⟩ := ih (s + 1) ⟨d - e, by omega, by omega, by omega, by rw [hc, e3]; omega⟩
        exact ⟨k + 1, by omega, by omega, by rw [← k3]; congr 2; omega⟩
      · exact ⟨1, Nat.le_refl _, by omega, by rw [hc]; exact Fin.ext (e3.trans h4.symm)⟩
      · rw [e5 d j h1 hd h4] at w2; cases w2
  refine key 5 start ?_
  have h1 := j.isLt
  have h2 := (trace start).cur.isLt
  by_cases hlt : (trace start).cur.val < j.val
  · exact ⟨j.val - (trace start).cur.val, by omega, by omega, by omega, by omega⟩
  · exact ⟨j.val + 5 - (trace start).cur.val, by omega, by omega, by omega, by omega⟩

/-- Non-vacuity: with tasks 0, 2 and 3 awake and 2 in control, the next is 3; and a schedule that keeps task 0
awake. -/
example : let s := { VM.blank 1024 8192 with
      cur := 2, tasks := fun i => { Task.newBackground with awake := i == 0 || i == 2 || i == 3 } }
    NextAwake s 2 3 := ⟨1, by decide, by decide, rfl, rfl, fun k m h1 h2 => by omega⟩

/-- A machine on which the first task alone is awake, with `l` on its stack. -/
def oneAwake (st : Stack Cell) : VM :=
  { VM.blank 1024 8192 with
    cur := 0, tasks := fun i => { Task.newBackground with awake := i == 0, s := st } }

example : ∃ trace : Nat → VM, Schedule ⟨demoCfg, fun _ => fault .panic⟩ 0 trace := by
  generalize hs : oneAwake (Stack.new cellCanary) = s
  have h0 : s.cur = 0 := by rw [← hs]; rfl
  have h1 : (s.tasks 0).awake = true := by rw [← hs]; rfl
  have h2 : ∀ m : Fin 5, m ≠ 0 → (s.tasks m).awake = false := by
    intro m hm; rw [← hs]; revert m; decide
  refine ⟨fun _ => s, ⟨fun _ => ⟨s, rfl, h1, ?_⟩⟩⟩
  rw [C34_pause]
  refine ⟨0, ⟨5, by decide, by decide, by rw [h0]; decide, h1, ?_⟩, by rw [← h0]⟩
  intro k m k1 k2 k3
  refine h2 m fun h => ?_
  subst h
  rw [h0] at k3
  change 0 = (0 + k) % 5 at k3
  omega

/-! ## C35 -/

/-- C35. If any task is awake, `pause` returns. -/
theorem C35_partial (c : Ctx) {s : VM} {j : Fin 5} (hj : (s.tasks j).awake = true) :
    ∃ t, action c (.core .pause) s = .ok ((), t) := by
  have e : action c (.core .pause) s = pause s := rfl
  have hs := nextAwake_spec (fun i => (s.tasks i).awake) 5 s.cur
  rw [e, pause, M.bind_apply, getVM_apply]
  dsimp only
  cases hn : nextAwake (fun i => (s.tasks i).awake) 5 s.cur with
  | some j => exact ⟨_, rfl⟩
  | none =>
    rw [hn] at hs
    have h1 := j.isLt
    have h2 := s.cur.isLt
    have : (s.tasks j).awake = false := by
      by_cases hlt : s.cur.val < j.val
      · exact hs (j.val - s.cur.val) j (by omega) (by omega) (by omega)
      · exact hs (j.val + 5 - s.cur.val) j (by omega) (by omega) (by omega)
    rw [hj] at this; cases this

/-- C35 is false without that: `1 suspend pause` on a machine where only the first task is awake never
returns. -/
theorem C35_refuted (c : Ctx) : ∃ s0 s : VM, (s0.tasks 0).awake = true ∧ s0.cur = 0 ∧ s0.task.s.items = [1] ∧
    action c (.core .suspend) s0 = .ok ((), s) ∧ action c (.core .pause) s = .error .hang := by
  refine ⟨oneAwake ((Stack.new cellCanary).push 1),
    (withData (oneAwake ((Stack.new cellCanary).push 1)) ((Stack.new cellCanary).push 1).pop.2).setTaskAt 0
      { (withData (oneAwake ((Stack.new cellCanary).push 1)) ((Stack.new cellCanary).push 1).pop.2).tasks 0 with
        awake := false }, rfl, rfl, by decide, ?_, rfl⟩
  obtain ⟨cfg, ex⟩ := c
  have : isub cfg.overflowChecks (((Stack.new cellCanary).push 1).pop.1) 1 = .ok 0 := by
    cases cfg.overflowChecks <;> rfl
  show setAwakeWord _ _ _ = _
  unfold setAwakeWord popTaskId
  generalize hs : oneAwake ((Stack.new cellCanary).push 1) = s
  have h1 : s.task.s = (Stack.new cellCanary).push 1 := by rw [← hs]; rfl
  simp only [M.bind_apply, sPop_apply, h1, Ctx.oc, this, liftE_ok]
  rfl

end Verif
