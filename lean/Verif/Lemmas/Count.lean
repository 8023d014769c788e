import Verif.Spec.Count
import Verif.Lemmas.Loop
import Verif.Lemmas.Simulate
import Verif.Lemmas.Alike

/-!
# How often a counted loop runs its body
-/

namespace Verif
open Spec

theorem turns_eq (lim idx : Cell) : turns lim idx = if idx = lim then 2 ^ 64 else (lim - idx).toNat := by
  unfold turns
  split
  · rfl
  · rw [BitVec.toNat_sub, BitVec.toInt_eq_toNat_cond, BitVec.toInt_eq_toNat_cond]
    have := lim.isLt; have := idx.isLt
    show ((_ : Int) % _).toNat = _
    split <;> split <;> omega

theorem turns_pos (lim idx : Cell) : 0 < turns lim idx := by
  rw [turns_eq]
  split
  · decide
  · rename_i h
    apply Nat.pos_of_ne_zero
    intro h0
    apply h
    have : lim - idx = 0 := BitVec.eq_of_toNat_eq (by simpa using h0)
    bv_omega

theorem turns_one (lim idx : Cell) : turns lim idx = 1 ↔ idx + 1 = lim := by
  rw [turns_eq]
  split
  · rename_i h; subst h
    constructor
    · intro h; simp at h
    · intro h; bv_omega
  · constructor
    · intro h; bv_omega
    · intro h; subst h; rw [show idx + 1 - idx = 1 by bv_omega]; rfl

theorem turns_succ {lim idx : Cell} (h : idx + 1 ≠ lim) : turns lim idx = turns lim (idx + 1) + 1 := by
  rw [turns_eq, turns_eq, if_neg h]
  have := (lim - (idx + 1)).isLt
  split
  · rename_i e; subst e
    rw [show idx - (idx + 1) = -1 by bv_omega]; rfl
  · rename_i e
    bv_omega

variable {W : Nat → VM → VM → Prop} {tok : Nat} {p : Stmt} {lim : Cell}

theorem turn_rounds {idx : Cell} {s u : VM} {j : Job} {o : Out} (h : Sem W j s o u) (hj : j = .turn false tok p lim idx)
    (ho : o = .normal) :
    Rounds W tok p lim false (turns lim idx) idx s u ∨ ∃ n, n < turns lim idx ∧ Rounds W tok p lim true n idx s u := by
  induction h generalizing idx with
  | loopEnd h1 h2 h3 =>
    cases hj
    left
    rw [(turns_one _ _).2 h3]
    exact .last h1 h2
  | loopNext h1 h2 h3 h4 _ ih =>
    cases hj
    rw [turns_succ h3]
    rcases ih rfl ho with ih | ⟨n, hn, ih⟩
    · exact .inl (.more h1 h2 ih)
    · exact .inr ⟨n + 1, by omega, .more h1 h2 ih⟩
  | loopLeave h1 h2 h3 h4 =>
    cases hj
    exact .inr ⟨0, turns_pos _ _, .left h1 h2 h3 h4⟩
  | loopStop _ h1 => exact absurd ho h1
  | _ => cases hj

theorem rounds_turn {left : Bool} {n : Nat} {idx : Cell} {s u : VM} (h : Rounds W tok p lim left n idx s u) :
    (if left then n < turns lim idx else n = turns lim idx) → Sem W (.turn false tok p lim idx) s .normal u := by
  induction h with
  | last h1 h2 =>
    intro h
    exact .loopEnd h1 h2 ((turns_one _ _).1 h.symm)
  | left h1 h2 h3 h4 => exact fun _ => .loopLeave h1 h2 h3 h4
  | @more left n idx s t u l h1 h2 h3 ih =>
    intro h
    have hp := turns_pos lim idx
    have hn : idx + 1 ≠ lim := by
      intro he
      have := (turns_one _ _).2 he
      cases left
      · simp only [Bool.false_eq_true, if_false] at h
        have : n = 0 := by omega
        subst this
        cases h3
      · simp only [if_true] at h; omega
    have := turns_succ hn
    refine .loopNext h1 h2 hn (ih ?_)
    cases left <;> simp only [Bool.false_eq_true, if_false, if_true] at h ⊢ <;> omega

/-- If the body adds one to the top of the stack, `n` rounds add `n`. -/
theorem rounds_incr {i : Nat} {c : List Cell} (hW : ∀ s y, data s = y :: c → W i s (setData s ((y + 1) :: c)))
    {l : List Cell} (hl : l.length < 62) (hc : c.length < 64) (n : Nat) {idx y : Cell} {s : VM} (hd : data s = y :: c)
    (hr : ret s = params lim idx ++ BitVec.ofNat 64 tok :: l) :
    ∃ u, Rounds W tok (.word i) lim false (n + 1) idx s u ∧
      Alike u (setRet (setData s ((y + BitVec.ofNat 64 (n + 1)) :: c)) l) := by
  have hcc : ∀ x : Cell, (x :: c).length ≤ capacity := by intro x; simp [capacity]; omega
  have hc2 : ∀ x : Cell, (x :: c).length < 256 := by intro x; simp; omega
  induction n generalizing idx y s with
  | zero => exact ⟨_, .last (.word (hW s y hd)) (by rw [setData_ret, hr]), .refl _⟩
  | succ n ih =>
    have hp : (params lim (idx + 1) ++ BitVec.ofNat 64 tok :: l).length < 256 := by simp [params]; omega
    obtain ⟨u, h1, h2⟩ := ih (idx := idx + 1) (y := y + 1)
      (s := setRet (setData s ((y + 1) :: c)) (params lim (idx + 1) ++ BitVec.ofNat 64 tok :: l))
      (by rw [setRet_data]; exact data_setData (hc2 _)) (by rw [ret_setRet hp])
    refine ⟨u, .more (.word (hW s y hd)) (by rw [setData_ret, hr]) h1, h2.trans ?_⟩
    have e : y + 1 + BitVec.ofNat 64 (n + 1) = y + BitVec.ofNat 64 (n + 1 + 1) := by
      rw [BitVec.ofNat_add (n + 1) 1, BitVec.add_assoc, BitVec.add_comm 1]; rfl
    rw [e, setRet_setData, setRet_setData, setRet_setData, setRet_setData]
    refine .trans ?_ (alike_data _ (hcc (y + 1)) (hc2 _))
    exact .setData (.setData (alike_ret _ (by simp [params, capacity]; omega) (by omega)) (hc2 _)) (hc2 _)

/-- A word that is such a loop, called. -/
theorem loop_incr {i : Nat} (hW : ∀ s y, data s = [y] → W i s (setData s [y + 1])) {start y x : Cell} {v : VM}
    (hd : data v = [start, lim, y]) (hr : ret v = []) :
    ∃ u l, Sem W (.stmt (.seq (.loop true false tok (.word i)) .exit)) (setRet v (x :: ret v)) .exit u ∧ ret u = x :: l ∧
      Alike (setData v [y + BitVec.ofNat 64 (if start = lim then 0 else turns lim start)]) (setRet u l) := by
  rw [hr]
  have hr1 : ret (setRet v [x]) = [x] := ret_setRet (by simp)
  have hd1 : data (setRet v [x]) = [start, lim, y] := by rw [setRet_data, hd]
  have key : Alike (setRet (setRet v [x]) []) v := by
    have := alike_ret v (l := [x]) (m := ret v) (by simp [capacity]) (by rw [hr]; simp)
    rwa [setRet_self, hr] at this
  by_cases h : start = lim
  · subst h
    rw [if_pos rfl]
    refine ⟨setData (setRet v [x]) [y], [], .seq (.loopNone hd1) .exit, by rw [setData_ret, hr1], ?_⟩
    rw [setRet_setData, show y + BitVec.ofNat 64 0 = y by simp]
    exact (Alike.setData key (by simp)).symm
  · rw [if_neg h]
    obtain ⟨n, hn⟩ : ∃ n, turns lim start = n + 1 := ⟨turns lim start - 1, by have := turns_pos lim start; omega⟩
    obtain ⟨u, h1, h2⟩ := rounds_incr (W := W) (i := i) (c := []) (tok := tok) (lim := lim) hW (l := [x]) (by simp) (by simp) n
      (idx := start) (y := y)
      (s := setRet (setData (setRet v [x]) [y]) (params lim start ++ BitVec.ofNat 64 tok :: [x]))
      (by rw [setRet_data]; exact data_setData (by simp)) (by rw [ret_setRet (by simp [params])])
    refine ⟨u, [], .seq (.loop hd1 (fun _ => h) (by rw [hr1]; simp [capacity]) (rounds_turn (left := false) ?_ hn.symm)) .exit, ?_, ?_⟩
    · rw [hr1]; exact h1
    · rw [h2.ret]; exact ret_setRet (by simp)
    · rw [hn]
      refine .symm ((Alike.setRet h2 (by simp)).trans ?_)
      rw [setRet_setData, setRet_setData, setRet_setData, setRet_setData]
      refine .trans ?_ (.setData key (by simp))
      refine .trans ?_ (alike_data (setRet (setRet v [x]) []) (l := [y]) (by simp [capacity]) (by simp))
      rw [setRet_setData]
      refine Alike.setData (Alike.setData ?_ (by simp)) (by simp)
      refine .trans (alike_ret _ (by simp [capacity]) (by simp)) ?_
      exact alike_ret _ (by simp [params, capacity]) (by simp)

end Verif
