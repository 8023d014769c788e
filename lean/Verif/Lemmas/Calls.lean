import Verif.Lemmas.Simulate

/-!
# Calling colon definitions
-/

namespace Verif
open Spec Stack

section
variable {R : Refs} {wl : Wordlist} {lv lo hi : Nat} {k : Fin 5} {d : DataSpace} {cfg : Cfg} {n : Nat}

/-- Calling a colon definition whose body ends at its `EXIT`. -/
theorem call_colon {W : Nat → VM → VM → Prop} (g : Region d lo hi)
    (hW : ∀ i s t, Loaded R lv wl lo hi k d s → W i s t →
      Acts cfg (n + 1) i s t ∧ Loaded R lv wl lo hi k d t)
    {i : Nat} {w : Word} {q : Stmt} {s t : VM} (hw : wl.words[i]? = some w) (ha : w.action = .core .nest)
    (h1 : lo ≤ w.dfa) (h2 : q.next w.dfa ≤ hi) (hq : q.At R lv d w.dfa) (hs : Loaded R lv wl lo hi k d s)
    (hr : (ret s).length < capacity)
    (hb : ∀ x : Cell, ∃ u l, Sem W (.stmt q) (setRet s (x :: ret s)) .exit u ∧ ret u = x :: l ∧ Alike t (setRet u l)) :
    Acts cfg (n + 1) i s t ∧ Loaded R lv wl lo hi k d t := by
  refine ⟨?_, ?_⟩
  · intro s1 hl hpc
    obtain ⟨w', e1, e2, e3⟩ := (hs.like hl).kept i w hw
    have hr1 : s1.task.r.items = ret s := hl.ret
    simp only [capacity] at hr
    have hp1 := push_holding s1.task.r (toCell (pc s1)) (by rw [hr1]; omega)
    rw [hr1] at hp1
    have ex : execWord cfg (n + 1) i s1 = .ok ((), s1.put s1.task.s (s1.task.r.push (toCell (pc s1)))
        s1.task.f w.dfa i) := by
      rw [exec_word e1, e2, ha]
      simp only [action, coreAction, nest, M.bind_apply, getSt_apply, VM.at_task, rPush_apply]
      rw [wordAt_ok (w := w') (by simpa using e1)]
      simp [setIp, VM.at, VM.put, e3, pc]
    have hl2 : Like (s1.put s1.task.s (s1.task.r.push (toCell (pc s1))) s1.task.f w.dfa i)
        (setRet s (toCell (pc s1) :: ret s)) :=
      hl.update hl.s (by rw [hp1]; exact hl.r.hold _ (by simp; omega)) hl.f _ _
    obtain ⟨u, l, b1, b2, b3⟩ := hb (toCell (pc s1))
    obtain ⟨c1, t1, c2, c3, c4⟩ := simulate g hW b1 w.dfa _ _ ⟨hq, rfl⟩ h1 h2 (hs.setRet _) hl2
      (by simp [pc, VM.put])
    obtain ⟨v, f1, f2, f3⟩ := run_exit (cfg := cfg) (n := n) c3 c1 g rfl c4.1 c4.2.1 c4.2.2 b2
    refine ⟨_, v, ex, rfl, c2.trans f1, f2.trans b3.like.symm, ?_⟩
    rw [f3, toNat_toCell hpc]
  · obtain ⟨u, l, b1, b2, b3⟩ := hb (toCell 0)
    have hl2 : Like ((setRet s (toCell 0 :: ret s)).at w.dfa 0) (setRet s (toCell 0 :: ret s)) :=
      (Like.refl _).at _ _
    obtain ⟨c1, -⟩ := simulate (n := n) (cfg := cfg) g hW b1 w.dfa _ _ ⟨hq, rfl⟩ h1 h2 (hs.setRet _) hl2
      (by simp [pc])
    exact (c1.setRet _).like b3.like

/-- Calling words, with colon definitions calling each other. -/
theorem calls_act {D : Nat → Option Stmt} {W : Nat → VM → VM → Prop} (g : Region d lo hi)
    (hD : Defined R lv wl lo hi d D)
    (hW : ∀ i s t, Loaded R lv wl lo hi k d s → W i s t →
      Acts cfg (n + 1) i s t ∧ Loaded R lv wl lo hi k d t) :
    ∀ (m i : Nat) (s t : VM), Loaded R lv wl lo hi k d s → Calls D W m i s t →
      Acts cfg (n + 1) i s t ∧ Loaded R lv wl lo hi k d t := by
  intro m
  induction m with
  | zero => exact hW
  | succ m ih =>
    intro i s t hs h
    rcases h with h | ⟨p, h1, h2, h3⟩
    · exact ih i s t hs h
    · obtain ⟨w, e1, e2, e3, e4, e5⟩ := hD i p h1
      exact call_colon g ih e1 e2 e3 e4 e5 hs h2 h3
end

end Verif
