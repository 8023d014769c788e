import Verif.Lemmas.Moves
import Verif.Lemmas.Demo

/-!
# C56: return-stack, float and unit words
-/

namespace Verif
open Spec Stack

/-- C56. Every return-stack, float and unit word exists, and whenever its operands are on the
stacks and the results fit, executing it changes the data, return and float stacks as documented
and nothing else of the machine. -/
theorem C56_words (c : Ctx) (name : String) (eff : Effect3) (he : (name, eff) ∈ moves c.cfg.fops) :
    ∃ p, primOf name = some p ∧ ∀ (s : VM) (out : Three), eff (three s) = some out → out.Fits →
      ∃ d r f, action c p s = .ok ((), withThree s d r f) ∧ three (withThree s d r f) = out := by
  obtain ⟨p, hp, h⟩ := moves_ok (c := c) _ he
  refine ⟨p, hp, fun s out h1 h2 => ?_⟩
  obtain ⟨d, r, f, h3, h4, h5, h6⟩ :=
    h s _ _ _ out (rep_items _) (rep_items _) (rep_items _) h1 h2
  refine ⟨d, r, f, h3, ?_⟩
  simp only [three, withThree, VM.task_setTask]
  rw [items_eq_iff.2 h4, items_eq_iff.2 h5, items_eq_iff.2 h6]

example (o : FloatOps) : ∃ eff, ("2>r", eff) ∈ moves o ∧
    eff ⟨[1, 2, 3], [4], []⟩ = some ⟨[3], [1, 2, 4], []⟩ :=
  ⟨_, List.mem_of_getElem? (i := 3) rfl, rfl⟩

example (o : FloatOps) : ∃ eff, ("f-", eff) ∈ moves o ∧
    eff ⟨[1], [], [5, 6, 7]⟩ = some ⟨[1], [], [o.sub 6 5, 7]⟩ :=
  ⟨_, List.mem_of_getElem? (i := 27) rfl, rfl⟩

/-- C56. What goes to the return stack comes back: `>r r>` and `2>r 2r>` leave the machine with the
same three stacks, whatever is on them, as long as the return stack has room. -/
theorem C56_round_trip (c : Ctx) (s : VM) (a b : Cell) (d : List Cell)
    (hd : s.task.s.items = b :: a :: d) (hr : s.task.r.items.length ≤ 253) :
    (∃ p q s' s'', primOf ">r" = some p ∧ primOf "r>" = some q ∧ action c p s = .ok ((), s') ∧
      action c q s' = .ok ((), s'') ∧ three s'' = three s) ∧
    (∃ p q s' s'', primOf "2>r" = some p ∧ primOf "2r>" = some q ∧ action c p s = .ok ((), s') ∧
      action c q s' = .ok ((), s'') ∧ three s'' = three s) := by
  have hlen : (b :: a :: d).length ≤ 255 := by rw [← hd, items_length]; have := s.task.s.len.isLt; omega
  have hf : s.task.f.items.length ≤ 255 := by rw [items_length]; have := s.task.f.len.isLt; omega
  have e : three s = ⟨b :: a :: d, s.task.r.items, s.task.f.items⟩ := by rw [three, hd]
  constructor
  · obtain ⟨p, hp, h⟩ := C56_words c ">r" _ (List.mem_of_getElem? (i := 0) rfl)
    obtain ⟨q, hq, h'⟩ := C56_words c "r>" _ (List.mem_of_getElem? (i := 1) rfl)
    obtain ⟨_, _, _, h1, h2⟩ := h s ⟨a :: d, b :: s.task.r.items, s.task.f.items⟩ (by rw [e])
      ⟨by simp at hlen ⊢; omega, by simp; omega, hf⟩
    obtain ⟨_, _, _, h3, h4⟩ := h' _ ⟨b :: a :: d, s.task.r.items, s.task.f.items⟩ (by rw [h2])
      ⟨hlen, by simp; omega, hf⟩
    exact ⟨p, q, _, _, hp, hq, h1, h3, by rw [h4, e]⟩
  · obtain ⟨p, hp, h⟩ := C56_words c "2>r" _ (List.mem_of_getElem? (i := 3) rfl)
    obtain ⟨q, hq, h'⟩ := C56_words c "2r>" _ (List.mem_of_getElem? (i := 4) rfl)
    obtain ⟨_, _, _, h1, h2⟩ := h s ⟨d, b :: a :: s.task.r.items, s.task.f.items⟩ (by rw [e])
      ⟨by simp at hlen ⊢; omega, by simp; omega, hf⟩
    obtain ⟨_, _, _, h3, h4⟩ := h' _ ⟨b :: a :: d, s.task.r.items, s.task.f.items⟩ (by rw [h2])
      ⟨hlen, by simp; omega, hf⟩
    exact ⟨p, q, _, _, hp, hq, h1, h3, by rw [h4, e]⟩

/-- A machine with two items on the data stack. -/
example : ∃ s : VM, s.task.s.items = [2, 1] ∧ s.task.r.items.length ≤ 253 :=
  ⟨withData (VM.blank 4096 4096) ((Stack.new 0).push2 1 2), by decide +kernel, by decide +kernel⟩

end Verif
