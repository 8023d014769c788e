import Verif.Spec.Change

/-!
# Specification of cooperative multitasking
-/

namespace Verif.Spec
open Verif

/-- `j` is the next task in cyclic order after `i` that is awake: some `d` steps away, with those in between
asleep. It may be `i` itself, a whole round away. -/
def NextAwake (s : VM) (i j : Fin 5) : Prop :=
  ∃ d : Nat, 1 ≤ d ∧ d ≤ 5 ∧ j.val = (i.val + d) % 5 ∧ (s.tasks j).awake = true ∧
    ∀ (k : Nat) (m : Fin 5), 1 ≤ k → k < d → m.val = (i.val + k) % 5 → (s.tasks m).awake = false

/-- The machine each time control has been passed on, in a run where task `j` is kept awake: the task in
control works, as long as it likes, keeping control, and then executes `pause`. -/
structure Schedule (c : Ctx) (j : Fin 5) (trace : Nat → VM) : Prop where
  turn : ∀ k, ∃ w, w.cur = (trace k).cur ∧ (w.tasks j).awake = true ∧
    action c (.core .pause) w = .ok ((), trace (k + 1))

end Verif.Spec
