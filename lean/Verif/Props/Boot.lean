import Verif.Props.Dictionary

/-!
# The machine with all its words

Evaluated by the kernel: adding every word of the interpreter to a blank machine succeeds, so the theorems
about the machine as built are about something.
-/

namespace Verif
open Spec

theorem boots : succeeds (addAll (ctx demoCfg 2)) (VM.blank 1024 65536) = true := by decide +kernel

/-- C20. The machine as built, in the concrete. -/
theorem C20_built : ∃ s, addAll (ctx demoCfg 2) (VM.blank 1024 65536) = .ok ((), s) ∧ Dict s ∧ InSpace s :=
  ⟨_, succeeds_spec boots, C20_boot (by decide) (by decide) (succeeds_spec boots)⟩

end Verif
