import Verif.Props.Memory

/-!
# C01, C11: functions of the library that no word uses
-/

namespace Verif
open Spec Stack DataSpace

/-- C01. `is_empty` is true of the stacks without items and of no other. -/
theorem C01_empty {α : Type} (st : Stack α) : st.isEmpty = true ↔ st.items = [] := by
  rw [Stack.isEmpty, decide_eq_true_iff, ← List.length_eq_zero_iff, items_length]
  bv_omega

/-- A new stack is empty, and after a push it is not. -/
example : (Stack.new (0 : Cell)).isEmpty = true ∧ ((Stack.new (0 : Cell)).push 7).isEmpty = false := by
  decide

/-- C11. `align_16bytes` moves here to the least multiple of 16 not below it if that is inside the
space, and otherwise does nothing. No byte changes. -/
theorem C11_align16 (oc : Bool) (d : DataSpace) (hd : SoundSpace d) :
    ∃ h, LeastMultiple 16 d.here h ∧
      (h ≤ d.limit → d.align16 oc = .ok { d with len := h - d.start }) ∧
      (d.limit < h → d.align16 oc = .ok d) := by
  have hsm := hd.small
  have hin := hd.inside
  have hal := aligned16_ok (oc := oc) (pos := d.here) (by simp only [usizeMod, DataSpace.here]; omega)
  refine ⟨(d.here + 15) / 16 * 16, ⟨by omega, by omega, fun k _ _ => by omega⟩, ?_, ?_⟩
  · intro h
    simp only [align16, hal, bind, Except.bind, setHere]
    rw [if_pos ⟨by simp only [DataSpace.here] at *; omega, h⟩]
  · intro h
    simp only [align16, hal, bind, Except.bind, setHere]
    rw [if_neg (by omega)]

/-- The hypothesis holds of the data space of a fresh machine. -/
example : SoundSpace (VM.blank 4096 4096).ds :=
  ⟨by decide, by decide, by decide, by decide, by decide⟩

end Verif
