import Verif.Lemmas.Depth
import Verif.Spec.Errors
import Verif.Lemmas.Demo

/-!
# C63: the size of the native stack and the patience of the user decide nothing but whether one sees the result
-/

namespace Verif
open Spec

variable {cfg : Cfg} {m n f g : Nat} {s : VM}

/-- The two ends which are not answers: the native stack is too small, or one did not wait long enough. -/
def CutShort : Except Fault α → Prop
  | .error .nativeOverflow | .error .outOfFuel => True
  | _ => False

private theorem CutShort.native {r : Except Fault α} (h : ¬CutShort r) : r ≠ .error .nativeOverflow := by
  rintro rfl; exact h trivial

private theorem CutShort.fuel {r : Except Fault α} (h : ¬CutShort r) : r ≠ .error .outOfFuel := by
  rintro rfl; exact h trivial

/-- C63. A word that gets by with one size of the native stack does the same with any larger one. -/
theorem C63_word {i : Nat} {r : Except Fault (Unit × VM)} (h : execWord cfg m i s = r) (hr : r ≠ .error .nativeOverflow)
    (hmn : m ≤ n) : execWord cfg n i s = r :=
  (execWord_le hmn i).eq h hr

/-- C63. So does a run of the inner interpreter, if it is also given more time. -/
theorem C63_run {r : Except Fault (Unit × VM)} (h : run cfg m f s = r) (hr : ¬CutShort r) (hmn : m ≤ n) (hfg : f ≤ g) :
    run cfg n g s = r :=
  (run_longer hfg).eq ((run_le hmn f).eq h (CutShort.native hr)) (CutShort.fuel hr)

/-- C63. So does the evaluation of a line. -/
theorem C63_line {r : Except Fault (Unit × VM)} (h : evaluateInput cfg m f s = r) (hr : ¬CutShort r) (hmn : m ≤ n)
    (hfg : f ≤ g) : evaluateInput cfg n g s = r :=
  (evaluateInput_longer hfg).eq ((evaluateInput_le hmn f).eq h (CutShort.native hr)) (CutShort.fuel hr)

/-- C63. A line has one outcome: two evaluations, whatever their native stacks and however long they may take, end in the
same way unless one of them is cut short. -/
theorem C63_outcome {q r : Except Fault (Unit × VM)} (h : evaluateInput cfg m f s = q) (h' : evaluateInput cfg n g s = r)
    (hq : ¬CutShort q) (hr : ¬CutShort r) : q = r :=
  (C63_line h hq (Nat.le_max_left m n) (Nat.le_max_left f g)).symm.trans
    (C63_line h' hr (Nat.le_max_right m n) (Nat.le_max_right f g))

/-- C63. So has a word. -/
theorem C63_word_outcome {i : Nat} {q r : Except Fault (Unit × VM)} (h : execWord cfg m i s = q) (h' : execWord cfg n i s = r)
    (hq : q ≠ .error .nativeOverflow) (hr : r ≠ .error .nativeOverflow) : q = r :=
  (C63_word h hq (Nat.le_max_left m n)).symm.trans (C63_word h' hr (Nat.le_max_right m n))

/-- C63. Processing a token goes the same way on a larger native stack. -/
theorem C63_processed {a b : VM} (h : Processed cfg m a b) (hmn : m ≤ n) : Processed cfg n a b := by
  cases h with
  | failed h1 h2 => exact .failed ((evalToken_le hmn).ok h1) h2
  | ran h1 h2 h3 h4 =>
    exact .ran ((evalToken_le hmn).ok h1) h2 ((run_le hmn _).ok h3) ((Within.checkStacks (execWord_le hmn)).ok h4)

/-- C63. A line is worked through in the same turns on a larger native stack. -/
theorem C63_turns {t : VM} {ts : List Turn} (h : Line cfg m s ts t) (hmn : m ≤ n) : Line cfg n s ts t := by
  induction h with
  | done h1 h2 => exact .done h1 h2
  | failed h1 h2 h3 h4 h5 => exact .failed h1 h2 h3 (C63_processed h4 hmn) h5
  | next h1 h2 h3 h4 h5 _ ih => exact .next h1 h2 h3 (C63_processed h4 hmn) h5 ih

/-- The line `x` is cut short when the native stack has no room; otherwise it ends well. -/
example : succeeds (evaluateInput demoCfg 0 30) (demo "x") = false ∧
    succeeds (evaluateInput demoCfg 4 30) (demo "x") = true := by decide +kernel

end Verif
