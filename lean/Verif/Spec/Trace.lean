import Verif.Spec.Dictionary
import Verif.Spec.Printing
import Verif.Spec.Control

/-!
# Backtraces
-/

namespace Verif.Spec
open Verif

/-- Names can be read, and words come one after the other in memory. It is so in a sound dictionary. -/
structure Traceable (s : VM) : Prop where
  small : s.ds.limit < 2 ^ 63
  low : ∀ (i : Nat) w, s.wl.words[i]? = some w → s.ds.start ≤ w.nfa
  high : ∀ (i : Nat) w, s.wl.words[i]? = some w → w.nfa + 8 + (s.ds.cellAt w.nfa).toNat ≤ s.ds.limit
  rising : ∀ (i j : Nat) v w, i < j → s.wl.words[i]? = some v → s.wl.words[j]? = some w → v.nfa < w.nfa

/-- Address `a` belongs to word `i`: its header starts there or before, and those of all later words start behind. -/
def Belongs (s : VM) (a i : Nat) : Prop :=
  (∃ w, s.wl.words[i]? = some w ∧ w.nfa ≤ a) ∧ ∀ (j : Nat) v, i < j → s.wl.words[j]? = some v → a < v.nfa

/-- What a backtrace tells about an address: the name of the word it belongs to, or the address itself if it is before
all words. -/
def whereabouts (s : VM) (a : Nat) : List Byte :=
  match (s.wl.words.filter fun w => w.nfa ≤ a).getLast? with
  | some w => nameIn s.ds w ++ [32]
  | none => ascii "unknown(" ++ digits 16 a ++ ascii ") "

/-- What it tells about the word that raised the last error. -/
def culprit (s : VM) : List Byte :=
  if s.task.st.abortedWp = 0 then []
  else match s.wl.words[s.task.st.abortedWp]? with
    | some w => nameIn s.ds w ++ [32]
    | none => []

/-- A backtrace: the return addresses, the oldest one first, then the word that raised the last error, then the address
of the code being executed. -/
def trace (s : VM) : List Byte :=
  ascii "backtrace: " ++ (ret s).reverse.flatMap (fun v => whereabouts s v.toNat) ++ culprit s ++ whereabouts s (pc s)

end Verif.Spec
