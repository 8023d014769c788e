import Verif.Spec.Dictionary

/-!
# Recorded execution times
-/

namespace Verif.Spec
open Verif

/-- From `s` to `t` the durations `l` (in microseconds, none of them 0) are recorded for word `i` since the last time the records
were cleared. In between anything may happen that neither records times nor forgets words. -/
inductive Records (c : Ctx) (i : Nat) : VM → List Nat → VM → Prop
  | none {s : VM} {w : Word} : s.wl.words[i]? = some w → w.minTime = 0 → w.maxTime = 0 → Records c i s [] s
  /-- `(xtime)` is executed for word `i`, `d` microseconds after the time it is given. -/
  | record {s t u : VM} {l : List Nat} {d : Nat} : Records c i s l t → t.task.s.pop2.1.2.toNat = i → 0 < d →
      t.task.s.pop2.1.1.toNat + d = t.now / 1000 → action c (.tool .setXtime) t = .ok ((), u) →
      Records c i s (l ++ [d]) u
  /-- `(xtime)` is executed for another word. -/
  | another {s t u : VM} {l : List Nat} : Records c i s l t → t.task.s.pop2.1.2.toNat ≠ i →
      action c (.tool .setXtime) t = .ok ((), u) → Records c i s l u
  /-- `0xtime` is executed. -/
  | clear {s t u : VM} {l : List Nat} : Records c i s l t → action c (.tool .clearXtime) t = .ok ((), u) → Records c i s [] u
  | others {s t u : VM} {l : List Nat} {K : List Kind} : Records c i s l t → .wordTime ∉ K → .wordForget ∉ K →
      Changes K t u → Records c i s l u

/-- The entries that `.xtime` prints, newest word first: for every word but the first with a record, its name and the two
times. -/
def timeEntries (d : DataSpace) (ws : List Word) : List (List Byte) :=
  ((ws.drop 1).reverse.filter fun w => decide (0 < w.minTime)).map fun w =>
    nameIn d w ++ ascii "|" ++ digits 10 w.minTime ++ ascii "," ++ digits 10 w.maxTime

end Verif.Spec
