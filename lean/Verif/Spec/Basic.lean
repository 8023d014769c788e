import Verif.Spec.Layout
import Verif.Spec.Words

/-!
# What the built-in words do to a machine

The words programs are mostly made of, as relations between machines.
-/

namespace Verif.Spec
open Verif

/-- `Basic wl lo hi i s t`: word `i` of `wl` leads from `s` to `t`. The memory from `lo` up to `hi`
holds the running code and may not be stored to. -/
inductive Basic (wl : Wordlist) (lo hi i : Nat) : VM → VM → Prop
  /-- a word with a stack comment -/
  | effect {w : Word} {name : String} {e : Effect} {ys : List Cell} {s : VM} : wl.words[i]? = some w →
      (name, e) ∈ effects → primOf name = some w.action → e (data s) = some ys →
      (data s).length ≤ capacity → ys.length ≤ capacity → Basic wl lo hi i s (setData s ys)
  /-- `I`: the index of the innermost loop -/
  | index {w : Word} {lim idx : Cell} {l : List Cell} {s : VM} : wl.words[i]? = some w →
      primOf "i" = some w.action → ret s = params lim idx ++ l → (data s).length < capacity →
      Basic wl lo hi i s (setData s (idx :: data s))
  /-- `J`: the index of the loop around it -/
  | outer {w : Word} {lim idx a b c : Cell} {l : List Cell} {s : VM} : wl.words[i]? = some w →
      primOf "j" = some w.action → ret s = a :: b :: c :: (params lim idx ++ l) →
      (data s).length < capacity → Basic wl lo hi i s (setData s (idx :: data s))
  /-- `>R` -/
  | toR {w : Word} {x : Cell} {l : List Cell} {s : VM} : wl.words[i]? = some w →
      primOf ">r" = some w.action → data s = x :: l → (ret s).length < capacity →
      Basic wl lo hi i s (setRet (setData s l) (x :: ret s))
  /-- `R>` -/
  | rFrom {w : Word} {x : Cell} {l : List Cell} {s : VM} : wl.words[i]? = some w →
      primOf "r>" = some w.action → ret s = x :: l → (data s).length < capacity →
      Basic wl lo hi i s (setRet (setData s (x :: data s)) l)
  /-- `R@` -/
  | rFetch {w : Word} {x : Cell} {l : List Cell} {s : VM} : wl.words[i]? = some w →
      primOf "r@" = some w.action → ret s = x :: l → (data s).length < capacity →
      Basic wl lo hi i s (setData s (x :: data s))
  /-- `UNLOOP` -/
  | unloop {w : Word} {a b c : Cell} {l : List Cell} {s : VM} : wl.words[i]? = some w →
      primOf "unloop" = some w.action → ret s = a :: b :: c :: l → Basic wl lo hi i s (setRet s l)
  /-- a word made by `CREATE` or `VARIABLE` -/
  | var {w : Word} {s : VM} : wl.words[i]? = some w → w.action = .core .pVar →
      (data s).length < capacity → Basic wl lo hi i s (setData s (BitVec.ofNat 64 w.dfa :: data s))
  /-- a word made by `CONSTANT` -/
  | const {w : Word} {s : VM} : wl.words[i]? = some w → w.action = .core .pConst →
      s.ds.start ≤ w.dfa → w.dfa + 8 ≤ s.ds.limit →
      (data s).length < capacity → Basic wl lo hi i s (setData s (s.ds.cellAt w.dfa :: data s))
  /-- `@` -/
  | fetch {w : Word} {a : Cell} {l : List Cell} {s : VM} : wl.words[i]? = some w →
      primOf "@" = some w.action → data s = a :: l → l.length < capacity → s.ds.start < a.toNat →
      a.toNat + 8 ≤ s.ds.limit → Basic wl lo hi i s (setData s (s.ds.cellAt a.toNat :: l))
  /-- `!` -/
  | store {w : Word} {a x : Cell} {l : List Cell} {s : VM} : wl.words[i]? = some w →
      primOf "!" = some w.action → data s = a :: x :: l → s.ds.start < a.toNat →
      a.toNat + 8 ≤ s.ds.limit → a.toNat + 8 ≤ lo ∨ hi ≤ a.toNat →
      Basic wl lo hi i s { setData s l with ds := s.ds.setCell a.toNat x }

end Verif.Spec
