import Verif.Spec.Library
import Verif.Spec.Tasks

/-!
# Facilities shared by tasks

A facility is a cell that is 0 while it is free. `get` waits for that and marks it with the number of the task,
`release` clears it again.
-/

namespace Verif.Spec
open Verif

/-- core.fth 84. -/
def getCode (ix : String → Nat) : Stmt :=
  code ix [Stmt.whileLoop (code ix ["dup", "@"]) (code ix ["pause"]), "me", "swap", "!"]

/-- core.fth 86. -/
def releaseCode (ix : String → Nat) : Stmt :=
  code ix ["dup", "@", "me", "=", Stmt.ifElse (code ix [0, "swap", "!"]) (code ix ["drop"])]

/-- The built-in words they use. -/
def facilityUses : List String := ["dup", "@", "pause", "me", "swap", "!", "=", "drop"]

/-- The machine has `get` with its code at `g` and `release` with its code at `r`, both in `[lo, hi)`. -/
structure HasFacilities (lv lo hi g r : Nat) (ix : String → Nat) (s : VM) : Prop where
  words : Runtime s.refs lv s.wl
  region : Region s.ds lo hi
  uses : ∀ name, name ∈ facilityUses → Builtin s.wl (ix name) name
  lower : lo ≤ g ∧ lo ≤ r
  upper : g + 88 ≤ hi ∧ r + 112 ≤ hi
  apart : g + 88 ≤ r ∨ r + 112 ≤ g
  getWord : ∃ w, s.wl.words[ix "get"]? = some w ∧ w.action = .core .nest ∧ w.dfa = g
  releaseWord : ∃ w, s.wl.words[ix "release"]? = some w ∧ w.action = .core .nest ∧ w.dfa = r
  getAt : (Stmt.seq ((getCode ix).place g) .exit).At s.refs lv s.ds g
  releaseAt : (Stmt.seq ((releaseCode ix).place r) .exit).At s.refs lv s.ds r

/-- The mark of a task. -/
def mark (k : Fin 5) : Cell := BitVec.ofNat 64 (k.val + 1)

/-- Where a task is, and what is on its stacks. -/
def place (s : VM) (k : Fin 5) : Nat := (s.tasks k).st.ip
def dataOf (s : VM) (k : Fin 5) : List Cell := (s.tasks k).s.items
def retOf (s : VM) (k : Fin 5) : List Cell := (s.tasks k).r.items

/-- A place that is in the code of neither word. -/
def Elsewhere (g r p : Nat) : Prop := ¬(g ≤ p ∧ p < g + 88) ∧ ¬(r ≤ p ∧ p < r + 112)

/-- An address where a facility may be: in the data space, not in the code and not across the end of the one at `A`. -/
structure Facility (lo hi A : Nat) (d : DataSpace) (x : Cell) : Prop where
  lower : d.start < x.toNat
  upper : x.toNat + 8 ≤ d.limit
  noCode : x.toNat + 8 ≤ lo ∨ hi ≤ x.toNat
  whole : x.toNat = A ∨ x.toNat + 8 ≤ A ∨ A + 8 ≤ x.toNat

section
variable (lv lo hi g r A : Nat) (b : VM)

/-- The task is at the beginning of one of the words, with a facility on the data stack, room for what the word does,
and a place elsewhere to return to. -/
def Enters (s : VM) (k : Fin 5) : Prop :=
  (place s k = g ∨ place s k = r) ∧
    (∃ x l, dataOf s k = x :: l ∧ Facility lo hi A b.ds x ∧ l.length + 3 ≤ capacity) ∧
    ∃ z rs, retOf s k = z :: rs ∧ Elsewhere g r z.toNat ∧ rs.length < capacity

/-- What tasks may do when they are not in one of these words: anything that leaves the code and the facility alone,
starts these words at their beginning, and does not tamper with a task that is in one of them, except for taking it
elsewhere. -/
structure Behaves (s t : VM) : Prop where
  loaded : Loaded b.refs lv b.wl lo hi t.cur b.ds t
  cell : ∀ x, A ≤ x → x < A + 8 → t.ds.bytes x = s.ds.bytes x
  mine : Elsewhere g r (place t s.cur) ∨ Enters lo hi g r A b t s.cur
  others : ∀ j, j ≠ s.cur → Elsewhere g r (place t j) ∨
    place t j = place s j ∧ dataOf t j = dataOf s j ∧ retOf t j = retOf s j

/-- Who holds the facility after the next step: a task gets it when `get` stores its mark, and gives it back when
`release` clears it. -/
def holders (s : VM) (H : Fin 5 → Bool) : Fin 5 → Bool := fun k =>
  if k = s.cur ∧ (dataOf s k).head? = some (BitVec.ofNat 64 A) then
    if place s k = g + 72 then true else if place s k = r + 72 then false else H k
  else H k

/-- The machine at some time while tasks use the facility at `A`, and who holds it. -/
inductive Usage (cfg : Cfg) (n : Nat) : VM → (Fin 5 → Bool) → Prop
  | start {s : VM} : Loaded b.refs lv b.wl lo hi s.cur b.ds s →
      (∀ k, Elsewhere g r (place s k) ∨ Enters lo hi g r A b s k) → s.ds.cellAt A = 0 → Usage cfg n s fun _ => false
  | inside {s t : VM} {H : Fin 5 → Bool} : Usage cfg n s H → ¬Elsewhere g r (place s s.cur) →
      step cfg (n + 1) s = .ok (true, t) → Usage cfg n t (holders g r A s H)
  | outside {s t : VM} {H : Fin 5 → Bool} : Usage cfg n s H → Elsewhere g r (place s s.cur) → Behaves lv lo hi g r A b s t →
      Usage cfg n t H

end
end Verif.Spec
