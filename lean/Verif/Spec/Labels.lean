import Verif.Spec.Layout

/-!
# Labels and the jumps to them

The words `0labels`, `label`, `goto` and `call`, used in any order between other words of a definition.
-/

namespace Verif.Spec
open Verif

/-- A jump that has been compiled: which label it goes to, the address of the cell that holds the target, and
whether it was compiled by `call`. -/
structure Jump where
  label : Nat
  cell : Nat
  call : Bool
  deriving DecidableEq

/-- The code of a jump: a branch, and for a call a literal with the address after it that goes to the return stack. -/
def Jump.Code (R : Refs) (d : DataSpace) (j : Jump) : Prop :=
  CellIs d (j.cell - 8) R.branch ∧
    (j.call = true → CellIs d (j.cell - 32) R.lit ∧ CellIs d (j.cell - 24) (j.cell + 8) ∧ CellIs d (j.cell - 16) R.toR)

/-- The first address of the code of a jump. -/
def Jump.first (j : Jump) : Nat := if j.call then j.cell - 32 else j.cell - 8

/-- `Labels c J P s`: since the last `0labels`, `s` has compiled the jumps `J`, the latest first, and has placed the
labels `P`, each with its address. Between these words anything may happen that leaves alone the tables of labels and
the code of the jumps, and does not take back memory. -/
inductive Labels (c : Ctx) : List Jump → List (Nat × Nat) → VM → Prop
  | start {s t : VM} : coreAction c .clearLabels s = .ok ((), t) → t.ds.start + t.ds.cap < 2 ^ 63 → t.ds.len ≤ t.ds.cap →
      t.refs.branch < 2 ^ 64 → t.refs.lit < 2 ^ 64 → t.refs.toR < 2 ^ 64 → Labels c [] [] t
  | goto {J : List Jump} {P : List (Nat × Nat)} {s t : VM} {n : Cell} {l : List Cell} : Labels c J P s → data s = n :: l →
      0 < n.toNat → n.toNat < s.labels.length → s.ds.here + 16 ≤ s.ds.limit → coreAction c .immGoto s = .ok ((), t) →
      Labels c (⟨n.toNat, s.ds.here + 8, false⟩ :: J) P t
  | call {J : List Jump} {P : List (Nat × Nat)} {s t : VM} {n : Cell} {l : List Cell} : Labels c J P s → data s = n :: l →
      0 < n.toNat → n.toNat < s.labels.length → s.ds.here + 40 ≤ s.ds.limit → coreAction c .immCall s = .ok ((), t) →
      Labels c (⟨n.toNat, s.ds.here + 32, true⟩ :: J) P t
  | label {J : List Jump} {P : List (Nat × Nat)} {s t : VM} {n : Cell} {l : List Cell} : Labels c J P s → data s = n :: l →
      0 < n.toNat → n.toNat < s.labels.length → (∀ a, (n.toNat, a) ∉ P) → coreAction c .immLabel s = .ok ((), t) →
      Labels c J ((n.toNat, s.ds.here) :: P) t
  | other {J : List Jump} {P : List (Nat × Nat)} {s t : VM} : Labels c J P s → t.labels = s.labels →
      t.forward = s.forward → t.resolved = s.resolved → t.refs = s.refs → t.ds.start = s.ds.start →
      t.ds.cap = s.ds.cap → s.ds.len ≤ t.ds.len → t.ds.len ≤ t.ds.cap →
      (∀ j ∈ J, ∀ x, j.first ≤ x → x < j.cell + 8 → t.ds.bytes x = s.ds.bytes x) → Labels c J P t

end Verif.Spec
