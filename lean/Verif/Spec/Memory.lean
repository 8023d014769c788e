import Verif.Spec.Words

/-!
# Specification of the memory words
-/

namespace Verif.Spec
open Verif

/-- What the host allocator guarantees of a data space, and what `new` puts in it:
not at address 0, aligned, below 2^63, and the allocated part inside it. -/
structure SoundSpace (d : DataSpace) : Prop where
  pos : 0 < d.start
  aligned : d.start % 16 = 0
  small : d.start + d.cap < 2 ^ 63
  vars : 16 ≤ d.len
  inside : d.len ≤ d.cap

/-- Same machine, data stack and data space replaced. -/
def withMem (s : VM) (st : Stack Cell) (d : DataSpace) : VM := { withData s st with ds := d }

/-- In a machine whose data space is `d`, the word `p` given address `a` replaces it by `v` and
changes nothing else. -/
def Fetches (c : Ctx) (p : Prim) (d : DataSpace) (a v : Cell) : Prop :=
  ∀ (s : VM) (l : List Cell), s.ds = d → s.task.s.items = a :: l →
    ∃ st', action c p s = .ok ((), withData s st') ∧ st'.items = v :: l

/-- In a machine whose data space is `d`, the word `p` given address `a` and value `x` takes
both, changes the data space to `d'`, and changes nothing else. -/
def Stores (c : Ctx) (p : Prim) (d : DataSpace) (a x : Cell) (d' : DataSpace) : Prop :=
  ∀ (s : VM) (l : List Cell), s.ds = d → s.task.s.items = a :: x :: l →
    ∃ st', action c p s = .ok ((), withMem s st' d') ∧ st'.items = l

/-- As `Fetches`, for a float. -/
def FFetches (c : Ctx) (p : Prim) (d : DataSpace) (a : Cell) (v : F64) : Prop :=
  ∀ (s : VM) (l : List Cell) (fl : List F64), s.ds = d → s.task.s.items = a :: l →
    s.task.f.items = fl → fl.length < 255 →
    ∃ st' ft', action c p s = .ok ((), s.setTask { s.task with s := st', f := ft' }) ∧
      st'.items = l ∧ ft'.items = v :: fl

/-- As `Stores`, for a float. -/
def FStores (c : Ctx) (p : Prim) (d : DataSpace) (a : Cell) (v : F64) (d' : DataSpace) : Prop :=
  ∀ (s : VM) (l : List Cell) (fl : List F64), s.ds = d → s.task.s.items = a :: l →
    s.task.f.items = v :: fl →
    ∃ st' ft', action c p s =
        .ok ((), { s.setTask { s.task with s := st', f := ft' } with ds := d' }) ∧
      st'.items = l ∧ ft'.items = fl

/-- Rounded up to a multiple of 8. -/
def roundUp8 (n : Nat) : Nat := (n + 7) / 8 * 8

end Verif.Spec
