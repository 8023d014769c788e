import Verif.Model.Boot

/-!
# Small concrete machines

Used in the examples beside theorems, to show that their hypotheses can be met.
-/

namespace Verif

/-- Float arithmetic that always gives zero; the examples use none. -/
def demoFloats : FloatOps where
  add _ _ := 0
  sub _ _ := 0
  mul _ _ := 0
  div _ _ := 0
  powf _ _ := 0
  atan2 _ _ := 0
  min _ _ := 0
  max _ _ := 0
  neg _ := 0
  abs _ := 0
  sin _ := 0
  cos _ := 0
  tan _ := 0
  asin _ := 0
  acos _ := 0
  atan _ := 0
  sqrt _ := 0
  floor _ := 0
  round _ := 0
  ceil _ := 0
  lt _ _ := false
  eq _ _ := false
  ofInt _ := 0
  toCell _ := 0
  pow10 _ := 0
  fmt _ _ := []

/-- A checked build on a host where files never fail. -/
def demoCfg : Cfg := ⟨true, demoFloats, fun _ => false, fun _ => .eof⟩

/-- The machine after an action. -/
def after {α : Type} (m : M α) (s : VM) : VM :=
  match m s with
  | .ok (_, t) => t
  | .error _ => s

/-- Whether an action succeeds. -/
def succeeds {α : Type} (m : M α) (s : VM) : Bool :=
  match m s with
  | .ok _ => true
  | .error _ => false

theorem succeeds_spec {m : M Unit} {s : VM} (h : succeeds m s = true) : m s = .ok ((), after m s) := by
  unfold succeeds at h
  unfold after
  split at h
  · rename_i t e
    rw [e]
  · cases h

def demoTable : List Entry :=
  [⟨"", .core .noop, false, false⟩, ⟨"exit", .core .exit, false, false⟩, ⟨":", .core .colon, false, false⟩,
   ⟨";", .core .semicolon, true, true⟩, ⟨"create", .core .create, false, false⟩,
   ⟨"marker", .core .marker, false, false⟩]

/-- A machine where word 1 is `exit`, with some input. -/
def withInput (s : VM) (text : String) : VM :=
  { s with
    refs := { s.refs with exit := 1 }
    tasks := fun i => if i = s.cur then { s.tasks i with inbuf := some text.toList } else s.tasks i }

theorem withInput_same (s : VM) (text : String) : (withInput s text).wl = s.wl ∧ (withInput s text).ds = s.ds ∧
    (withInput s text).handler = s.handler := ⟨rfl, rfl, rfl⟩

/-- A machine with the words of `l`, of which word 1 is `exit`, and some input. -/
def demoWith (l : List Entry) (text : String) : VM :=
  withInput (after (addTable (ctx demoCfg 2) l) (VM.blank 1024 8192)) text

def demo (text : String) : VM := demoWith demoTable text

end Verif
