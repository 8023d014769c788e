import Verif.Spec.Words

/-!
# Specification of the return-stack, float and unit words

Stack comments over the three stacks a program sees, top first. Float arithmetic is whatever the
host's is. Nothing here refers to the modelled implementation.
-/

namespace Verif.Spec
open Verif

/-- The contents of the data, return and float stacks, top first. -/
structure Three where
  data : List Cell
  ret : List Cell
  flt : List F64

/-- A stack effect on three stacks; `none` when the operands are not there. -/
abbrev Effect3 := Three → Option Three

/-- `( -- ) ( F: r1 -- r2 )` -/
def funary (f : F64 → F64) : Effect3
  | ⟨d, r, a :: l⟩ => some ⟨d, r, f a :: l⟩
  | _ => none

/-- `( -- ) ( F: r1 r2 -- r3 )` -/
def fbinary (f : F64 → F64 → F64) : Effect3
  | ⟨d, r, b :: a :: l⟩ => some ⟨d, r, f a b :: l⟩
  | _ => none

/-- `( -- flag ) ( F: r -- )` -/
def ftest (f : F64 → Bool) : Effect3
  | ⟨d, r, a :: l⟩ => some ⟨truth (f a = true) :: d, r, l⟩
  | _ => none

/-- `f~`: within `x3` of each other, equal, or within a relative error, by the sign of `x3`. -/
def near (o : FloatOps) (x1 x2 x3 : F64) : Prop :=
  if o.lt 0 x3 then o.lt (o.abs (o.sub x1 x2)) x3 = true
  else if o.eq x3 0 then o.eq x1 x2 = true
  else o.lt (o.abs (o.sub x1 x2)) (o.mul (o.abs x3) (o.add (o.abs x1) (o.abs x2))) = true

instance (o : FloatOps) (x1 x2 x3 : F64) : Decidable (near o x1 x2 x3) := by
  unfold near; infer_instance

/-- The return-stack words. -/
def returnEffects : List (String × Effect3) := [
  (">r", fun | ⟨a :: d, r, l⟩ => some ⟨d, a :: r, l⟩ | _ => none),
  ("r>", fun | ⟨d, a :: r, l⟩ => some ⟨a :: d, r, l⟩ | _ => none),
  ("r@", fun | ⟨d, a :: r, l⟩ => some ⟨a :: d, a :: r, l⟩ | _ => none),
  ("2>r", fun | ⟨b :: a :: d, r, l⟩ => some ⟨d, b :: a :: r, l⟩ | _ => none),
  ("2r>", fun | ⟨d, b :: a :: r, l⟩ => some ⟨b :: a :: d, r, l⟩ | _ => none),
  ("2r@", fun | ⟨d, b :: a :: r, l⟩ => some ⟨b :: a :: d, b :: a :: r, l⟩ | _ => none),
  ("unloop", fun | ⟨d, _ :: _ :: _ :: r, l⟩ => some ⟨d, r, l⟩ | _ => none)]

/-- The words that move floats. -/
def floatMoves : List (String × Effect3) := [
  ("fdrop", fun | ⟨d, r, _ :: l⟩ => some ⟨d, r, l⟩ | _ => none),
  ("fdup", fun | ⟨d, r, a :: l⟩ => some ⟨d, r, a :: a :: l⟩ | _ => none),
  ("fswap", fun | ⟨d, r, b :: a :: l⟩ => some ⟨d, r, a :: b :: l⟩ | _ => none),
  ("fnip", fun | ⟨d, r, b :: _ :: l⟩ => some ⟨d, r, b :: l⟩ | _ => none),
  ("fover", fun | ⟨d, r, b :: a :: l⟩ => some ⟨d, r, a :: b :: a :: l⟩ | _ => none),
  ("frot", fun | ⟨d, r, c :: b :: a :: l⟩ => some ⟨d, r, a :: c :: b :: l⟩ | _ => none),
  ("fpick", fun | ⟨n :: d, r, l⟩ => (l[n.toNat]?).map fun v => ⟨d, r, v :: l⟩ | _ => none)]

/-- The words that compute with floats, over the host's arithmetic `o`. -/
def floatEffects (o : FloatOps) : List (String × Effect3) := [
  ("fabs", funary o.abs), ("fsin", funary o.sin), ("fcos", funary o.cos), ("ftan", funary o.tan),
  ("fasin", funary o.asin), ("facos", funary o.acos), ("fatan", funary o.atan),
  ("fsqrt", funary o.sqrt), ("floor", funary o.floor), ("fround", funary o.round),
  ("fceil", funary o.ceil), ("fnegate", funary o.neg),
  ("f+", fbinary o.add), ("f-", fbinary o.sub), ("f*", fbinary o.mul), ("f/", fbinary o.div),
  ("f**", fbinary o.powf), ("fatan2", fbinary o.atan2),
  ("fmin", fbinary fun a b => o.min b a), ("fmax", fbinary fun a b => o.max b a),
  ("fsincos", fun | ⟨d, r, a :: l⟩ => some ⟨d, r, o.cos a :: o.sin a :: l⟩ | _ => none),
  ("s>f", fun | ⟨n :: d, r, l⟩ => some ⟨d, r, o.ofInt n.toInt :: l⟩ | _ => none),
  ("f>s", fun | ⟨d, r, a :: l⟩ => some ⟨o.toCell a :: d, r, l⟩ | _ => none),
  ("f0<", ftest fun a => o.lt a 0), ("f0=", ftest fun a => o.eq a 0),
  ("f<", fun | ⟨d, r, b :: a :: l⟩ => some ⟨truth (o.lt a b = true) :: d, r, l⟩ | _ => none),
  ("f~", fun
    | ⟨d, r, x3 :: x2 :: x1 :: l⟩ => some ⟨truth (near o x1 x2 x3) :: d, r, l⟩
    | _ => none)]

/-- Converting to SI units: seconds, metres, radians. The constants are the nearest `f64` to
0.001, 0.000001, 3600, 60, π, 180, 1 and 2π/60. -/
def unitEffects (o : FloatOps) : List (String × Effect3) := [
  ("meter", funary fun a => o.mul a 0x3FF0000000000000),
  ("mm", funary fun a => o.mul a 0x3F50624DD2F1A9FC),
  ("um", funary fun a => o.mul a 0x3EB0C6F7A0B5ED8D),
  ("deg", funary fun a => o.div (o.mul a 0x400921FB54442D18) 0x4066800000000000),
  ("rad", funary fun a => a),
  ("hr", funary fun a => o.mul a 0x40AC200000000000),
  ("minute", funary fun a => o.mul a 0x404E000000000000),
  ("sec", funary fun a => o.mul a 0x3FF0000000000000),
  ("msec", funary fun a => o.mul a 0x3F50624DD2F1A9FC),
  ("usec", funary fun a => o.mul a 0x3EB0C6F7A0B5ED8D),
  ("mm/min", funary fun a => o.div (o.mul a 0x3F50624DD2F1A9FC) 0x404E000000000000),
  ("mm/sec", funary fun a => o.div (o.mul a 0x3F50624DD2F1A9FC) 0x3FF0000000000000),
  ("um/msec", funary fun a => o.div (o.mul a 0x3EB0C6F7A0B5ED8D) 0x3F50624DD2F1A9FC),
  ("rpm", funary fun a => o.mul a 0x3FBACEE9F37BEBD5),
  ("hz", funary fun a => a), ("1/sec", funary fun a => a)]

/-- All of them. -/
def moves (o : FloatOps) : List (String × Effect3) :=
  returnEffects ++ floatMoves ++ floatEffects o ++ unitEffects o

/-- The three stacks of the running task. -/
def three (s : VM) : Three := ⟨s.task.s.items, s.task.r.items, s.task.f.items⟩

/-- None of the three stacks is longer than the ring of 256 slots allows. -/
def Three.Fits (t : Three) : Prop :=
  t.data.length ≤ 255 ∧ t.ret.length ≤ 255 ∧ t.flt.length ≤ 255

/-- Same machine, three stacks replaced. -/
def withThree (s : VM) (d r : Stack Cell) (f : Stack F64) : VM :=
  s.setTask { s.task with s := d, r := r, f := f }

end Verif.Spec
