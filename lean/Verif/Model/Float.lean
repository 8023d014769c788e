import Verif.Model.Output

/-!
# Floating-point and unit words (src/float.rs, src/units.rs)

Float arithmetic is the parameter `FloatOps`.
-/

namespace Verif

/-- `std::f64::consts::PI`. -/
def f64Pi : F64 := 0x400921FB54442D18
/-- `1.0`. -/
def f64One : F64 := 0x3FF0000000000000
/-- src/units.rs 8 `MILLIMETER`, 13 `MILLISECOND`: `0.001`. -/
def f64Milli : F64 := 0x3F50624DD2F1A9FC
/-- src/units.rs 9 `MICROMETER`, 14 `MICROSECOND`: `0.000001`. -/
def f64Micro : F64 := 0x3EB0C6F7A0B5ED8D
/-- src/units.rs 10 `HOUR`. -/
def f64Hour : F64 := 0x40AC200000000000
/-- src/units.rs 11 `MINUTE`. -/
def f64Minute : F64 := 0x404E000000000000
/-- `180.0`, src/units.rs 56. -/
def f64_180 : F64 := 0x4066800000000000
/-- src/units.rs 6 `RPM`: `2.0 * PI / 60.0`. -/
def f64Rpm : F64 := 0x3FBACEE9F37BEBD5

/-- src/float.rs 58-63 `p_fconst`. -/
def pFconst (c : Ctx) : M Unit := do
  let st ← getSt
  let w ← wordAt st.wp
  let pos ← liftE (DataSpace.aligned c.oc w.dfa)
  let v ← dsRd fun d => d.getCell pos
  fPush v

/-- src/float.rs 65-70 `fconstant`: the value is compiled even when `define` failed. -/
def fconstant (c : Ctx) : M Unit := do
  let v ← fPop
  define c (.flt .pFconst)
  dsOp fun d => d.align c.oc
  dsOp fun d => d.compileCell c.oc v

/-- src/float.rs 110-120 `ffetch`. -/
def ffetch (c : Ctx) : M Unit := do
  let a ← sPop
  let t ← liftE (DataSpace.aligned c.oc a.toNat)
  let d ← getDs
  if d.start ≤ t ∧ t < d.limit then do
    let v ← dsRd fun d => d.getCell t
    fPush v
  else abortWith c .invalidMemoryAddress

/-- src/float.rs 122-132 `fstore`. -/
def fstore (c : Ctx) : M Unit := do
  let a ← sPop
  let t ← liftE (DataSpace.aligned c.oc a.toNat)
  let n ← fPop
  let d ← getDs
  if d.start ≤ t ∧ t < d.limit then dsOp fun d => d.putCell n t
  else abortWith c .invalidMemoryAddress

/-- The shape pop, push (src/float.rs 134-182, 309-327). -/
def f1 (f : F64 → F64) : M Unit := do
  let t ← fPop
  fPush (f t)

/-- The shape pop `t`, pop `n`, push (src/float.rs 173-177, 243-271). -/
def f2 (f : F64 → F64 → F64) : M Unit := do
  let t ← fPop
  let n ← fPop
  fPush (f n t)

/-- src/float.rs 150-154 `fsincos`. -/
def fsincos (c : Ctx) : M Unit := do
  let t ← fPop
  fPush2 (c.cfg.fops.sin t) (c.cfg.fops.cos t)

/-- src/float.rs 184-188 `fswap`. -/
def fswap : M Unit := do
  let t ← fPop
  let n ← fPop
  fPush2 t n

/-- src/float.rs 190-194 `fnip`. -/
def fnip : M Unit := do
  let t ← fPop
  let _ ← fPop
  fPush t

/-- src/float.rs 196-199 `fdup`. -/
def fdup : M Unit := do
  let t ← fPop
  fPush2 t t

/-- src/float.rs 201-203 `fdrop`. -/
def fdrop : M Unit := do
  let _ ← fPop
  pure ()

/-- src/float.rs 205-210 `frot`. -/
def frot : M Unit := do
  let x3 ← fPop
  let x2 ← fPop
  let x1 ← fPop
  fPush3 x2 x3 x1

/-- src/float.rs 212-216 `fover`. -/
def fover : M Unit := do
  let t ← fPop
  let n ← fPop
  fPush3 n t n

/-- src/float.rs 221-226 `fpick`. -/
def fpick : M Unit := do
  let v ← sPop
  let t ← getTask
  fPush (t.f.inner (t.f.len - (v.setWidth 8 + 1)))

/-- src/float.rs 228-231 `s_to_f`. -/
def sToF (c : Ctx) : M Unit := do
  let t ← sPop
  fPush (c.cfg.fops.ofInt t.toInt)

/-- src/float.rs 233-236 `f_to_s`. -/
def fToS (c : Ctx) : M Unit := do
  let t ← fPop
  sPush (c.cfg.fops.toCell t)

/-- The decision of src/float.rs 274-289. -/
def proximate (f : FloatOps) (x1 x2 x3 : F64) : Bool :=
  if f.lt 0 x3 then f.lt (f.abs (f.sub x1 x2)) x3
  else if f.eq x3 0 then f.eq x1 x2
  else f.lt (f.abs (f.sub x1 x2)) (f.mul (f.abs x3) (f.add (f.abs x1) (f.abs x2)))

/-- src/float.rs 272-290 `fproximate`. -/
def fproximate (c : Ctx) : M Unit := do
  let (x1, x2, x3) ← fPop3
  sPush (flag (proximate c.cfg.fops x1 x2 x3))

/-- src/float.rs 292-300 `f_zero_less_than`, `f_zero_equals`. -/
def fTest (f : F64 → Bool) : M Unit := do
  let t ← fPop
  sPush (flag (f t))

/-- src/float.rs 302-306 `f_less_than`. -/
def fLess (c : Ctx) : M Unit := do
  let t ← fPop
  let n ← fPop
  sPush (flag (c.cfg.fops.lt n t))

/-- src/float.rs 308-316 `fmin`, `fmax`: `t.min(n)`. -/
def fminmax (f : F64 → F64 → F64) : M Unit := do
  let (n, t) ← fPop2
  fPush (f t n)

/-- src/float.rs, the words. -/
def floatAction (c : Ctx) (p : FloatPrim) : M Unit :=
  let f := c.cfg.fops
  match p with
  | .fconstant => fconstant c
  | .floatPlus => cellPlus c
  | .floats => cells c
  | .faligned => aligned c
  | .falign => align c
  | .pi => fPush f64Pi
  | .fstore => fstore c
  | .ffetch => ffetch c
  | .fabs => f1 f.abs
  | .fsin => f1 f.sin
  | .fcos => f1 f.cos
  | .ftan => f1 f.tan
  | .fsincos => fsincos c
  | .fasin => f1 f.asin
  | .facos => f1 f.acos
  | .fatan => f1 f.atan
  | .fatan2 => f2 f.atan2
  | .fsqrt => f1 f.sqrt
  | .fdrop => fdrop
  | .fdup => fdup
  | .fswap => fswap
  | .fnip => fnip
  | .fover => fover
  | .frot => frot
  | .fpick => fpick
  | .sToF => sToF c
  | .fToS => fToS c
  | .fplus => f2 f.add
  | .fminus => f2 f.sub
  | .fstar => f2 f.mul
  | .fslash => f2 f.div
  | .fpowf => f2 f.powf
  | .fproximate => fproximate c
  | .fZeroLess => fTest fun t => f.lt t 0
  | .fZeroEquals => fTest fun t => f.eq t 0
  | .fLess => fLess c
  | .fmin => fminmax f.min
  | .fmax => fminmax f.max
  | .floor => f1 f.floor
  | .fround => f1 f.round
  | .fceil => f1 f.ceil
  | .fnegate => f1 f.neg
  | .pFconst => pFconst c

/-- src/units.rs 41-124, the words. -/
def unitAction (c : Ctx) (p : UnitPrim) : M Unit :=
  let f := c.cfg.fops
  match p with
  | .meter => f1 fun t => f.mul t f64One
  | .mm => f1 fun t => f.mul t f64Milli
  | .um => f1 fun t => f.mul t f64Micro
  | .deg => f1 fun t => f.div (f.mul t f64Pi) f64_180
  | .rad => f1 id
  | .hr => f1 fun t => f.mul t f64Hour
  | .minute => f1 fun t => f.mul t f64Minute
  | .sec => f1 fun t => f.mul t f64One
  | .msec => f1 fun t => f.mul t f64Milli
  | .usec => f1 fun t => f.mul t f64Micro
  | .mmPerMin => f1 fun t => f.div (f.mul t f64Milli) f64Minute
  | .mmPerSec => f1 fun t => f.div (f.mul t f64Milli) f64One
  | .umPerMsec => f1 fun t => f.div (f.mul t f64Micro) f64Milli
  | .rpm => f1 fun t => f.mul t f64Rpm
  | .hertz => f1 id

end Verif
