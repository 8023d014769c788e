import Verif.Model.Arith

/-!
# The numeric parser (src/parser.rs)

`IResult::Done(rest, v)` is `some (rest, v)`; `IResult::Err(RESULT_OUT_OF_RANGE)`, the only error
it produces, is `none`.
-/

namespace Verif.Parser

/-- src/parser.rs 11-29 `sign`. -/
def sign (input : List Byte) : List Byte × Cell :=
  match input with
  | [] => ([], 1)
  | b :: bs =>
    if b = 43 then (bs, 1)          -- b'+'
    else if b = 45 then (bs, -1)    -- b'-'
    else (b :: bs, 1)

/-- src/parser.rs 31-54 `base`. -/
def base (input : List Byte) (default : Cell) : List Byte × Cell :=
  match input with
  | [] => ([], default)
  | b :: bs =>
    if b = 37 then (bs, 2)          -- b'%'
    else if b = 35 then (bs, 10)    -- b'#'
    else if b = 36 then (bs, 16)    -- b'$'
    else (b :: bs, default)

/-- The digit value computed in src/parser.rs 62-70. -/
def digit (c : Byte) : Option Nat :=
  if 48 ≤ c.toNat ∧ c.toNat ≤ 57 then some (c.toNat - 48)
  else if 97 ≤ c.toNat ∧ c.toNat ≤ 102 then some (c.toNat - 97 + 10)
  else if 65 ≤ c.toNat ∧ c.toNat ≤ 70 then some (c.toNat - 65 + 10)
  else none

/-- src/parser.rs 56-80 `uint_in_base`: the loop, carrying `value`. All input is consumed or the
result is an error, so no rest is returned. -/
def uintInBase (base : Cell) : List Byte → Cell → Option Cell
  | [], value => some value
  | c :: cs, value =>
    match digit c with
    | none => none
    | some d =>
      if base.toInt ≤ (d : Int) then none
      else uintInBase base cs (value * base + BitVec.ofNat 64 d)

/-- Whether a byte is `b'0'..=b'9'`. -/
def isDecimal (c : Byte) : Bool := decide (48 ≤ c.toNat ∧ c.toNat ≤ 57)

/-- src/parser.rs 82-105 `uint`: leading decimal digits, `checked_mul`/`checked_add` on `isize`
(the accumulated value is never negative). -/
def uint : List Byte → Nat → Option (List Byte × Nat)
  | [], value => some ([], value)
  | c :: cs, value =>
    if isDecimal c then
      let v := value * 10 + (c.toNat - 48)
      if v ≤ 9223372036854775807 then uint cs v else none
    else some (c :: cs, value)

/-- src/parser.rs 108-114 `quoted_char`. -/
def quotedChar (input : List Byte) : Option Cell :=
  match input with
  | [a, b, c] => if a = 39 ∧ c = 39 then some (b.setWidth 64) else none
  | _ => none

/-- src/parser.rs 116-122 `ascii`. -/
def ascii (input : List Byte) (x : Byte) : List Byte × Bool :=
  match input with
  | [] => ([], false)
  | b :: bs => if b = x then (bs, true) else (b :: bs, false)

/-- The digit loop of src/parser.rs 130-144, also counting digits. -/
def fractionLoop : List Byte → Nat → Nat → Option (List Byte × Nat × Nat)
  | [], value, len => some ([], value, len)
  | c :: cs, value, len =>
    if isDecimal c then
      let v := value * 10 + (c.toNat - 48)
      if v ≤ 9223372036854775807 then fractionLoop cs v (len + 1) else none
    else some (c :: cs, value, len)

/-- src/parser.rs 124-149 `fraction`: `value as f64 / 10f64.powi(len)`. -/
def fraction (f : FloatOps) (input : List Byte) : Option (List Byte × F64) :=
  match input with
  | [] => some ([], 0)
  | b :: bs =>
    if b = 46 then
      match fractionLoop bs 0 0 with
      | none => none
      | some (rest, value, len) => some (rest, f.div (f.ofInt value) (f.pow10 len))
    else some (b :: bs, 0)

end Verif.Parser
