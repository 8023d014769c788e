/-!
# Basic vocabulary of the model

Machine words, bytes, faults and build parameters.
-/

namespace Verif

/-- A 64-bit cell: Rust `isize`/`usize` on the modelled platform (`size_of::<isize>() = 8`,
used throughout src/core.rs, e.g. lines 804, 866). -/
abbrev Cell := BitVec 64

/-- A byte: Rust `u8`. -/
abbrev Byte := BitVec 8

/-- The bit pattern of a Rust `f64` (src/core.rs `Stack<f64>`). -/
abbrev F64 := BitVec 64

/-- Why a native call did not return normally.
`panic`: index out of bounds, failed `unwrap`/`expect`, explicit `panic!`, checked arithmetic.
`ub`: a raw read or write outside the data space (src/memory.rs 127-219 dereference integers).
`hang`: a native loop that never ends (src/core.rs 3209 `pause`).
`nativeOverflow`: native recursion deeper than the host stack (src/core.rs 763/3195).
`outOfFuel`: not a fault of the code: the number of steps given to a loop of the model
(`Verif.Model.Exec`) was not enough to finish. -/
inductive Fault where
  | panic
  | ub
  | hang
  | nativeOverflow
  | outOfFuel
  deriving DecidableEq, Repr

/-- `usize::MAX + 1`. -/
def usizeMod : Nat := 18446744073709551616

/-- Float operations used by src/float.rs, src/units.rs and `evaluate_float`
(src/core.rs 2112). They are parameters: no theorem depends on IEEE behaviour. -/
structure FloatOps where
  add : F64 → F64 → F64
  sub : F64 → F64 → F64
  mul : F64 → F64 → F64
  div : F64 → F64 → F64
  powf : F64 → F64 → F64
  atan2 : F64 → F64 → F64
  min : F64 → F64 → F64
  max : F64 → F64 → F64
  neg : F64 → F64
  abs : F64 → F64
  sin : F64 → F64
  cos : F64 → F64
  tan : F64 → F64
  asin : F64 → F64
  acos : F64 → F64
  atan : F64 → F64
  sqrt : F64 → F64
  floor : F64 → F64
  round : F64 → F64
  ceil : F64 → F64
  lt : F64 → F64 → Bool
  eq : F64 → F64 → Bool
  /-- `x as f64` for `x : isize` -/
  ofInt : Int → F64
  /-- `x as isize` for `x : f64` -/
  toCell : F64 → Cell
  /-- `10f64.powi(n)` for `n : i32` -/
  pow10 : Int → F64
  /-- `format!("{:.n}", x)` -/
  fmt : Nat → F64 → List Byte

/-- What asking the user for a line (rtf/src/main.rs 340-341, `Term::read_line`) comes back with. -/
inductive Answer where
  | line (text : List Char)
  | eof
  | failed

/-- Build and host parameters.
`overflowChecks`: whether plain `+ - *` panic on overflow (debug builds) or wrap (release).
`fops`: float arithmetic. `ioFails k`: whether the `k`-th host file call fails for a reason
outside the program (disk error, permission). `answers k`: what the user answers when the `k`-th
host call asks for a line; the program rtf only. -/
structure Cfg where
  overflowChecks : Bool
  fops : FloatOps
  ioFails : Nat → Bool
  answers : Nat → Answer

/-- UTF-8 bytes of a character: how Rust `String` stores it. -/
def utf8Char (c : Char) : List Byte := (String.utf8EncodeChar c).map UInt8.toBitVec

/-- UTF-8 bytes of a text (`str::as_bytes`). -/
def utf8 (cs : List Char) : List Byte := cs.flatMap utf8Char

/-- `str::len`: length in bytes. -/
def byteLen : List Char → Nat
  | [] => 0
  | c :: cs => c.utf8Size + byteLen cs

/-- `str` slicing at a byte offset: `&s[..n]` and `&s[n..]`; `none` when `n` is beyond the end or
not on a character boundary, where Rust panics. -/
def splitAtByte : List Char → Nat → Option (List Char × List Char)
  | cs, 0 => some ([], cs)
  | [], _ + 1 => none
  | c :: cs, n + 1 =>
    if c.utf8Size ≤ n + 1 then
      match splitAtByte cs (n + 1 - c.utf8Size) with
      | some (a, b) => some (c :: a, b)
      | none => none
    else none

/-- `&s[from..to]`; `none` where Rust panics. -/
def sliceBytes (s : List Char) (a b : Nat) : Option (List Char) :=
  if b < a then none else
  match splitAtByte s b with
  | none => none
  | some (p, _) =>
    match splitAtByte p a with
    | none => none
    | some (_, r) => some r

/-- `u8::to_ascii_lowercase`. -/
def lowerByte (b : Byte) : Byte :=
  if 65 ≤ b.toNat ∧ b.toNat ≤ 90 then b + 32 else b

/-- `char::to_ascii_lowercase`, which `str::to_ascii_lowercase` applies to every character. -/
def lowerChar (c : Char) : Char :=
  if 65 ≤ c.toNat ∧ c.toNat ≤ 90 then Char.ofNat (c.toNat + 32) else c

/-- `str::eq_ignore_ascii_case` (used in src/core.rs 785). -/
def eqIgnoreCase (a b : List Byte) : Bool := a.map lowerByte == b.map lowerByte

/-- An ASCII literal in the Rust source as text. -/
def chars (s : String) : List Char := s.toList

/-- An ASCII literal in the Rust source as bytes. -/
def ascii (s : String) : List Byte := utf8 s.toList

end Verif
