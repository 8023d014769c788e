import Verif.Spec.Memory

/-!
# Specification of number tokens

Written as grammars over bytes, without reference to the parser.
-/

namespace Verif.Spec
open Verif

/-- The digits, lower and upper case; the place in the text is the value of the digit. -/
def lowerDigits : List Byte := Verif.ascii "0123456789abcdef"
def upperDigits : List Byte := Verif.ascii "0123456789ABCDEF"

/-- Byte `b` is a digit of value `d`. -/
def IsDigit (b : Byte) (d : Nat) : Prop := lowerDigits[d]? = some b ∨ upperDigits[d]? = some b

/-- Place value of a digit string, most significant first. -/
def placeValue (base : Int) : List Nat → Int
  | [] => 0
  | d :: ds => d * base ^ ds.length + placeValue base ds

/-- `bs` is the digit string with values `ds`. -/
inductive DigitString : List Byte → List Nat → Prop where
  | nil : DigitString [] []
  | cons {b d bs ds} : IsDigit b d → DigitString bs ds → DigitString (b :: bs) (d :: ds)

/-- An optional base prefix. -/
inductive BasePrefix (default : Int) : List Byte → Int → Prop where
  | none : BasePrefix default [] default
  | binary : BasePrefix default [37] 2        -- %
  | decimal : BasePrefix default [35] 10      -- #
  | hex : BasePrefix default [36] 16          -- $

/-- An optional sign. -/
inductive SignPrefix : List Byte → Int → Prop where
  | none : SignPrefix [] 1
  | plus : SignPrefix [43] 1
  | minus : SignPrefix [45] (-1)

/-- An integer token and its value: a character between quotes, or base prefix, sign and digits below
the base. -/
inductive IntegerToken (default : Int) : List Byte → Cell → Prop where
  | quoted (b : Byte) : IntegerToken default [39, b, 39] (BitVec.ofNat 64 b.toNat)
  | digits {pre sg bs : List Byte} {base sign : Int} {ds : List Nat} :
      BasePrefix default pre base → SignPrefix sg sign → DigitString bs ds →
      (∀ d ∈ ds, (d : Int) < base) →
      IntegerToken default (pre ++ sg ++ bs) (wrap (sign * placeValue base ds))

/-- Decimal digit strings. -/
def DecimalString (bs : List Byte) (ds : List Nat) : Prop := DigitString bs ds ∧ ∀ d ∈ ds, d < 10

/-- An optional fraction: its float value. -/
inductive FractionPart (f : FloatOps) : List Byte → F64 → Prop where
  | none : FractionPart f [] 0
  | some {bs : List Byte} {ds : List Nat} : DecimalString bs ds → placeValue 10 ds < 2 ^ 63 →
      FractionPart f (46 :: bs) (f.div (f.ofInt (placeValue 10 ds)) (f.pow10 ds.length))

/-- A floating point token and its value. Integer part, fraction and exponent digits must each be
less than 2^63; the exponent is then reduced to 32 bits. -/
inductive FloatToken (f : FloatOps) : List Byte → F64 → Prop where
  | mk {sg ip fr esg ebs : List Byte} {e : Byte} {sign esign : Int} {ids eds : List Nat} {fv : F64} :
      SignPrefix sg sign → DecimalString ip ids → ids ≠ [] → placeValue 10 ids < 2 ^ 63 →
      FractionPart f fr fv → e = 69 ∨ e = 101 → SignPrefix esg esign → DecimalString ebs eds →
      placeValue 10 eds < 2 ^ 63 →
      FloatToken f (sg ++ ip ++ fr ++ [e] ++ esg ++ ebs)
        (f.mul (f.mul (f.ofInt sign) (f.add (f.ofInt (placeValue 10 ids)) fv))
          (f.pow10 (BitVec.ofInt 32 (esign * placeValue 10 eds)).toInt))

end Verif.Spec
