import Verif.Spec.Balance

/-!
# Literals
-/

namespace Verif.Spec
open Verif

/-- Numbers, floats and strings. -/
def Item.IsLiteral : Item → Prop
  | .lit _ => True
  | .flt _ => True
  | .str _ => True
  | _ => False

/-- `Gives d items l f l' f'`: evaluating the literals on the data stack `l` and the float stack `f` leaves `l'` and `f'`.
A string is given as an address and a length; at the address the memory `d` holds its bytes. -/
inductive Gives (d : DataSpace) : List Item → List Cell → List F64 → List Cell → List F64 → Prop
  | done {l : List Cell} {f : List F64} : Gives d [] l f l f
  | lit {v : Cell} {items : List Item} {l l' : List Cell} {f f' : List F64} : Gives d items (v :: l) f l' f' →
      Gives d (.lit v :: items) l f l' f'
  | flt {v : F64} {items : List Item} {l l' : List Cell} {f f' : List F64} : Gives d items l (v :: f) l' f' →
      Gives d (.flt v :: items) l f l' f'
  | str {a : Nat} {bs : List Byte} {items : List Item} {l l' : List Cell} {f f' : List F64} :
      d.bytesAt a bs.length = bs → d.start ≤ a → a + bs.length ≤ d.limit →
      Gives d items (BitVec.ofNat 64 bs.length :: BitVec.ofNat 64 a :: l) f l' f' →
      Gives d (.str bs :: items) l f l' f'

/-- How many cells the literals push. -/
def cellsOf : List Item → Nat
  | [] => 0
  | .lit _ :: l => cellsOf l + 1
  | .str _ :: l => cellsOf l + 2
  | _ :: l => cellsOf l

/-- How many floats the literals push. -/
def floatsOf : List Item → Nat
  | [] => 0
  | .flt _ :: l => floatsOf l + 1
  | _ :: l => floatsOf l

end Verif.Spec
