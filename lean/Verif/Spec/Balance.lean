import Verif.Spec.Layout

/-!
# Which sequences of control words are nested properly
-/

namespace Verif.Spec
open Verif

/-- The control words. -/
def controlWords : List CorePrim :=
  [.immIf, .immElse, .immThen, .immBegin, .immUntil, .immAgain, .immWhile, .immRepeat, .immDo, .immQdo, .immLoop,
   .immPlusLoop, .immCase, .immOf, .immEndof, .immEndcase]

/-- The items of a body that are dealt with here. `lv` is the number of `LEAVE`. -/
def Item.Ordinary (wl : Wordlist) (lv : Nat) : Item → Prop
  | .word i => i = lv ∨ Plain wl i
  | .imm p => p ∈ controlWords
  | _ => True

/-- The items are those of a structured program, with every `LEAVE` in a counted loop. -/
def Nested (R : Refs) (lv : Nat) (items : List Item) : Prop :=
  ∃ p : Stmt, p.items R lv = items ∧ p.leavesOk false = true ∧ lv ∉ p.calls

/-- What is open: a structure that waits for its next control word. -/
inductive Mark where
  | if_ | else_ | begin_ | while_ | do_ | case_ | of_ | endof
  deriving DecidableEq

/-- `ENDCASE` ends the arms and the `CASE`. -/
def closeCase : List Mark → Option (List Mark)
  | .endof :: K => closeCase K
  | .case_ :: K => some K
  | _ => none

/-- What is open after a control word, if it may come. -/
def openAfter : CorePrim → List Mark → Option (List Mark)
  | .immIf => fun K => some (.if_ :: K)
  | .immElse => fun
    | .if_ :: K => some (.else_ :: K)
    | _ => none
  | .immThen => fun
    | .if_ :: K => some K
    | .else_ :: K => some K
    | _ => none
  | .immBegin => fun K => some (.begin_ :: K)
  | .immUntil => fun
    | .begin_ :: K => some K
    | _ => none
  | .immAgain => fun
    | .begin_ :: K => some K
    | _ => none
  | .immWhile => fun K => some (.while_ :: K)
  | .immRepeat => fun
    | .while_ :: .begin_ :: K => some K
    | _ => none
  | .immDo => fun K => some (.do_ :: K)
  | .immQdo => fun K => some (.do_ :: K)
  | .immLoop => fun
    | .do_ :: K => some K
    | _ => none
  | .immPlusLoop => fun
    | .do_ :: K => some K
    | _ => none
  | .immCase => fun K => some (.case_ :: K)
  | .immOf => fun
    | .case_ :: K => some (.of_ :: .case_ :: K)
    | .endof :: K => some (.of_ :: .endof :: K)
    | _ => none
  | .immEndof => fun
    | .of_ :: K => some (.endof :: K)
    | _ => none
  | .immEndcase => closeCase
  | _ => fun _ => none

/-- What is open after an item, if it may come. -/
def openItem (lv : Nat) : Item → List Mark → Option (List Mark)
  | .imm p, K => openAfter p K
  | .word i, K => if i = lv then if .do_ ∈ K then some K else none else some K
  | _, K => some K

/-- What is open after the items, if they may come in this order. -/
def openItems (lv : Nat) : List Item → List Mark → Option (List Mark)
  | [], K => some K
  | it :: l, K => (openItem lv it K).bind (openItems lv l)

/-- Never more than 64 structures are open. -/
def Shallow (lv : Nat) (items : List Item) : Prop :=
  ∀ l K, l <+: items → openItems lv l [] = some K → K.length ≤ 64

/-- A bound for the room an item takes in memory. -/
def Item.room : Item → Nat
  | .str bs => bs.length + 24
  | _ => 40

/-- A bound for the room of several items. -/
def itemsRoom (items : List Item) : Nat := (items.map Item.room).sum

end Verif.Spec
