import Verif.Spec.Memory

/-!
# Specification of input text: tokens, delimited text
-/

namespace Verif.Spec
open Verif

/-- The blanks that separate tokens: tab, line feed, carriage return, space. -/
def Blank (ch : Char) : Prop := ch = '\t' ∨ ch = '\n' ∨ ch = '\r' ∨ ch = ' '

instance (ch : Char) : Decidable (Blank ch) := by unfold Blank; infer_instance

/-- A text ends here or goes on with a blank. -/
def EndsToken (rest : List Char) : Prop := ∀ ch cs, rest = ch :: cs → Blank ch

/-- The tokens of a text: the maximal runs of non-blank characters, in order. -/
inductive Tokens : List Char → List (List Char) → Prop where
  | blank {bs : List Char} : (∀ ch ∈ bs, Blank ch) → Tokens bs []
  | word {bs t rest : List Char} {ts : List (List Char)} :
      (∀ ch ∈ bs, Blank ch) → t ≠ [] → (∀ ch ∈ t, ¬ Blank ch) → EndsToken rest → Tokens rest ts →
      Tokens (bs ++ (t ++ rest)) (t :: ts)

/-- The task reads from a text of which `pre` has been read and `rest` has not: the position is the
byte length of `pre`. -/
structure Reading (t : Task) (pre rest : List Char) : Prop where
  buffer : inputBuffer t = .ok (some (pre ++ rest))
  position : t.st.sourceIndex = byteLen pre
  /-- A Rust string is not longer than `isize::MAX` bytes. -/
  bounded : byteLen (pre ++ rest) < 2 ^ 63

/-- Same task, at another input position. -/
def atPosition (t : Task) (n : Nat) : Task := { t with st := { t.st with sourceIndex := n } }

/-- Call `parse-word` `n` times and collect the tokens. -/
def readTokens : Nat → M (List (List Char))
  | 0 => pure []
  | n + 1 => do
    parseWord
    let s ← getVM
    let ts ← readTokens n
    pure (s.tkn.getD [] :: ts)

/-- `rest` is `taken`, then the delimiter with code `v` (if `found`), then `after`; `taken` does not
contain the delimiter, and without one nothing is left. -/
structure Delimited (v : Cell) (rest taken after : List Char) (found : Bool) : Prop where
  none_in : ∀ ch ∈ taken, BitVec.ofNat 64 ch.toNat ≠ v
  shape : if found then ∃ d : Char, BitVec.ofNat 64 d.toNat = v ∧ rest = taken ++ d :: after
    else rest = taken ∧ after = []

end Verif.Spec
