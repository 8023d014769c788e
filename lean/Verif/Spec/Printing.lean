import Verif.Spec.Dictionary
import Verif.Spec.Numbers
import Verif.Spec.Files

/-!
# Specification of what is printed

The output buffer collects text until it is sent to the standard output, followed by a newline, or to
the standard error stream.
-/

namespace Verif.Spec
open Verif

/-- What has been written so far to the standard output, and what is still in the buffer. -/
def outText (s : VM) : List Byte := s.stdout ++ s.outbuf.getD []

/-- How often a byte is in the two streams and the buffer. -/
def written (b : Byte) (s : VM) : Nat :=
  s.stdout.count b + s.stderr.count b + (s.outbuf.getD []).count b

/-- Only the buffer differs: `x` is added to it. -/
def Prints (x : List Byte) (s t : VM) : Prop := t = { s with outbuf := s.outbuf.map (· ++ x) }

/-- `txt` consists of tokens, each followed by a blank, the tokens being the decimal texts of the given
numbers. -/
inductive Listing : List Cell → List Byte → Prop where
  | nil : Listing [] []
  | cons {v : Cell} {l : List Cell} {tok txt : List Byte} :
      IntegerToken 10 tok v → tok ≠ [] → (∀ b ∈ tok, 33 ≤ b.toNat ∧ b.toNat < 127) → Listing l txt →
      Listing (v :: l) (tok ++ 32 :: txt)

/-- The names of the visible words, newest first, without word 0. -/
def shownNames (s : VM) : List (List Byte) :=
  ((s.wl.words.drop 1).reverse.filter fun w => !w.hidden).map (nameIn s.ds)

end Verif.Spec
