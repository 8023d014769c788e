import Verif.Spec.Rtf
import Verif.Spec.Numbers
import Verif.Spec.Text

/-!
# What the user types and what the program rtf answers

The lines considered here make the program a calculator: they hold integers, words that work on the data stack, and words that
print (`.`, `.r`, `emit`, `space`, `spaces` and `cr`), and may come to an error.
-/

namespace Verif.Spec
open Verif

/-- The token is not the name of a word of the program, in upper or lower case. -/
def NoWord (tok : List Char) : Prop := ∀ n, n ∈ rtfWords → ¬SameName (utf8 tok) (ascii n)

/-- What divisions do. Quotients are rounded toward zero. -/
def divisions : List (String × (Int → Int → Int)) := [("/", Int.tdiv), ("mod", Int.tmod)]

/-- A token takes the data stack from `l` to `l'` and prints `out`. -/
inductive Calculates (tok : List Char) : List Cell → List Cell → List Byte → Prop
  | integer {v : Cell} {l : List Cell} : NoWord tok → IntegerToken 10 (utf8 tok) v → Calculates tok l (v :: l) []
  | word {name : String} {e : Effect} {l l' : List Cell} : (name, e) ∈ effects → SameName (utf8 tok) (ascii name) → e l = some l' →
      Calculates tok l l' []
  | library {name : String} {k : Nat} {e : Effect} {l l' : List Cell} : (name, k, e) ∈ libraryEffects →
      SameName (utf8 tok) (ascii name) → e l = some l' → Calculates tok l l' []
  | divide {name : String} {f : Int → Int → Int} {a b : Cell} {l : List Cell} : (name, f) ∈ divisions →
      SameName (utf8 tok) (ascii name) → b ≠ 0 → Calculates tok (b :: a :: l) (wrap (f a.toInt b.toInt) :: l) []
  | dot {v : Cell} {l : List Cell} : SameName (utf8 tok) (ascii ".") → Calculates tok (v :: l) l (ascii (toString v.toInt) ++ [32])
  /-- A number to the right of a field of `w` characters. -/
  | dotR {v w : Cell} {l : List Cell} {txt : List Byte} : SameName (utf8 tok) (ascii ".r") → -2 ^ 62 ≤ w.toInt → txt = ascii (toString v.toInt) →
      Calculates tok (w :: v :: l) l (List.replicate (w.toInt - txt.length).toNat 32 ++ txt)
  /-- The character whose code is the lowest byte of the cell. -/
  | emit {v : Cell} {l : List Cell} : SameName (utf8 tok) (ascii "emit") → Calculates tok (v :: l) l (utf8Char (Char.ofNat (v.toNat % 256)))
  | space {l : List Cell} : SameName (utf8 tok) (ascii "space") → Calculates tok l l [32]
  | spaces {v : Cell} {l : List Cell} : SameName (utf8 tok) (ascii "spaces") → Calculates tok (v :: l) l (List.replicate v.toInt.toNat 32)
  | cr {l : List Cell} : SameName (utf8 tok) (ascii "cr") → Calculates tok l l [10]

/-- Tokens, one after the other. There are always four free places on the data stack. -/
inductive Calculation : List (List Char) → List Cell → List Cell → List Byte → Prop
  | nil {l : List Cell} : l.length + 4 ≤ capacity → Calculation [] l l []
  | cons {tok : List Char} {toks : List (List Char)} {l l1 l' : List Cell} {a b : List Byte} : l.length + 4 ≤ capacity →
      Calculates tok l l1 a → Calculation toks l1 l' b → Calculation (tok :: toks) l l' (a ++ b)

/-- A token is an error when `l` is on the data stack. What is told about it is `why`, nothing after `abort`. -/
inductive Trouble (fops : FloatOps) (tok : List Char) (l : List Cell) : Option (List Byte) → Prop
  | unknown : NoWord tok → (∀ v, ¬IntegerToken 10 (utf8 tok) v) → (∀ v, ¬FloatToken fops (utf8 tok) v) →
      Trouble fops tok l (some (ascii "Undefined word"))
  | compileOnly {name : String} : name ∈ compileOnlyWords → SameName (utf8 tok) (ascii name) →
      Trouble fops tok l (some (ascii "Interpreting a compile only word"))
  | divide {name : String} {f : Int → Int → Int} {a : Cell} {l1 : List Cell} : (name, f) ∈ divisions →
      SameName (utf8 tok) (ascii name) → l = 0 :: a :: l1 → Trouble fops tok l (some (ascii "Division by zero"))
  | abort : SameName (utf8 tok) (ascii "abort") → Trouble fops tok l none

/-- A message about an error at token `tok`, with a backtrace. -/
def complaint (tok : List Char) (why trace : List Byte) : List Byte :=
  utf8 tok ++ ascii " " ++ why ++ ascii ", backtrace: " ++ trace ++ [13, 10]

/-- The answer to a line of text, which takes the data stack from `l` to `l'`. After an error the rest of the line is not
evaluated, and the data stack is empty. The answer then has a backtrace in it, on which it depends. -/
inductive Answers (fops : FloatOps) (text : List Char) (l : List Cell) : List Cell → (List Byte → List Byte) → Prop
  | ok {toks : List (List Char)} {l' : List Cell} {a : List Byte} : Tokens text toks → Calculation toks l l' a →
      Answers fops text l l' fun _ => ascii " " ++ a ++ ascii " ok" ++ [13, 10]
  | error {toks more : List (List Char)} {tok : List Char} {l' : List Cell} {a why : List Byte} :
      Tokens text (toks ++ tok :: more) → Calculation toks l l' a → Trouble fops tok l' (some why) →
      Answers fops text l [] fun trace => ascii " " ++ a ++ complaint tok why trace
  | abort {toks more : List (List Char)} {tok : List Char} {l' : List Cell} {a : List Byte} :
      Tokens text (toks ++ tok :: more) → Calculation toks l l' a → Trouble fops tok l' none →
      Answers fops text l [] fun _ => ascii " " ++ a ++ [10]

/-- What flushing prints. -/
def lineOf (o : List Byte) : List Byte := if o = [] then [] else o ++ [10]

/-- What is printed when lines are typed one after the other, and then the input ends. At first `l` is on the data stack, and
`o` was printed but not flushed. A line is not longer than a Rust string can be. What is printed depends on the backtraces
in the answers. -/
inductive Dialogue (fops : FloatOps) : List Cell → List Byte → List (List Char) → ((Nat → List Byte) → List Byte) → Prop
  | done {l : List Cell} {o : List Byte} : Dialogue fops l o [] fun _ => lineOf o
  | line {l l' : List Cell} {o : List Byte} {a : List Byte → List Byte} {out : (Nat → List Byte) → List Byte} {text : List Char}
      {texts : List (List Char)} : byteLen text < 2 ^ 63 → Answers fops text l l' a → Dialogue fops l' [] texts out →
      Dialogue fops l o (text :: texts) fun traces => o ++ a (traces 0) ++ out fun i => traces (i + 1)

/-- What the program prints if the text of its arguments is `text`, and then lines are typed. It does not answer to the
arguments unless they come to an error. -/
inductive Conversation (fops : FloatOps) (text : List Char) (texts : List (List Char)) : ((Nat → List Byte) → List Byte) → Prop
  | ok {toks : List (List Char)} {l : List Cell} {a : List Byte} {out : (Nat → List Byte) → List Byte} : Tokens text toks →
      Calculation toks [] l a → Dialogue fops l a texts out → Conversation fops text texts out
  | error {toks more : List (List Char)} {tok : List Char} {l : List Cell} {a why : List Byte} {out : (Nat → List Byte) → List Byte} :
      Tokens text (toks ++ tok :: more) → Calculation toks [] l a → Trouble fops tok l (some why) → Dialogue fops [] [] texts out →
      Conversation fops text texts fun traces => a ++ complaint tok why (traces 0) ++ out fun i => traces (i + 1)
  | abort {toks more : List (List Char)} {tok : List Char} {l : List Cell} {a : List Byte} {out : (Nat → List Byte) → List Byte} :
      Tokens text (toks ++ tok :: more) → Calculation toks [] l a → Trouble fops tok l none → Dialogue fops [] [] texts out →
      Conversation fops text texts fun traces => lineOf a ++ out traces

/-- The user types these lines, and then the input ends. -/
def Types (cfg : Cfg) (k : Nat) (texts : List (List Char)) : Prop :=
  (∀ (i : Nat) t, texts[i]? = some t → cfg.answers (k + i) = .line t) ∧ cfg.answers (k + texts.length) = .eof

end Verif.Spec
