import Verif.Spec.Dialogue

/-!
# Definitions typed at the prompt of the program rtf

A user of the program can define words, `: name ... ;`, out of integers, words of the calculator, words defined before,
`if`, `else`, `then`, `begin`, `until`, `while`, `repeat`, `do`, `?do`, `loop`, `+loop`, `i`, `j`, `leave`, `unloop`, `exit` and
`recurse`, and can then use them. A word can be defined again, and a word of the program too.
-/

namespace Verif.Spec
open Verif

/-- The body of a definition. -/
inductive Recipe where
  | skip
  | token (t : List Char)
  | seq (p q : Recipe)
  | ifThen (p : Recipe)
  | ifElse (p q : Recipe)
  | untilLoop (p : Recipe)
  /-- `begin`, `p` and `again`: a loop without an end -/
  | againLoop (p : Recipe)
  | whileLoop (p q : Recipe)
  /-- `do` or (`ask`) `?do`, `p`, and `loop` or (`plus`) `+loop` -/
  | counted (ask plus : Bool) (p : Recipe)
  /-- `i` -/
  | index
  /-- `j` -/
  | outer
  | leave
  /-- `exit` out of `n` loops: `unloop` is written `n` times before it -/
  | exit (n : Nat)
  | recurse

/-- The token is this name, in upper or lower case. -/
def Called (tok : List Char) (name : String) : Prop := SameName (utf8 tok) (ascii name)

/-- The tokens by which a body is typed. -/
inductive Spelt : Recipe → List (List Char) → Prop
  | skip : Spelt .skip []
  | token {t : List Char} : Spelt (.token t) [t]
  | seq {p q : Recipe} {a b : List (List Char)} : Spelt p a → Spelt q b → Spelt (.seq p q) (a ++ b)
  | ifThen {p : Recipe} {a : List (List Char)} {x y : List Char} : Called x "if" → Spelt p a → Called y "then" →
      Spelt (.ifThen p) (x :: a ++ [y])
  | ifElse {p q : Recipe} {a b : List (List Char)} {x y z : List Char} : Called x "if" → Spelt p a → Called y "else" → Spelt q b →
      Called z "then" → Spelt (.ifElse p q) (x :: a ++ y :: b ++ [z])
  | untilLoop {p : Recipe} {a : List (List Char)} {x y : List Char} : Called x "begin" → Spelt p a → Called y "until" →
      Spelt (.untilLoop p) (x :: a ++ [y])
  | againLoop {p : Recipe} {a : List (List Char)} {x y : List Char} : Called x "begin" → Spelt p a → Called y "again" →
      Spelt (.againLoop p) (x :: a ++ [y])
  | whileLoop {p q : Recipe} {a b : List (List Char)} {x y z : List Char} : Called x "begin" → Spelt p a → Called y "while" →
      Spelt q b → Called z "repeat" → Spelt (.whileLoop p q) (x :: a ++ y :: b ++ [z])
  | counted {ask plus : Bool} {p : Recipe} {a : List (List Char)} {x y : List Char} : Called x (if ask then "?do" else "do") → Spelt p a →
      Called y (if plus then "+loop" else "loop") → Spelt (.counted ask plus p) (x :: a ++ [y])
  | index {x : List Char} : Called x "i" → Spelt .index [x]
  | outer {x : List Char} : Called x "j" → Spelt .outer [x]
  | leave {x : List Char} : Called x "leave" → Spelt .leave [x]
  | exit {x : List Char} : Called x "exit" → Spelt (.exit 0) [x]
  | unloop {n : Nat} {a : List (List Char)} {x : List Char} : Called x "unloop" → Spelt (.exit n) a → Spelt (.exit (n + 1)) (x :: a)
  | recurse {x : List Char} : Called x "recurse" → Spelt .recurse [x]

/-- The words that the user defined, the newest first. -/
abbrev Vocabulary := List (List Char × Recipe)

/-- The user did not define a word of this name, in upper or lower case. -/
def Unused (V : Vocabulary) (tok : List Char) : Prop := ∀ e, e ∈ V → ¬SameName (utf8 tok) (utf8 e.1)

/-- A token may be in a definition: it is an integer, a word of the calculator, or a word the user defined. -/
inductive Known (V : Vocabulary) (tok : List Char) : Prop
  | integer {v : Cell} : NoWord tok → Unused V tok → IntegerToken 10 (utf8 tok) v → Known V tok
  | word {name : String} : name ∈ calcWords → Called tok name → Unused V tok → Known V tok
  | user {e : List Char × Recipe} : e ∈ V → SameName (utf8 tok) (utf8 e.1) → Known V tok

/-- All tokens of a body may be in a definition, and `leave` is in a loop; `b` says whether there is a loop around the body. -/
def Recipe.Known (V : Vocabulary) : Bool → Recipe → Prop
  | _, .token t => Spec.Known V t
  | b, .seq p q => p.Known V b ∧ q.Known V b
  | b, .ifThen p => p.Known V b
  | b, .ifElse p q => p.Known V b ∧ q.Known V b
  | b, .untilLoop p => p.Known V b
  | b, .againLoop p => p.Known V b
  | b, .whileLoop p q => p.Known V b ∧ q.Known V b
  | _, .counted _ _ p => p.Known V true
  | b, .leave => b = true
  | _, _ => True

/-- How deeply structures are nested. `while` counts twice for what comes after it. -/
def Recipe.height : Recipe → Nat
  | .seq p q => max p.height q.height
  | .ifThen p => p.height + 1
  | .ifElse p q => max p.height q.height + 1
  | .untilLoop p => p.height + 1
  | .againLoop p => p.height + 1
  | .whileLoop p q => max (p.height + 1) (q.height + 2)
  | .counted _ _ p => p.height + 1
  | _ => 0

/-- How many bytes of memory a definition may take: its name with a count and padding, two cells for each token of its body
and a cell for its end. -/
def cost (name : List Char) (body : List (List Char)) : Nat := 8 + (utf8 name).length + 7 + 16 * body.length + 8

/-- What is evaluated: a body, or a counted loop that has been entered and has come to the index `idx`. -/
inductive Chore where
  | body (p : Recipe)
  | turn (plus : Bool) (p : Recipe) (lim idx : Cell)

/-- What tokens in a body mean, and how much room there is: the words that the user has defined, newest first, when the body is
typed; the body itself, if it is one; and the number of places on the return stack that calls and loops may take, one for
each call of a word that the user defined and three for each loop. -/
structure Scope where
  words : Vocabulary
  self : Option Recipe
  room : Nat

/-- A body takes the data stack from `l` to `l'` and prints `out`. The list has the limits and the indices of the loops of the
definition that the body is in, the innermost first. There are always four free places on the data stack. The body ends
normally, or with `exit`, or with `leave`. -/
inductive Runs : Scope → List (Cell × Cell) → Chore → List Cell → Out → List Cell → List Byte → Prop
  | skip {S : Scope} {c : List (Cell × Cell)} {l : List Cell} : Runs S c (.body .skip) l .normal l []
  /-- A token that is not defined by the user works as at the prompt. -/
  | basic {V : Vocabulary} {g : Option Recipe} {d : Nat} {c : List (Cell × Cell)} {t : List Char} {l l' : List Cell} {out : List Byte} :
      Unused V t → l.length + 4 ≤ capacity → l'.length + 4 ≤ capacity → Calculates t l l' out → Runs ⟨V, g, d⟩ c (.body (.token t)) l .normal l' out
  /-- A token that the user defined does what its body does. The words in the body mean what they meant when it was
  defined. -/
  | call {newer older : Vocabulary} {g : Option Recipe} {d : Nat} {c : List (Cell × Cell)} {t name : List Char} {p : Recipe} {e : Out}
      {l l' : List Cell} {out : List Byte} : Unused newer t → SameName (utf8 t) (utf8 name) → l.length + 4 ≤ capacity → l'.length + 4 ≤ capacity →
      Runs ⟨older, some p, d⟩ [] (.body p) l e l' out → e = .normal ∨ e = .exit →
      Runs ⟨newer ++ (name, p) :: older, g, d + 1⟩ c (.body (.token t)) l .normal l' out
  /-- `recurse` does what the body that it is in does. -/
  | recurse {V : Vocabulary} {p : Recipe} {d : Nat} {c : List (Cell × Cell)} {e : Out} {l l' : List Cell} {out : List Byte} :
      l.length + 4 ≤ capacity → l'.length + 4 ≤ capacity → Runs ⟨V, some p, d⟩ [] (.body p) l e l' out → e = .normal ∨ e = .exit →
      Runs ⟨V, some p, d + 1⟩ c (.body .recurse) l .normal l' out
  | index {S : Scope} {lim idx : Cell} {c : List (Cell × Cell)} {l : List Cell} : l.length + 5 ≤ capacity →
      Runs S ((lim, idx) :: c) (.body .index) l .normal (idx :: l) []
  | outer {S : Scope} {lim idx : Cell} {x : Cell × Cell} {c : List (Cell × Cell)} {l : List Cell} : l.length + 5 ≤ capacity →
      Runs S (x :: (lim, idx) :: c) (.body .outer) l .normal (idx :: l) []
  | leave {S : Scope} {c : List (Cell × Cell)} {l : List Cell} : Runs S c (.body .leave) l .leave l []
  /-- `exit`, after `unloop` for each loop of the definition. -/
  | exit {S : Scope} {c : List (Cell × Cell)} {l : List Cell} : Runs S c (.body (.exit c.length)) l .exit l []
  | seq {S : Scope} {c : List (Cell × Cell)} {p q : Recipe} {e : Out} {l l1 l' : List Cell} {a b : List Byte} : Runs S c (.body p) l .normal l1 a →
      Runs S c (.body q) l1 e l' b → Runs S c (.body (.seq p q)) l e l' (a ++ b)
  | seqStop {S : Scope} {c : List (Cell × Cell)} {p q : Recipe} {e : Out} {l l' : List Cell} {a : List Byte} : Runs S c (.body p) l e l' a →
      e ≠ .normal → Runs S c (.body (.seq p q)) l e l' a
  | ifTrue {S : Scope} {c : List (Cell × Cell)} {p : Recipe} {e : Out} {f : Cell} {l l' : List Cell} {a : List Byte} : f ≠ 0 →
      Runs S c (.body p) l e l' a → Runs S c (.body (.ifThen p)) (f :: l) e l' a
  | ifFalse {S : Scope} {c : List (Cell × Cell)} {p : Recipe} {l : List Cell} : Runs S c (.body (.ifThen p)) (0 :: l) .normal l []
  | elseTrue {S : Scope} {c : List (Cell × Cell)} {p q : Recipe} {e : Out} {f : Cell} {l l' : List Cell} {a : List Byte} : f ≠ 0 →
      Runs S c (.body p) l e l' a → Runs S c (.body (.ifElse p q)) (f :: l) e l' a
  | elseFalse {S : Scope} {c : List (Cell × Cell)} {p q : Recipe} {e : Out} {l l' : List Cell} {a : List Byte} : Runs S c (.body q) l e l' a →
      Runs S c (.body (.ifElse p q)) (0 :: l) e l' a
  | untilEnd {S : Scope} {c : List (Cell × Cell)} {p : Recipe} {f : Cell} {l l' : List Cell} {a : List Byte} :
      Runs S c (.body p) l .normal (f :: l') a → f ≠ 0 → Runs S c (.body (.untilLoop p)) l .normal l' a
  | untilNext {S : Scope} {c : List (Cell × Cell)} {p : Recipe} {e : Out} {l l1 l' : List Cell} {a b : List Byte} :
      Runs S c (.body p) l .normal (0 :: l1) a → Runs S c (.body (.untilLoop p)) l1 e l' b → Runs S c (.body (.untilLoop p)) l e l' (a ++ b)
  | untilStop {S : Scope} {c : List (Cell × Cell)} {p : Recipe} {e : Out} {l l' : List Cell} {a : List Byte} :
      Runs S c (.body p) l e l' a → e ≠ .normal → Runs S c (.body (.untilLoop p)) l e l' a
  | againNext {S : Scope} {c : List (Cell × Cell)} {p : Recipe} {e : Out} {l l1 l' : List Cell} {a b : List Byte} :
      Runs S c (.body p) l .normal l1 a → Runs S c (.body (.againLoop p)) l1 e l' b → Runs S c (.body (.againLoop p)) l e l' (a ++ b)
  | againStop {S : Scope} {c : List (Cell × Cell)} {p : Recipe} {e : Out} {l l' : List Cell} {a : List Byte} :
      Runs S c (.body p) l e l' a → e ≠ .normal → Runs S c (.body (.againLoop p)) l e l' a
  | whileEnd {S : Scope} {c : List (Cell × Cell)} {p q : Recipe} {l l' : List Cell} {a : List Byte} :
      Runs S c (.body p) l .normal (0 :: l') a → Runs S c (.body (.whileLoop p q)) l .normal l' a
  | whileNext {S : Scope} {c : List (Cell × Cell)} {p q : Recipe} {e : Out} {f : Cell} {l l1 l2 l' : List Cell} {x y z : List Byte} :
      Runs S c (.body p) l .normal (f :: l1) x → f ≠ 0 → Runs S c (.body q) l1 .normal l2 y → Runs S c (.body (.whileLoop p q)) l2 e l' z →
      Runs S c (.body (.whileLoop p q)) l e l' (x ++ y ++ z)
  | whileStop {S : Scope} {c : List (Cell × Cell)} {p q : Recipe} {e : Out} {l l' : List Cell} {a : List Byte} :
      Runs S c (.body p) l e l' a → e ≠ .normal → Runs S c (.body (.whileLoop p q)) l e l' a
  | whileStop2 {S : Scope} {c : List (Cell × Cell)} {p q : Recipe} {e : Out} {f : Cell} {l l1 l' : List Cell} {a b : List Byte} :
      Runs S c (.body p) l .normal (f :: l1) a → f ≠ 0 → Runs S c (.body q) l1 e l' b → e ≠ .normal →
      Runs S c (.body (.whileLoop p q)) l e l' (a ++ b)
  /-- `?do` with limit and start equal does nothing. -/
  | none {S : Scope} {c : List (Cell × Cell)} {plus : Bool} {p : Recipe} {x : Cell} {l : List Cell} :
      Runs S c (.body (.counted true plus p)) (x :: x :: l) .normal l []
  | loop {V : Vocabulary} {g : Option Recipe} {d : Nat} {c : List (Cell × Cell)} {ask plus : Bool} {p : Recipe} {e : Out} {lim start : Cell}
      {l l' : List Cell} {a : List Byte} : (ask = true → start ≠ lim) → Runs ⟨V, g, d⟩ c (.turn plus p lim start) l e l' a →
      Runs ⟨V, g, d + 3⟩ c (.body (.counted ask plus p)) (start :: lim :: l) e l' a
  | loopEnd {S : Scope} {c : List (Cell × Cell)} {p : Recipe} {lim idx : Cell} {l l' : List Cell} {a : List Byte} :
      Runs S ((lim, idx) :: c) (.body p) l .normal l' a → idx + 1 = lim → Runs S c (.turn false p lim idx) l .normal l' a
  | loopNext {S : Scope} {c : List (Cell × Cell)} {p : Recipe} {e : Out} {lim idx : Cell} {l l1 l' : List Cell} {a b : List Byte} :
      Runs S ((lim, idx) :: c) (.body p) l .normal l1 a → idx + 1 ≠ lim → Runs S c (.turn false p lim (idx + 1)) l1 e l' b →
      Runs S c (.turn false p lim idx) l e l' (a ++ b)
  | plusEnd {S : Scope} {c : List (Cell × Cell)} {p : Recipe} {lim idx n : Cell} {l l' : List Cell} {a : List Byte} :
      Runs S ((lim, idx) :: c) (.body p) l .normal (n :: l') a → Crosses lim idx n → Runs S c (.turn true p lim idx) l .normal l' a
  | plusNext {S : Scope} {c : List (Cell × Cell)} {p : Recipe} {e : Out} {lim idx n : Cell} {l l1 l' : List Cell} {a b : List Byte} :
      Runs S ((lim, idx) :: c) (.body p) l .normal (n :: l1) a → ¬Crosses lim idx n → Runs S c (.turn true p lim (idx + n)) l1 e l' b →
      Runs S c (.turn true p lim idx) l e l' (a ++ b)
  | loopLeave {S : Scope} {c : List (Cell × Cell)} {plus : Bool} {p : Recipe} {lim idx : Cell} {l l' : List Cell} {a : List Byte} :
      Runs S ((lim, idx) :: c) (.body p) l .leave l' a → Runs S c (.turn plus p lim idx) l .normal l' a
  | loopExit {S : Scope} {c : List (Cell × Cell)} {plus : Bool} {p : Recipe} {lim idx : Cell} {l l' : List Cell} {a : List Byte} :
      Runs S ((lim, idx) :: c) (.body p) l .exit l' a → Runs S c (.turn plus p lim idx) l .exit l' a

/-- A word is an error when `l` is on the data stack. What is told about it is `why`, nothing after `abort`. -/
inductive Refuses (tok : List Char) (l : List Cell) : Option (List Byte) → Prop
  | divide {name : String} {f : Int → Int → Int} {a : Cell} {l1 : List Cell} : (name, f) ∈ divisions → Called tok name → l = 0 :: a :: l1 →
      Refuses tok l (some (ascii "Division by zero"))
  | abort : Called tok "abort" → Refuses tok l none

/-- A body, started with `l` on the data stack, prints `out` and then comes to an error. -/
inductive Stumbles : Scope → List (Cell × Cell) → Chore → List Cell → List Byte → Option (List Byte) → Prop
  | basic {V : Vocabulary} {g : Option Recipe} {d : Nat} {c : List (Cell × Cell)} {t : List Char} {l : List Cell} {why : Option (List Byte)} :
      Unused V t → l.length + 4 ≤ capacity → Refuses t l why → Stumbles ⟨V, g, d⟩ c (.body (.token t)) l [] why
  | call {newer older : Vocabulary} {g : Option Recipe} {d : Nat} {c : List (Cell × Cell)} {t name : List Char} {p : Recipe} {l : List Cell}
      {out : List Byte} {why : Option (List Byte)} : Unused newer t → SameName (utf8 t) (utf8 name) → l.length + 4 ≤ capacity →
      Stumbles ⟨older, some p, d⟩ [] (.body p) l out why → Stumbles ⟨newer ++ (name, p) :: older, g, d + 1⟩ c (.body (.token t)) l out why
  | recurse {V : Vocabulary} {p : Recipe} {d : Nat} {c : List (Cell × Cell)} {l : List Cell} {out : List Byte} {why : Option (List Byte)} :
      l.length + 4 ≤ capacity → Stumbles ⟨V, some p, d⟩ [] (.body p) l out why → Stumbles ⟨V, some p, d + 1⟩ c (.body .recurse) l out why
  | first {S : Scope} {c : List (Cell × Cell)} {p q : Recipe} {l : List Cell} {a : List Byte} {why : Option (List Byte)} :
      Stumbles S c (.body p) l a why → Stumbles S c (.body (.seq p q)) l a why
  | second {S : Scope} {c : List (Cell × Cell)} {p q : Recipe} {l l1 : List Cell} {a b : List Byte} {why : Option (List Byte)} :
      Runs S c (.body p) l .normal l1 a → Stumbles S c (.body q) l1 b why → Stumbles S c (.body (.seq p q)) l (a ++ b) why
  | ifTrue {S : Scope} {c : List (Cell × Cell)} {p : Recipe} {f : Cell} {l : List Cell} {a : List Byte} {why : Option (List Byte)} : f ≠ 0 →
      Stumbles S c (.body p) l a why → Stumbles S c (.body (.ifThen p)) (f :: l) a why
  | elseTrue {S : Scope} {c : List (Cell × Cell)} {p q : Recipe} {f : Cell} {l : List Cell} {a : List Byte} {why : Option (List Byte)} : f ≠ 0 →
      Stumbles S c (.body p) l a why → Stumbles S c (.body (.ifElse p q)) (f :: l) a why
  | elseFalse {S : Scope} {c : List (Cell × Cell)} {p q : Recipe} {l : List Cell} {a : List Byte} {why : Option (List Byte)} :
      Stumbles S c (.body q) l a why → Stumbles S c (.body (.ifElse p q)) (0 :: l) a why
  | untilBody {S : Scope} {c : List (Cell × Cell)} {p : Recipe} {l : List Cell} {a : List Byte} {why : Option (List Byte)} :
      Stumbles S c (.body p) l a why → Stumbles S c (.body (.untilLoop p)) l a why
  | untilNext {S : Scope} {c : List (Cell × Cell)} {p : Recipe} {l l1 : List Cell} {a b : List Byte} {why : Option (List Byte)} :
      Runs S c (.body p) l .normal (0 :: l1) a → Stumbles S c (.body (.untilLoop p)) l1 b why → Stumbles S c (.body (.untilLoop p)) l (a ++ b) why
  | againBody {S : Scope} {c : List (Cell × Cell)} {p : Recipe} {l : List Cell} {a : List Byte} {why : Option (List Byte)} :
      Stumbles S c (.body p) l a why → Stumbles S c (.body (.againLoop p)) l a why
  | againNext {S : Scope} {c : List (Cell × Cell)} {p : Recipe} {l l1 : List Cell} {a b : List Byte} {why : Option (List Byte)} :
      Runs S c (.body p) l .normal l1 a → Stumbles S c (.body (.againLoop p)) l1 b why → Stumbles S c (.body (.againLoop p)) l (a ++ b) why
  | whileTest {S : Scope} {c : List (Cell × Cell)} {p q : Recipe} {l : List Cell} {a : List Byte} {why : Option (List Byte)} :
      Stumbles S c (.body p) l a why → Stumbles S c (.body (.whileLoop p q)) l a why
  | whileBody {S : Scope} {c : List (Cell × Cell)} {p q : Recipe} {f : Cell} {l l1 : List Cell} {a b : List Byte} {why : Option (List Byte)} :
      Runs S c (.body p) l .normal (f :: l1) a → f ≠ 0 → Stumbles S c (.body q) l1 b why → Stumbles S c (.body (.whileLoop p q)) l (a ++ b) why
  | whileNext {S : Scope} {c : List (Cell × Cell)} {p q : Recipe} {f : Cell} {l l1 l2 : List Cell} {x y z : List Byte} {why : Option (List Byte)} :
      Runs S c (.body p) l .normal (f :: l1) x → f ≠ 0 → Runs S c (.body q) l1 .normal l2 y → Stumbles S c (.body (.whileLoop p q)) l2 z why →
      Stumbles S c (.body (.whileLoop p q)) l (x ++ y ++ z) why
  | loop {V : Vocabulary} {g : Option Recipe} {d : Nat} {c : List (Cell × Cell)} {ask plus : Bool} {p : Recipe} {lim start : Cell}
      {l : List Cell} {a : List Byte} {why : Option (List Byte)} : (ask = true → start ≠ lim) →
      Stumbles ⟨V, g, d⟩ c (.turn plus p lim start) l a why → Stumbles ⟨V, g, d + 3⟩ c (.body (.counted ask plus p)) (start :: lim :: l) a why
  | turn {S : Scope} {c : List (Cell × Cell)} {plus : Bool} {p : Recipe} {lim idx : Cell} {l : List Cell} {a : List Byte} {why : Option (List Byte)} :
      Stumbles S ((lim, idx) :: c) (.body p) l a why → Stumbles S c (.turn plus p lim idx) l a why
  | loopNext {S : Scope} {c : List (Cell × Cell)} {p : Recipe} {lim idx : Cell} {l l1 : List Cell} {a b : List Byte} {why : Option (List Byte)} :
      Runs S ((lim, idx) :: c) (.body p) l .normal l1 a → idx + 1 ≠ lim → Stumbles S c (.turn false p lim (idx + 1)) l1 b why →
      Stumbles S c (.turn false p lim idx) l (a ++ b) why
  | plusNext {S : Scope} {c : List (Cell × Cell)} {p : Recipe} {lim idx n : Cell} {l l1 : List Cell} {a b : List Byte} {why : Option (List Byte)} :
      Runs S ((lim, idx) :: c) (.body p) l .normal (n :: l1) a → ¬Crosses lim idx n → Stumbles S c (.turn true p lim (idx + n)) l1 b why →
      Stumbles S c (.turn true p lim idx) l (a ++ b) why

/-- How many places on the return stack calls of words that the user defined and loops may take. -/
def nesting : Nat := 50

/-- What tokens mean at the prompt. -/
abbrev prompt (V : Vocabulary) : Scope := ⟨V, none, nesting⟩

/-- The words that definitions are made of. -/
def grammar : List String := [":", ";", "if", "else", "then", "begin", "until", "again", "while", "repeat", "do", "?do", "loop", "+loop", "i", "j", "leave",
  "unloop", "exit", "recurse"]

/-- Every word but those that definitions are made of can be defined, also again. -/
def Definable (name : List Char) : Prop := ∀ n, n ∈ grammar → ¬Called name n

/-- What is printed when `name` is defined. -/
inductive Announces (V : Vocabulary) (name : List Char) : List Byte → Prop
  | new : NoWord name → Unused V name → Announces V name []
  /-- There is a word of this name already, of the program or of the user. -/
  | again : ¬(NoWord name ∧ Unused V name) → Announces V name (ascii "Redefining " ++ utf8 name)

/-- Tokens at the prompt, one after the other. They lead from the words `V`, with `m` bytes of memory left, and the data stack
`l`, to `V'`, `m'` and `l'`, and print `out`. -/
inductive Turns : List (List Char) → Vocabulary → Nat → List Cell → Vocabulary → Nat → List Cell → List Byte → Prop
  | nil {V : Vocabulary} {m : Nat} {l : List Cell} : l.length + 4 ≤ capacity → Turns [] V m l V m l []
  | run {tok : List Char} {toks : List (List Char)} {V V' : Vocabulary} {m m' : Nat} {l l1 l' : List Cell} {a b : List Byte} :
      Runs (prompt V) [] (.body (.token tok)) l .normal l1 a → Turns toks V m l1 V' m' l' b → Turns (tok :: toks) V m l V' m' l' (a ++ b)
  /-- A definition of a word. Its name is kept in lower case. -/
  | define {x y name name' : List Char} {body toks : List (List Char)} {p : Recipe} {V V' : Vocabulary} {m m' : Nat} {l l' : List Cell}
      {a r : List Byte} : l.length + 4 ≤ capacity → Called x ":" → name' = name.map lowerChar → Definable name' → Announces V name' r →
      Spelt p body → p.Known V false → p.height ≤ 64 → Called y ";" → cost name' body ≤ m →
      Turns toks ((name', p) :: V) (m - cost name' body) l V' m' l' a →
      Turns (x :: name :: (body ++ y :: toks)) V m l V' m' l' (r ++ a)

/-- The answer to a line of text, as `Answers`, when words can be defined. -/
inductive Replies (fops : FloatOps) (text : List Char) (V : Vocabulary) (m : Nat) (l : List Cell) :
    Vocabulary → Nat → List Cell → (List Byte → List Byte) → Prop
  | ok {toks : List (List Char)} {V' : Vocabulary} {m' : Nat} {l' : List Cell} {a : List Byte} : Tokens text toks →
      Turns toks V m l V' m' l' a → Replies fops text V m l V' m' l' fun _ => ascii " " ++ a ++ ascii " ok" ++ [13, 10]
  | error {toks more : List (List Char)} {tok : List Char} {V' : Vocabulary} {m' : Nat} {l' : List Cell} {a why : List Byte} :
      Tokens text (toks ++ tok :: more) → Turns toks V m l V' m' l' a → Unused V' tok → Trouble fops tok l' (some why) →
      Replies fops text V m l V' m' [] fun trace => ascii " " ++ a ++ complaint tok why trace
  | abort {toks more : List (List Char)} {tok : List Char} {V' : Vocabulary} {m' : Nat} {l' : List Cell} {a : List Byte} :
      Tokens text (toks ++ tok :: more) → Turns toks V m l V' m' l' a → Unused V' tok → Trouble fops tok l' none →
      Replies fops text V m l V' m' [] fun _ => ascii " " ++ a ++ [10]
  /-- The error is in the body of a word that the user defined. The token that is told is the one that was typed. -/
  | errorInside {toks more : List (List Char)} {tok : List Char} {V' : Vocabulary} {m' : Nat} {l' : List Cell} {a b why : List Byte} :
      Tokens text (toks ++ tok :: more) → Turns toks V m l V' m' l' a → Stumbles (prompt V') [] (.body (.token tok)) l' b (some why) →
      Replies fops text V m l V' m' [] fun trace => ascii " " ++ (a ++ b) ++ complaint tok why trace
  | abortInside {toks more : List (List Char)} {tok : List Char} {V' : Vocabulary} {m' : Nat} {l' : List Cell} {a b : List Byte} :
      Tokens text (toks ++ tok :: more) → Turns toks V m l V' m' l' a → Stumbles (prompt V') [] (.body (.token tok)) l' b none →
      Replies fops text V m l V' m' [] fun _ => ascii " " ++ (a ++ b) ++ [10]

/-- What is printed when lines are typed one after the other, and then the input ends, as `Dialogue`. -/
inductive Lessons (fops : FloatOps) : Vocabulary → Nat → List Cell → List Byte → List (List Char) → ((Nat → List Byte) → List Byte) → Prop
  | done {V : Vocabulary} {m : Nat} {l : List Cell} {o : List Byte} : Lessons fops V m l o [] fun _ => lineOf o
  | line {V V' : Vocabulary} {m m' : Nat} {l l' : List Cell} {o : List Byte} {a : List Byte → List Byte}
      {out : (Nat → List Byte) → List Byte} {text : List Char} {texts : List (List Char)} : byteLen text < 2 ^ 63 →
      Replies fops text V m l V' m' l' a → Lessons fops V' m' l' [] texts out →
      Lessons fops V m l o (text :: texts) fun traces => o ++ a (traces 0) ++ out fun i => traces (i + 1)

/-- What the program prints if the text of its arguments is `text`, and then lines are typed, as `Conversation`. `m` bytes of
memory are left at first. -/
inductive Teaching (fops : FloatOps) (m : Nat) (text : List Char) (texts : List (List Char)) : ((Nat → List Byte) → List Byte) → Prop
  | ok {toks : List (List Char)} {V : Vocabulary} {m' : Nat} {l : List Cell} {a : List Byte} {out : (Nat → List Byte) → List Byte} :
      Tokens text toks → Turns toks [] m [] V m' l a → Lessons fops V m' l a texts out → Teaching fops m text texts out
  | error {toks more : List (List Char)} {tok : List Char} {V : Vocabulary} {m' : Nat} {l : List Cell} {a why : List Byte}
      {out : (Nat → List Byte) → List Byte} : Tokens text (toks ++ tok :: more) → Turns toks [] m [] V m' l a → Unused V tok →
      Trouble fops tok l (some why) → Lessons fops V m' [] [] texts out →
      Teaching fops m text texts fun traces => a ++ complaint tok why (traces 0) ++ out fun i => traces (i + 1)
  | abort {toks more : List (List Char)} {tok : List Char} {V : Vocabulary} {m' : Nat} {l : List Cell} {a : List Byte}
      {out : (Nat → List Byte) → List Byte} : Tokens text (toks ++ tok :: more) → Turns toks [] m [] V m' l a → Unused V tok →
      Trouble fops tok l none → Lessons fops V m' [] [] texts out → Teaching fops m text texts fun traces => lineOf a ++ out traces
  | errorInside {toks more : List (List Char)} {tok : List Char} {V : Vocabulary} {m' : Nat} {l : List Cell} {a b why : List Byte}
      {out : (Nat → List Byte) → List Byte} : Tokens text (toks ++ tok :: more) → Turns toks [] m [] V m' l a →
      Stumbles (prompt V) [] (.body (.token tok)) l b (some why) → Lessons fops V m' [] [] texts out →
      Teaching fops m text texts fun traces => (a ++ b) ++ complaint tok why (traces 0) ++ out fun i => traces (i + 1)
  | abortInside {toks more : List (List Char)} {tok : List Char} {V : Vocabulary} {m' : Nat} {l : List Cell} {a b : List Byte}
      {out : (Nat → List Byte) → List Byte} : Tokens text (toks ++ tok :: more) → Turns toks [] m [] V m' l a →
      Stumbles (prompt V) [] (.body (.token tok)) l b none → Lessons fops V m' [] [] texts out →
      Teaching fops m text texts fun traces => lineOf (a ++ b) ++ out traces

end Verif.Spec
