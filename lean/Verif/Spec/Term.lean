import Verif.Model.Term

/-!
# What a line editor with a history does

The line being edited is a text to the left of the cursor and a text to its right. The history is seen from that
line: the lines before it, nearest last, and the lines after it, nearest first. `old` is what the history holds
for the line being edited itself.
-/

namespace Verif.Spec

structure Desk where
  before : List (List Char)
  old : List Char
  left : List Char
  right : List Char
  after : List (List Char)
  deriving DecidableEq, Repr

namespace Desk

/-- The text of the line being edited. -/
def text (d : Desk) : List Char := d.left ++ d.right

/-- The history as it is kept. -/
def lines (d : Desk) : List (List Char) := d.before ++ d.old :: d.after

/-- A new, empty line after the history. -/
def fresh (history : List (List Char)) : Desk := ⟨history, [], [], [], []⟩

/-- The effect of a key on the line being edited, with the edited line stored when another one is chosen. -/
def press (d : Desk) : Key → Desk
  | .char ch => { d with left := d.left ++ [ch] }
  | .backspace => { d with left := d.left.dropLast }
  | .left =>
    match d.left.getLast? with
    | some ch => { d with left := d.left.dropLast, right := ch :: d.right }
    | none => d
  | .right =>
    match d.right with
    | ch :: rest => { d with left := d.left ++ [ch], right := rest }
    | [] => d
  | .enter => { d with left := d.text, right := [] }
  | .up =>
    match d.before.getLast? with
    | some l => ⟨d.before.dropLast, l, l, [], d.text :: d.after⟩
    | none => ⟨[], d.text, d.text, [], d.after⟩
  | .down =>
    match d.after with
    | l :: rest => ⟨d.before ++ [d.text], l, l, [], rest⟩
    | [] => ⟨d.before, d.text, d.text, [], []⟩
  | .other => d

/-- The effect of what comes from the keyboard: only keys without control do anything. -/
def happen (d : Desk) : Event → Desk
  | .plain k => d.press k
  | _ => d

/-- The effect of events one after the other. -/
def run (d : Desk) (es : List Event) : Desk := es.foldl happen d

/-- What is seen: the text, and the cursor after what is left of it, on a screen with at most 65536 columns. -/
def look (width : List Char → Nat) (d : Desk) : Picture := ⟨d.text, width d.left % 65536⟩

/-- What is seen after each event. -/
def film (width : List Char → Nat) (d : Desk) : List Event → List Picture
  | [] => []
  | ev :: es => (d.happen ev).look width :: film width (d.happen ev) es

end Desk

/-- The editor holds this desk. -/
structure Holds (e : Editor) (d : Desk) : Prop where
  history : e.history = d.lines
  buffer : e.buffer = d.text
  h : e.h = d.before.length
  x : e.x = byteLen d.left

/-- Events that do not end the line. -/
def Ongoing (ev : Event) : Prop := ev ≠ .plain .enter ∧ ev ≠ .control (.char 'd') ∧ ev ≠ .error

instance (ev : Event) : Decidable (Ongoing ev) := inferInstanceAs (Decidable (_ ∧ _))

/-- What goes to the history when a line is entered: the last line of the history is the one entered, or goes
when nothing was entered. -/
def entered (lines : List (List Char)) (text : List Char) : List (List Char) :=
  if text = [] then lines.dropLast else lines.dropLast ++ [text]

/-- The last `n` elements. -/
def lastOf {α : Type} (n : Nat) (l : List α) : List α := l.drop (l.length - n)

/-- A line that a history file can hold. -/
def Storable (l : List Char) : Prop := '\n' ∉ l ∧ l.getLast? ≠ some '\r'

end Verif.Spec
