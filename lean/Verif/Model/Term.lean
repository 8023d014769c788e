import Verif.Model.Boot

/-!
# The line editor of the program `rtf` (rtf/src/term.rs)

Strings are lists of characters; positions in them are byte offsets, as in Rust. The width of a text on the
screen (crate `unicode-width`) is a parameter.
-/

namespace Verif

/-- `crossterm::event::KeyCode`, as far as rtf/src/term.rs 71-130 tells keys apart. -/
inductive Key where
  | backspace
  | enter
  | char (ch : Char)
  | up
  | down
  | left
  | right
  | other
  deriving DecidableEq, Repr

/-- `crossterm::event::read()`: a key pressed with no modifier or only shift, a key pressed with only control,
anything else, or an error. -/
inductive Event where
  | plain (k : Key)
  | control (k : Key)
  | other
  | error
  deriving DecidableEq, Repr

/-- rtf/src/term.rs 20-23 `Term`. -/
structure Term where
  history : List (List Char)
  buffer : List Char
  deriving DecidableEq, Repr

/-- The variables of the loop of rtf/src/term.rs 57-150: `self` and the locals `h` and `x`. -/
structure Editor where
  history : List (List Char)
  buffer : List Char
  h : Nat
  x : Nat
  deriving DecidableEq, Repr

/-- What the screen shows after an event, rtf/src/term.rs 144-149: the text of the line and the column of the
cursor. The row does not change. -/
structure Picture where
  text : List Char
  column : Nat
  deriving DecidableEq, Repr

/-- How reading a line ends. The last one is not an end: there are no more events yet. -/
inductive Reply where
  | line (text : List Char)
  | eof
  | failed
  | waiting
  deriving DecidableEq, Repr

/-- `str::is_char_boundary`. -/
def isBoundary (s : List Char) (x : Nat) : Bool := (splitAtByte s x).isSome

/-- `while !s.is_char_boundary(x) { x -= 1 }` (rtf/src/term.rs 75-77 and 117-119). 0 is a boundary. -/
def boundaryDown (s : List Char) : Nat → Nat
  | 0 => 0
  | x + 1 => if isBoundary s (x + 1) then x + 1 else boundaryDown s x

/-- `while !s.is_char_boundary(x) { x += 1 }` (rtf/src/term.rs 88-90 and 125-127). Beyond the end there is no
boundary. -/
def boundaryUp (s : List Char) (x : Nat) : Except Fault Nat :=
  if isBoundary s x then .ok x
  else if x < byteLen s then boundaryUp s (x + 1)
  else .error .hang
termination_by byteLen s - x

/-- `String::insert`. -/
def insertAt (s : List Char) (x : Nat) (ch : Char) : Except Fault (List Char) :=
  match splitAtByte s x with
  | some (a, b) => .ok (a ++ ch :: b)
  | none => .error .panic

/-- `String::remove`, without the character it returns. -/
def removeAt (s : List Char) (x : Nat) : Except Fault (List Char) :=
  match splitAtByte s x with
  | some (a, _ :: b) => .ok (a ++ b)
  | _ => .error .panic

/-- `self.history[h].clear(); self.history[h].push_str(&self.buffer)` (rtf/src/term.rs 93-94, 103-104). -/
def keepDraft (e : Editor) : Except Fault Editor :=
  if e.h < e.history.length then .ok { e with history := e.history.set e.h e.buffer } else .error .panic

/-- `self.buffer.clear(); self.buffer.push_str(&self.history[h]); x = self.buffer.len()`
(rtf/src/term.rs 98-100, 109-111). -/
def recall (e : Editor) : Except Fault Editor :=
  match e.history[e.h]? with
  | some l => .ok { e with buffer := l, x := byteLen l }
  | none => .error .panic

/-- rtf/src/term.rs 71-130: a key without modifiers. -/
def pressKey (e : Editor) : Key → Except Fault Editor
  | .backspace =>
    if 0 < e.x then do
      let x := boundaryDown e.buffer (e.x - 1)
      let b ← removeAt e.buffer x
      .ok { e with buffer := b, x := x }
    else .ok e
  | .enter => .ok { e with x := byteLen e.buffer }
  | .char ch => do
    let b ← insertAt e.buffer e.x ch
    let x ← boundaryUp b (e.x + 1)
    .ok { e with buffer := b, x := x }
  | .up => do
    let e ← keepDraft e
    recall { e with h := if e.h ≠ 0 then e.h - 1 else e.h }
  | .down => do
    let e ← keepDraft e
    recall { e with h := if e.history.length - 1 < e.h + 1 then e.history.length - 1 else e.h + 1 }
  | .left =>
    let x := if 0 < e.x then e.x - 1 else e.x
    .ok { e with x := boundaryDown e.buffer x }
  | .right => do
    let x ← boundaryUp e.buffer (if e.x < byteLen e.buffer then e.x + 1 else e.x)
    .ok { e with x := x }
  | .other => .ok e

/-- rtf/src/term.rs 144-149: the line as drawn; `width as u16` keeps 16 bits. -/
def frame (width : List Char → Nat) (e : Editor) : Except Fault Picture :=
  match splitAtByte e.buffer e.x with
  | some (a, _) => .ok ⟨e.buffer, width a % 2 ^ 16⟩
  | none => .error .panic

/-- rtf/src/term.rs 151-159: the line goes to the history, unless it is empty. -/
def finishLine (e : Editor) : Except Fault Term :=
  if byteLen e.buffer = 0 then .ok ⟨e.history.dropLast, e.buffer⟩
  else if 0 < e.history.length then .ok ⟨e.history.set (e.history.length - 1) e.buffer, e.buffer⟩
  else .error .panic

/-- rtf/src/term.rs 64-160: the loop, over the events that come. Frames are collected in order. -/
def editLoop (width : List Char → Nat) (e : Editor) : List Event → Except Fault (Reply × Term × List Picture)
  | [] => .ok (.waiting, ⟨e.history, e.buffer⟩, [])
  | .error :: _ => .ok (.failed, ⟨e.history, e.buffer⟩, [])
  | .control (.char 'd') :: _ => .ok (.eof, ⟨e.history, e.buffer⟩, [])
  | .plain .enter :: _ => do
    let e ← pressKey e .enter
    let f ← frame width e
    let t ← finishLine e
    .ok (.line t.buffer, t, [f])
  | .plain k :: es => do
    let e ← pressKey e k
    let f ← frame width e
    let (r, t, fs) ← editLoop width e es
    .ok (r, t, f :: fs)
  | _ :: es => do
    let f ← frame width e
    let (r, t, fs) ← editLoop width e es
    .ok (r, t, f :: fs)

/-- rtf/src/term.rs 57-160 `read_line`. -/
def readLine (width : List Char → Nat) (t : Term) (es : List Event) : Except Fault (Reply × Term × List Picture) :=
  let history := t.history ++ [[]]
  editLoop width ⟨history, [], history.length - 1, 0⟩ es

/-- `BufRead::lines()`, with `String::new()` for a line that is not valid UTF-8 (rtf/src/term.rs 33-37).
The fuel is the number of bytes. -/
def fileLines : Nat → List Byte → List (List Char)
  | 0, _ => []
  | n + 1, bs =>
    if bs = [] then []
    else
      let raw := takeLine bs
      (match decodeUtf8 raw with
        | some l => stripEol l
        | none => []) :: fileLines n (bs.drop raw.length)

/-- rtf/src/term.rs 26-55 `Term::new`: the history file, if there is one; only the last 32 lines are kept. -/
def Term.new (file : Option (List Byte)) : Term :=
  let history := match file with
    | some bs => fileLines bs.length bs
    | none => []
  ⟨history.drop (if 32 < history.length then history.length - 32 else 0), []⟩

/-- rtf/src/term.rs 163-195 `drop`: what is written to the history file. -/
def Term.saved (t : Term) : List Byte :=
  let start := if 32 < t.history.length then t.history.length - 32 else 0
  (t.history.drop start).flatMap fun l => if 0 < byteLen l then utf8 l ++ [10] else []

/-- rtf/src/main.rs 315-325: the arguments of the program go to the input buffer, with a blank after each. -/
def addArgs : List (List Char) → M Unit
  | [] => pure ()
  | word :: args => do
    let b ← takeInput
    match b with
    | some buf => putInput (buf ++ word ++ [' '])
    | none => pure ()
    addArgs args

/-- rtf/src/main.rs 339-355 `receive`, after the line was read. While there is no line the program waits; that is
the caller's affair. -/
def receive : Reply → M Unit
  | .line text => hear (.line text)
  | .eof => hear .eof
  | .failed => hear .failed
  | .waiting => pure ()

end Verif
