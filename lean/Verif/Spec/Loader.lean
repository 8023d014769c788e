import Verif.Spec.Reader
import Verif.Spec.Sources
import Verif.Spec.Lines
import Verif.Spec.Files

/-!
# Loading source files

core.fth 126-148 defines `load-source-file`, which evaluates the lines of the source file being read, and `included`,
which does this with a file given by its path and then goes back to the source read before.
-/

namespace Verif.Spec
open Verif

/-- The definitions of core.fth 128-147. `postpone [` compiles the number of `[` as a literal and `_postpone`. -/
def loaderCode (ix : String → Nat) : List (String × Stmt) := [
  ("load-source-file", code ix [Stmt.whileLoop (code ix ["source-id", "load-line"])
    (code ix ["drop", 0, "source-idx!", "evaluate-input", "flush-output", 1, "load-line#", "+!"]), "drop"]),
  ("included", code ix ["2dup", "r/o", "open-file", "0=", Stmt.ifElse
    (code ix ["save-source", "open-source", "source-id!", Stmt.lit (toCell (ix "[")), "_postpone", 1, "load-line#", "!", "load-source-file", "source-id",
      "restore-source", "close-source"])
    (code ix ["abort"])])]

/-- The built-in words they use. -/
def loaderUses : List String :=
  ["source-id", "load-line", "drop", "source-idx!", "flush-output", "2dup", "open-file", "0=", "open-source", "source-id!",
   "_postpone", "!", "close-source", "abort"]

/-- The machine has these words, with their code in `g`, the library in `g1`, the words for saving sources in `g2`,
`evaluate-input` in `g3`, the stack of saved sources at `A` and the variable `load-line#` at `V`. -/
structure HasLoader (lv : Nat) (g1 g2 g3 g : Nat × Nat) (A V : Nat) (ix : String → Nat) (s : VM) : Prop where
  saves : SavesSources lv g1.1 g1.2 g2.1 g2.2 A ix s
  reader : HasReader lv g3.1 g3.2 ix s
  region : Region s.ds g.1 g.2
  uses : ∀ name, name ∈ loaderUses → Builtin s.wl (ix name) name
  coded : Coded s.refs lv s.wl g.1 g.2 s.ds ix (loaderCode ix)
  place : ∃ w, s.wl.words[ix "load-line#"]? = some w ∧ w.action = .core .pVar ∧ w.dfa = V
  readOnly : ∃ w, s.wl.words[ix "r/o"]? = some w ∧ w.action = .core .pConst ∧ s.ds.start ≤ w.dfa ∧ w.dfa + 8 ≤ s.ds.limit ∧
    s.ds.cellAt w.dfa = 0
  bracket : ∃ w, s.wl.words[ix "["]? = some w ∧ w.compSem = .word ∧ ix "[" < 2 ^ 64
  lower : s.ds.start < V
  upper : V + 8 ≤ s.ds.limit
  apart : ∀ x, x ∈ [g1, g2, g3, g, (A, A + 272)] → V + 8 ≤ x.1 ∨ x.2 ≤ V
  apartA : ∀ x, x ∈ [g3, g] → A + 272 ≤ x.1 ∨ x.2 ≤ A

/-- All this code is in `t` as it is in `s`, and what words there were in `s` do the same in `t`. -/
structure StillLoaded (lv : Nat) (gs : List (Nat × Nat)) (s t : VM) : Prop where
  refs : t.refs = s.refs
  code : ∀ g, g ∈ gs → Loaded s.refs lv s.wl g.1 g.2 s.cur s.ds t

/-- What is in the output buffer is printed. -/
def flushed (s : VM) : VM :=
  match s.outbuf with
  | some (b :: bs) => { s with stdout := s.stdout ++ (b :: bs) ++ [10], outbuf := some [] }
  | _ => s

/-- The cell at `V` is one more. -/
def counted (V : Nat) (s : VM) : VM := { s with ds := s.ds.setCell V (s.ds.cellAt V + 1) }

/-- Reading starts at the beginning of the line. -/
def lineStart (s : VM) : VM := s.setTask { s.task with st := { s.task.st with sourceIndex := 0 } }

/-- What is left of the source file that is read are the lines `ls`, the words on them being evaluated one after the
other, which leads from `s` to `t`. After each line the output is printed and the number of the line counted. `L` holds
between words and between lines. -/
inductive Loads (cfg : Cfg) (depth room : Nat) (L : VM → Prop) (V : Nat) : List (List Char) → VM → VM → Prop
  | done {s u : VM} {k : Nat} : loadLine (ctx cfg depth) s.task.st.sourceId.toNat s = .ok (.ok (k, false), u) →
      (data s).length + 2 ≤ capacity → Loads cfg depth room L V [] s u
  | line {s u t v : VM} {l : List Char} {ls toks : List (List Char)} :
      loadLine (ctx cfg depth) s.task.st.sourceId.toNat s = .ok (.ok (byteLen l, true), u) →
      u.task.lines[s.task.st.sourceId.toNat - 1]? = some (some l) → (data s).length + 2 ≤ capacity →
      Works cfg depth room L toks (lineStart u) t → L t → (data t).length + 5 ≤ capacity →
      Loads cfg depth room L V ls (counted V (flushed t)) v → Loads cfg depth room L V (l :: ls) s v

/-- The machine after reading the line `l` of source `f`, which is number `id`, and of `k` bytes with its end. -/
def nextLine (s : VM) (id : Nat) (f : Source) (l : List Char) (k : Nat) : VM :=
  { s.setTask { s.task with
      sources := s.task.sources.set (id - 1) (some { f with file := { f.file with pos := f.file.pos + k } })
      lines := s.task.lines.set (id - 1) (some l) } with
    host := { s.host with calls := s.host.calls + 1 } }

/-- Source `id`, its line and the files are in `t` as they are in `s`. -/
structure Undisturbed (id : Nat) (s t : VM) : Prop where
  source : t.task.sources[id - 1]? = s.task.sources[id - 1]?
  line : t.task.lines[id - 1]? = s.task.lines[id - 1]?
  content : t.host.content = s.host.content

/-- The first free place of a table. -/
def freePlace {α : Type} (l : List (Option α)) : Nat := (l.takeWhile Option.isSome).length

/-- The table with `x` at its first free place. -/
def placed {α : Type} (l : List (Option α)) (x : α) : List (Option α) :=
  if freePlace l < l.length then l.set (freePlace l) (some x) else l ++ [some x]

/-- The number of the source opened next. -/
def nextSource (s : VM) : Nat := freePlace s.task.sources + 1

/-- The machine after opening file `ino` for reading as a source, and turning to it. -/
def opened (s : VM) (ino : Nat) (path : List Byte) : VM :=
  { s.setTask { s.task with
      files := if freePlace s.task.files < s.task.files.length then s.task.files else s.task.files ++ [none]
      sources := placed s.task.sources ⟨⟨ino, 0, true, false⟩, path⟩
      lines := if freePlace s.task.sources < s.task.sources.length then s.task.lines else s.task.lines ++ [some []]
      st := { s.task.st with sourceId := toCell (nextSource s) } } with
    host := { s.host with calls := s.host.calls + 1 } }

/-- The machine after closing source `id`. -/
def closed (s : VM) (id : Nat) : VM := s.setTask { s.task with sources := s.task.sources.set (id - 1) none }

/-- Memory when the first line is read: the source that was read before is saved, one more cell is in use, and the lines are
counted from one. -/
def loadingSpace (s : VM) (A V c : Nat) (ix : String → Nat) : DataSpace :=
  (appended (withEntry s.ds A c (source s).1 (source s).2) (toCell (ix "["))).setCell V 1

/-- Memory has room for one more cell, after all these places. -/
structure FreeAbove (d : DataSpace) (gs : List (Nat × Nat)) : Prop where
  sound : SoundSpace d
  room : RoomFor d 1
  above : ∀ x, x ∈ gs → x.2 ≤ d.here

/-- For every source there is a line. -/
structure Lined (s : VM) : Prop where
  length : s.task.lines.length = s.task.sources.length
  some : ∀ i, i < s.task.sources.length → ∃ l, s.task.lines[i]? = some (some l)
  small : s.task.sources.length < 2 ^ 62 ∧ s.task.files.length < 2 ^ 62

/-- The path of `n` bytes at `a` is in memory, is that of the file `ino`, and the host opens it. -/
structure Opens (cfg : Cfg) (s : VM) (a n : Cell) (path : List Byte) (ino : Nat) : Prop where
  short : n.toNat ≤ 256
  inside : Inside s.ds a n
  bytes : textAt s.ds a n = path
  valid : PathOk path
  found : s.host.dir path = Option.some ino
  host : cfg.ioFails s.host.calls = false

end Verif.Spec
