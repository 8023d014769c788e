import Verif.Model.Boot

/-!
# Specification of reading a file line by line
-/

namespace Verif.Spec
open Verif

/-- A text as lines, each with its terminator: `\n`, `\r\n`, or nothing for a last line without one. -/
inductive Lines : List Char → List (List Char × List Char) → Prop
  | nil : Lines [] []
  | last {l : List Char} : l ≠ [] → '\n' ∉ l → Lines l [(l, [])]
  | lf {l rest : List Char} {ls : List (List Char × List Char)} : '\n' ∉ l → l.getLast? ≠ some '\r' →
      Lines rest ls → Lines (l ++ '\n' :: rest) ((l, ['\n']) :: ls)
  | crlf {l rest : List Char} {ls : List (List Char × List Char)} : '\n' ∉ l →
      Lines rest ls → Lines (l ++ '\r' :: '\n' :: rest) ((l, ['\r', '\n']) :: ls)

/-- Source `id` of the running task is open for reading, and `rest` is what is left of its file. -/
structure Unread (s : VM) (id : Nat) (rest : List Char) : Prop where
  pos : 0 < id
  source : ∃ src, s.task.sources[id - 1]? = some (some src) ∧ src.file.rd = true ∧
    (s.host.content src.file.ino).drop src.file.pos = utf8 rest
  line : ∃ l, s.task.lines[id - 1]? = some (some l)

/-- Calls of `load_line` that deliver these lines, each with its length and `true`. -/
inductive Delivers (c : Ctx) (id : Nat) : VM → List (List Char) → VM → Prop
  | nil (s : VM) : Delivers c id s [] s
  | cons {s u t : VM} {l : List Char} {ls : List (List Char)} :
      loadLine c id s = .ok (.ok (byteLen l, true), u) → u.task.lines[id - 1]? = some (some l) →
      Delivers c id u ls t → Delivers c id s (l :: ls) t

end Verif.Spec
