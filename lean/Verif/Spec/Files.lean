import Verif.Spec.Memory

/-!
# Specification of the file words

What a task sees of the file system: which file each of its identifiers denotes, and where it is in
it; which file each path names; what each file contains. Each word is specified by when it succeeds and
what it then does. When it does not succeed nothing at all is changed, and the result on top of the stack
is not zero.
-/

namespace Verif.Spec
open Verif

/-- The file system as one task sees it. `next` is what the host will name the next new file. -/
structure Disk where
  opened : Cell → Option Handle
  dir : List Byte → Option Nat
  content : Nat → List Byte
  next : Nat

/-- The view of the running task. Identifiers are positive. -/
def disk (s : VM) : Disk where
  opened id := if 0 < id.toInt then (s.task.files[id.toNat - 1]?).join else none
  dir := s.host.dir
  content := s.host.content
  next := s.host.nextIno

namespace Disk

/-- From now on `id` denotes `x`. -/
def put (k : Disk) (id : Cell) (x : Option Handle) : Disk :=
  { k with opened := fun j => if j = id then x else k.opened j }

/-- Replace the content of one file. -/
def fill (k : Disk) (ino : Nat) (bs : List Byte) : Disk :=
  { k with content := fun i => if i = ino then bs else k.content i }

/-- Replace one directory entry. -/
def link (k : Disk) (p : List Byte) (e : Option Nat) : Disk :=
  { k with dir := fun q => if q = p then e else k.dir q }

end Disk

/-- `new` is `old` with `bs` written over it at `pos`; a gap holds zeros. -/
def Overwrites (old : List Byte) (pos : Nat) (bs : List Byte) (new : List Byte) : Prop :=
  new.length = max old.length (pos + bs.length) ∧
  ∀ i, new.getD i 0 = if pos ≤ i ∧ i < pos + bs.length then bs.getD (i - pos) 0 else old.getD i 0

/-- `new` is `old` cut or filled up with zeros to length `n`. -/
def Resizes (old : List Byte) (n : Nat) (new : List Byte) : Prop :=
  new.length = n ∧ ∀ i < n, new.getD i 0 = old.getD i 0

/-- The memory of `u` bytes at `a` is in the data space. -/
def Inside (d : DataSpace) (a u : Cell) : Prop := d.start ≤ a.toNat ∧ a.toNat + u.toNat ≤ d.limit

instance (d : DataSpace) (a u : Cell) : Decidable (Inside d a u) := by unfold Inside; infer_instance

/-- The bytes there. -/
def textAt (d : DataSpace) (a u : Cell) : List Byte :=
  (List.range u.toNat).map fun i => d.bytes (a.toNat + i)

/-- A path the host accepts: not empty, no NUL. -/
def PathOk (p : List Byte) : Prop := p ≠ [] ∧ 0 ∉ p

/-- How many cells a word takes. -/
def fileTakes : FilePrim → Nat
  | .fileSize | .filePosition | .closeFile => 1
  | .deleteFile => 2
  | .createFile | .openFile | .readFile | .writeFile | .resizeFile | .repositionFile => 3

/-- How many cells a word leaves, according to its stack comment. -/
def fileLeaves : FilePrim → Nat
  | .fileSize | .filePosition => 3
  | .createFile | .openFile | .readFile => 2
  | .closeFile | .deleteFile | .writeFile | .resizeFile | .repositionFile => 1

/-- `n` results with an error code on top. -/
def Failed (n : Nat) (r : List Cell) : Prop := r.length = n ∧ ∃ ior rest, r = ior :: rest ∧ ior ≠ 0

/-- Success exactly if `ok`; otherwise failure with everything unchanged. -/
def Case (n : Nat) (r : List Cell) (k k' : Disk) (d d' : DataSpace) (ok now : Prop) : Prop :=
  (ok → now) ∧ (¬ ok → Failed n r ∧ k' = k ∧ d' = d)

/-- What each word does, given its operands and results (top first), the data space and the view before
and after. `fails` says whether the host makes this call fail. -/
def FileSpec (fails : Bool) (d : DataSpace) (k : Disk) (d' : DataSpace) (k' : Disk) :
    FilePrim → List Cell → List Cell → Prop
  | .fileSize, [id], r =>
    match k.opened id with
    | none => Failed 3 r ∧ k' = k ∧ d' = d
    | some h => Case 3 r k k' d d' (fails = false ∧ (k.content h.ino).length < 2 ^ 63)
        (r = [0, 0, toCell (k.content h.ino).length] ∧ k' = k ∧ d' = d)
  | .filePosition, [id], r =>
    match k.opened id with
    | none => Failed 3 r ∧ k' = k ∧ d' = d
    | some h => Case 3 r k k' d d' (fails = false ∧ h.pos < 2 ^ 63) (r = [0, 0, toCell h.pos] ∧ k' = k ∧ d' = d)
  | .closeFile, [id], r =>
    match k.opened id with
    | none => Failed 1 r ∧ k' = k ∧ d' = d
    | some _ => r = [0] ∧ k' = k.put id none ∧ d' = d
  | .createFile, [fam, u, a], r =>
    Case 2 r k k' d d'
      (u.toNat ≤ 256 ∧ (fam = 1 ∨ fam = 2) ∧ Inside d a u ∧ fails = false ∧ PathOk (textAt d a u))
      (∃ id ino, r = [0, id] ∧ 0 < id.toInt ∧ k.opened id = none ∧ d' = d ∧
        ((k.dir (textAt d a u) = some ino ∧
            k' = (k.fill ino []).put id (some ⟨ino, 0, decide (fam = 2), true⟩)) ∨
          (k.dir (textAt d a u) = none ∧ ino = k.next ∧
            k' = { ((k.link (textAt d a u) (some ino)).fill ino []).put id
              (some ⟨ino, 0, decide (fam = 2), true⟩) with next := k.next + 1 })))
  | .openFile, [fam, u, a], r =>
    Case 2 r k k' d d'
      (u.toNat ≤ 256 ∧ (fam = 0 ∨ fam = 1 ∨ fam = 2) ∧ Inside d a u ∧ fails = false ∧
        PathOk (textAt d a u) ∧ k.dir (textAt d a u) ≠ none)
      (∃ id ino, r = [0, id] ∧ 0 < id.toInt ∧ k.opened id = none ∧ d' = d ∧
        k.dir (textAt d a u) = some ino ∧
        k' = k.put id (some ⟨ino, 0, decide (fam ≠ 1), decide (fam ≠ 0)⟩))
  | .deleteFile, [u, a], r =>
    Case 1 r k k' d d'
      (u.toNat ≤ 256 ∧ Inside d a u ∧ fails = false ∧ 0 ∉ textAt d a u ∧ k.dir (textAt d a u) ≠ none)
      (r = [0] ∧ k' = k.link (textAt d a u) none ∧ d' = d)
  | .readFile, [id, u, a], r =>
    match k.opened id with
    | none => Failed 2 r ∧ k' = k ∧ d' = d
    | some h => Case 2 r k k' d d' (Inside d a u ∧ fails = false ∧ h.rd = true)
        (∃ got, got = ((k.content h.ino).drop h.pos).take u.toNat ∧ r = [0, toCell got.length] ∧
          k' = k.put id (some { h with pos := h.pos + got.length }) ∧ d' = d.setBytes a.toNat got)
  | .writeFile, [id, u, a], r =>
    match k.opened id with
    | none => Failed 1 r ∧ k' = k ∧ d' = d
    | some h => Case 1 r k k' d d' (Inside d a u ∧ (u = 0 ∨ (fails = false ∧ h.wr = true)))
        (∃ new, r = [0] ∧ d' = d ∧
          ((u = 0 ∧ k' = k) ∨ (u ≠ 0 ∧ Overwrites (k.content h.ino) h.pos (textAt d a u) new ∧
            k' = (k.fill h.ino new).put id (some { h with pos := h.pos + u.toNat }))))
  | .resizeFile, [id, hi, lo], r =>
    match k.opened id with
    | none => Failed 1 r ∧ k' = k ∧ d' = d
    | some h => Case 1 r k k' d d' (hi = 0 ∧ lo.toNat < 2 ^ 63 ∧ fails = false ∧ h.wr = true)
        (∃ new, r = [0] ∧ d' = d ∧ Resizes (k.content h.ino) lo.toNat new ∧ k' = k.fill h.ino new)
  | .repositionFile, [id, hi, lo], r =>
    match k.opened id with
    | none => Failed 1 r ∧ k' = k ∧ d' = d
    | some h => Case 1 r k k' d d' (hi = 0 ∧ lo.toNat < 2 ^ 63 ∧ fails = false)
        (r = [0] ∧ d' = d ∧ k' = k.put id (some { h with pos := lo.toNat }))
  | _, _, _ => False

/-- The address range given to a word does not wrap around; `delete-file`'s path is not too long. -/
def FileArgs : FilePrim → List Cell → Prop
  | .createFile, [_, u, a] | .openFile, [_, u, a] | .readFile, [_, u, a] | .writeFile, [_, u, a] =>
    a.toNat + u.toNat < 2 ^ 64
  | .deleteFile, [u, a] => a.toNat + u.toNat < 2 ^ 64 ∧ u.toNat ≤ 256
  | _, _ => True

/-- Same machine with data stack, file table, host and data space replaced. -/
def withFiles (s : VM) (st : Stack Cell) (fl : List (Option Handle)) (h : Host) (d : DataSpace) : VM :=
  { s.setTask { s.task with s := st, files := fl } with host := h, ds := d }

end Verif.Spec
