import Verif.Model.Float

/-!
# File access (src/file_access.rs) and sources (src/loader.rs)

The host file system is a directory with file contents. A host call fails when `Cfg.ioFails` says so
for its number, or for a reason modelled here (no such file, wrong access mode, a NUL in the path).
Regular files are assumed: a read returns as much as there is; a failing write writes nothing.
-/

namespace Verif

/-- Count a host call and say whether the host makes it fail. -/
def hostCall (c : Ctx) : M Bool := fun s =>
  .ok (c.cfg.ioFails s.host.calls, { s with host := { s.host with calls := s.host.calls + 1 } })

/-- Change the host file system. -/
def modHost (f : Host → Host) : M Unit := modVM fun s => { s with host := f s.host }

/-- Replace the contents of one file. -/
def Host.setContent (h : Host) (ino : Nat) (bs : List Byte) : Host :=
  { h with content := fun i => if i = ino then bs else h.content i }

/-- Replace one directory entry. -/
def Host.setDir (h : Host) (p : List Byte) (e : Option Nat) : Host :=
  { h with dir := fun q => if q = p then e else h.dir q }

/-- `File::write_all` at a position: a gap is filled with zeros. -/
def writeAt (old : List Byte) (pos : Nat) (bs : List Byte) : List Byte :=
  (old ++ List.replicate (pos - old.length) 0).take pos ++ bs ++ old.drop (pos + bs.length)

/-- `File::set_len`. -/
def resizeTo (old : List Byte) (n : Nat) : List Byte := old.take n ++ List.replicate (n - old.length) 0

/-- `start <= caddr && caddr + u <= limit` (src/file_access.rs 183, 222, 271, 325, 385). -/
def rangeOk (oc : Bool) (d : DataSpace) (a u : Nat) : Except Fault Bool :=
  if d.start ≤ a then do
    let e ← uadd oc a u
    .ok (decide (e ≤ d.limit))
  else .ok false

/-- Replace entry `i` of the file table. -/
def setFile (i : Nat) (h : Option Handle) : M Unit := modTask fun t => { t with files := t.files.set i h }

/-- src/file_access.rs 39-75 `file_size`. -/
def fileSize (c : Ctx) : M Unit := do
  let id ← sPop
  if id.toInt ≤ 0 then sPush3 (-1) (-1) Exn.invalidNumericArgument.toCell
  else do
    let t ← getTask
    match t.files[id.toNat - 1]? with
    | some (some h) => do
      let bad ← hostCall c
      if bad then sPush3 (-1) (-1) Exn.fileIO.toCell
      else do
        let s ← getVM
        if (s.host.content h.ino).length ≤ 9223372036854775807 then
          sPush3 (toCell (s.host.content h.ino).length) 0 0
        else sPush3 (-1) (-1) Exn.resultOutOfRange.toCell
    | _ => sPush3 (-1) (-1) Exn.invalidNumericArgument.toCell

/-- src/file_access.rs 88-121 `file_position`. -/
def filePosition (c : Ctx) : M Unit := do
  let id ← sPop
  if id.toInt ≤ 0 then sPush3 (-1) (-1) Exn.invalidNumericArgument.toCell
  else do
    let t ← getTask
    match t.files[id.toNat - 1]? with
    | some (some h) => do
      let bad ← hostCall c
      if bad then sPush3 (-1) (-1) Exn.fileIO.toCell
      else if h.pos ≤ 9223372036854775807 then sPush3 (toCell h.pos) 0 0
      else sPush3 (-1) (-1) Exn.resultOutOfRange.toCell
    | _ => sPush3 (-1) (-1) Exn.invalidNumericArgument.toCell

/-- src/file_access.rs 127-141 `close_file`. -/
def closeFile : M Unit := do
  let id ← sPop
  if id.toInt ≤ 0 then sPush Exn.invalidNumericArgument.toCell
  else do
    let t ← getTask
    match t.files[id.toNat - 1]? with
    | some (some _) => do
      setFile (id.toNat - 1) none
      sPush 0
    | _ => sPush Exn.invalidNumericArgument.toCell

/-- The position of the first free entry: `iter().position(|x| x.is_none())`. -/
def freeSlot {α : Type} (l : List (Option α)) : Option Nat := l.findIdx? (fun x => x.isNone)

/-- src/file_access.rs 197-211, 285-299: enter a file in the table and push its id. -/
def enterFile (h : Handle) : M Unit := do
  let t ← getTask
  match freeSlot t.files with
  | some p => do
    setFile p (some h)
    sPush2 (toCell (p + 1)) 0
  | none => do
    sPush2 (toCell (t.files.length + 1)) 0
    modTask fun t => { t with files := t.files ++ [some h] }

/-- `OpenOptions::open` without `create`. -/
def hostOpen (c : Ctx) (path : List Byte) (rd wr : Bool) : M (Option Handle) := do
  let bad ← hostCall c
  let s ← getVM
  if bad ∨ path = [] ∨ path.contains 0 then pure none
  else
    match s.host.dir path with
    | some ino => pure (some { ino := ino, pos := 0, rd := rd, wr := wr })
    | none => pure none

/-- `OpenOptions::open` with `truncate(true).create(true)`. -/
def hostCreate (c : Ctx) (path : List Byte) (rd : Bool) : M (Option Handle) := do
  let bad ← hostCall c
  let s ← getVM
  if bad ∨ path = [] ∨ path.contains 0 then pure none
  else
    match s.host.dir path with
    | some ino => do
      modHost fun h => h.setContent ino []
      pure (some { ino := ino, pos := 0, rd := rd, wr := true })
    | none => do
      modHost fun h =>
        { (h.setDir path (some s.host.nextIno)).setContent s.host.nextIno [] with
          nextIno := s.host.nextIno + 1 }
      pure (some { ino := s.host.nextIno, pos := 0, rd := rd, wr := true })

/-- The end of src/file_access.rs 181-213 and 269-301: check the path's memory, open, enter. -/
def openWith (c : Ctx) (caddr u : Nat) (op : List Byte → M (Option Handle)) : M Unit := do
  let ok ← dsRd fun d => rangeOk c.oc d caddr u
  if ok then do
    let path ← dsRd fun d => d.getBytes caddr u
    let h ← op path
    match h with
    | some h => enterFile h
    | none => sPush2 (-1) Exn.fileIO.toCell
  else sPush2 (-1) Exn.invalidMemoryAddress.toCell

/-- src/file_access.rs 156-213 `create_file`; 256 is `PATH_NAME_MAX_LEN`. -/
def createFile (c : Ctx) : M Unit := do
  let (caddr, u, fam) ← sPop3
  if u.toNat > 256 then sPush2 (-1) Exn.invalidNumericArgument.toCell
  else if fam = 1 then openWith c caddr.toNat u.toNat fun p => hostCreate c p false
  else if fam = 2 then openWith c caddr.toNat u.toNat fun p => hostCreate c p true
  else sPush2 (-1) Exn.invalidNumericArgument.toCell

/-- src/file_access.rs 219-240 `delete_file`: two results when the path is too long. -/
def deleteFile (c : Ctx) : M Unit := do
  let (caddr, u) ← sPop2
  if u.toNat > 256 then sPush2 (-1) Exn.invalidNumericArgument.toCell
  else do
    let ok ← dsRd fun d => rangeOk c.oc d caddr.toNat u.toNat
    if ok then do
      let path ← dsRd fun d => d.getBytes caddr.toNat u.toNat
      let bad ← hostCall c
      let s ← getVM
      if bad ∨ (s.host.dir path).isNone ∨ path.contains 0 then sPush Exn.fileIO.toCell
      else do
        modHost fun h => h.setDir path none
        sPush 0
    else sPush Exn.invalidMemoryAddress.toCell

/-- src/file_access.rs 252-303 `open_file`. -/
def openFile (c : Ctx) : M Unit := do
  let (caddr, u, fam) ← sPop3
  if u.toNat > 256 then sPush2 (-1) Exn.invalidNumericArgument.toCell
  else if fam = 0 then openWith c caddr.toNat u.toNat fun p => hostOpen c p true false
  else if fam = 1 then openWith c caddr.toNat u.toNat fun p => hostOpen c p false true
  else if fam = 2 then openWith c caddr.toNat u.toNat fun p => hostOpen c p true true
  else sPush2 (-1) Exn.invalidNumericArgument.toCell

/-- src/file_access.rs 330-363 `read_file`: a zero id gives -1, an unknown id 0. Making the slice is
undefined behaviour when it does not lie in the data space, which the range test allows when
`caddr + u1` wraps around in an unchecked build. -/
def readFile (c : Ctx) : M Unit := do
  let (caddr, u1, id) ← sPop3
  if id = 0 then sPush2 (-1) Exn.invalidNumericArgument.toCell
  else do
    let t ← getTask
    match t.files[id.toNat - 1]? with
    | some (some h) => do
      let ok ← dsRd fun d => rangeOk c.oc d caddr.toNat u1.toNat
      if ok then do
        let _ ← dsRd fun d => d.getBytes caddr.toNat u1.toNat
        let bad ← hostCall c
        let s ← getVM
        if bad ∨ h.rd = false then sPush2 0 Exn.fileIO.toCell
        else do
          let got := ((s.host.content h.ino).drop h.pos).take u1.toNat
          dsOp fun d => .ok (d.setBytes caddr.toNat got)
          sPush2 (toCell got.length) 0
          setFile (id.toNat - 1) (some { h with pos := h.pos + got.length })
      else sPush2 0 Exn.invalidMemoryAddress.toCell
    | _ => sPush2 0 Exn.invalidNumericArgument.toCell

/-- src/file_access.rs 374-412 `write_file`: every failure of a valid id is reported as
`FILE_IO_EXCEPTION`; `write_all` of an empty buffer makes no host call. -/
def writeFile (c : Ctx) : M Unit := do
  let (caddr, u, id) ← sPop3
  if id.toInt ≤ 0 then sPush Exn.invalidNumericArgument.toCell
  else do
    let t ← getTask
    match t.files[id.toNat - 1]? with
    | some (some h) => do
      let ok ← dsRd fun d => rangeOk c.oc d caddr.toNat u.toNat
      if ok then
        if u = 0 then sPush 0
        else do
          let bs ← dsRd fun d => d.getBytes caddr.toNat u.toNat
          let bad ← hostCall c
          if bad ∨ h.wr = false then sPush Exn.fileIO.toCell
          else do
            modHost fun hh => hh.setContent h.ino (writeAt (hh.content h.ino) h.pos bs)
            sPush 0
            setFile (id.toNat - 1) (some { h with pos := h.pos + u.toNat })
      else sPush Exn.fileIO.toCell
    | _ => sPush Exn.invalidNumericArgument.toCell

/-- src/file_access.rs 432-465 `resize_file`. -/
def resizeFile (c : Ctx) : M Unit := do
  let (lo, hi, id) ← sPop3
  if id.toInt ≤ 0 then sPush Exn.invalidNumericArgument.toCell
  else if hi ≠ 0 then sPush Exn.invalidNumericArgument.toCell
  else if lo.toNat > 9223372036854775807 then sPush Exn.invalidNumericArgument.toCell
  else do
    let t ← getTask
    match t.files[id.toNat - 1]? with
    | some (some h) => do
      let bad ← hostCall c
      if bad ∨ h.wr = false then sPush Exn.fileIO.toCell
      else do
        modHost fun hh => hh.setContent h.ino (resizeTo (hh.content h.ino) lo.toNat)
        sPush 0
    | _ => sPush Exn.invalidNumericArgument.toCell

/-- src/file_access.rs 480-513 `reposition_file`. -/
def repositionFile (c : Ctx) : M Unit := do
  let (lo, hi, id) ← sPop3
  if id.toInt ≤ 0 then sPush Exn.invalidNumericArgument.toCell
  else if hi ≠ 0 then sPush Exn.invalidNumericArgument.toCell
  else if lo.toNat > 9223372036854775807 then sPush Exn.invalidNumericArgument.toCell
  else do
    let t ← getTask
    match t.files[id.toNat - 1]? with
    | some (some h) => do
      let bad ← hostCall c
      if bad then sPush Exn.fileIO.toCell
      else do
        sPush 0
        setFile (id.toNat - 1) (some { h with pos := lo.toNat })
    | _ => sPush Exn.invalidNumericArgument.toCell

/-- The words of src/file_access.rs. -/
def fileAction (c : Ctx) : FilePrim → M Unit
  | .fileSize => fileSize c
  | .filePosition => filePosition c
  | .closeFile => closeFile
  | .createFile => createFile c
  | .deleteFile => deleteFile c
  | .openFile => openFile c
  | .readFile => readFile c
  | .writeFile => writeFile c
  | .resizeFile => resizeFile c
  | .repositionFile => repositionFile c

/-- src/loader.rs 47-62: enter a source in the table. -/
def enterSource (src : Source) : M Unit := do
  let t ← getTask
  match freeSlot t.sources with
  | some p => do
    modTask fun t => { t with sources := t.sources.set p (some src) }
    sPush (toCell (p + 1))
  | none => do
    sPush (toCell (t.sources.length + 1))
    modTask fun t => { t with sources := t.sources ++ [some src], lines := t.lines ++ [some []] }

/-- src/loader.rs 39-72 `open_source`: the path's memory is not checked. -/
def openSource (c : Ctx) : M Unit := do
  let (caddr, u, id) ← sPop3
  let t ← getTask
  if 0 < id.toInt then
    match t.files[id.toNat - 1]? with
    | some (some h) => do
      setFile (id.toNat - 1) none
      let path ← dsRd fun d => d.getBytes caddr.toNat u.toNat
      enterSource { file := h, path := path }
    | _ => abortWith c .invalidNumericArgument
  else abortWith c .invalidNumericArgument

/-- src/loader.rs 81-95 `close_source`. -/
def closeSource (c : Ctx) : M Unit := do
  let id ← sPop
  let t ← getTask
  if t.st.sourceId = id then abortWith c .invalidNumericArgument
  else if 0 < id.toInt then
    match t.sources[id.toNat - 1]? with
    | some (some _) => modTask fun t => { t with sources := t.sources.set (id.toNat - 1) none }
    | _ => abortWith c .invalidNumericArgument
  else abortWith c .invalidNumericArgument

/-- src/loader.rs 98-112 `dot_source_path`. -/
def dotSourcePath (c : Ctx) : M Unit := do
  let id ← sPop
  let t ← getTask
  if 0 < id.toInt then
    match t.sources[id.toNat - 1]? with
    | some (some src) => outBytes src.path
    | _ => abortWith c .invalidNumericArgument
  else abortWith c .invalidNumericArgument

/-- src/loader.rs 115-129 `dot_source_line`. -/
def dotSourceLine (c : Ctx) : M Unit := do
  let id ← sPop
  let t ← getTask
  if 0 < id.toInt then
    match t.lines[id.toNat - 1]? with
    | some (some l) => outBytes (utf8 l)
    | _ => abortWith c .invalidNumericArgument
  else abortWith c .invalidNumericArgument

/-- The bytes of the next line including its `\n` (`BufRead::read_until(b'\n')`). -/
def takeLine : List Byte → List Byte
  | [] => []
  | b :: bs => if b = 10 then [b] else b :: takeLine bs

/-- `String::from_utf8`: the characters, when the bytes are valid UTF-8. -/
def decodeUtf8 (bs : List Byte) : Option (List Char) :=
  (ByteArray.mk (bs.map fun b => UInt8.ofBitVec b).toArray).utf8Decode?.map Array.toList

/-- src/loader.rs 165-177: remove the line end `\n` or `\r\n`; the length left. -/
def stripEol (line : List Char) : List Char :=
  if line.getLast? = some '\n' then
    let l := line.dropLast
    if l.getLast? = some '\r' then l.dropLast else l
  else line

/-- src/loader.rs 147-186 `load_line`: `ok (length, not eof)` or an exception. -/
def loadLine (c : Ctx) (id : Nat) : M (Except Exn (Nat × Bool)) := do
  let t ← getTask
  if 0 < id then
    match t.sources[id - 1]? with
    | some (some src) =>
      match t.lines[id - 1]? with
      | some (some _) => do
        let bad ← hostCall c
        let s ← getVM
        let raw := takeLine ((s.host.content src.file.ino).drop src.file.pos)
        if bad ∨ src.file.rd = false then do
          modTask fun t => { t with lines := t.lines.set (id - 1) (some []) }
          pure (.error .fileIO)
        else do
          modTask fun t => { t with
            sources := t.sources.set (id - 1)
              (some { src with file := { src.file with pos := src.file.pos + raw.length } }) }
          match decodeUtf8 raw with
          | some line => do
            modTask fun t => { t with lines := t.lines.set (id - 1) (some (stripEol line)) }
            pure (.ok (byteLen (stripEol line), decide (raw.length ≠ 0)))
          | none => do
            modTask fun t => { t with lines := t.lines.set (id - 1) (some []) }
            pure (.error .fileIO)
      | some none => pure (.error .invalidNumericArgument)
      | none => fault .panic
    | _ => pure (.error .invalidNumericArgument)
  else pure (.error .invalidNumericArgument)

/-- src/loader.rs 134-143 `p_load_line`. -/
def pLoadLine (c : Ctx) : M Unit := do
  let id ← sPop
  let r ← loadLine c id.toNat
  match r with
  | .error e => abortWith c e
  | .ok (len, notEof) => sPush2 (toCell len) (flag notEof)

/-- The words of src/loader.rs. -/
def loadAction (c : Ctx) : LoadPrim → M Unit
  | .openSource => openSource c
  | .closeSource => closeSource c
  | .dotSourcePath => dotSourcePath c
  | .loadLine => pLoadLine c
  | .dotSourceLine => dotSourceLine c

end Verif
