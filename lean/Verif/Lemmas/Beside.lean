import Verif.Spec.Loader
import Verif.Lemmas.Reader
import Verif.Lemmas.Sources
import Verif.Lemmas.Files
import Verif.Props.Lines

/-!
# Words that change other things than the stacks

Files, sources, the host, the input and the output are changed in the same way whatever is on the stacks.
-/

namespace Verif
open Spec Stack

/-- What such words change. -/
structure Side where
  files : List (Option Handle)
  sources : List (Option Source)
  lines : List (Option (List Char))
  id : Cell
  idx : Nat
  compiling : Bool
  host : Host
  outbuf : Option (List Byte)
  stdout : List Byte
  hldbuf : List Byte
  error : Option Exn

/-- What they change, in `s`. -/
def sideOf (s : VM) : Side :=
  ⟨s.task.files, s.task.sources, s.task.lines, s.task.st.sourceId, s.task.st.sourceIndex, s.task.st.isCompiling, s.host, s.outbuf,
    s.stdout, s.hldbuf, s.lastError⟩

/-- The task with this changed. -/
def Side.on (x : Side) (t : Task) : Task :=
  { t with
    files := x.files, sources := x.sources, lines := x.lines
    st := { t.st with sourceId := x.id, sourceIndex := x.idx, isCompiling := x.compiling } }

/-- The machine with this changed. -/
def beside (s : VM) (x : Side) : VM :=
  { s.setTask (x.on s.task) with host := x.host, outbuf := x.outbuf, stdout := x.stdout, hldbuf := x.hldbuf, lastError := x.error }

theorem beside_task (s : VM) (x : Side) : (beside s x).task = x.on s.task := by
  show (s.setTask _).task = _
  rw [VM.task_setTask]

theorem sideOf_beside (s : VM) (x : Side) : sideOf (beside s x) = x := by
  rw [sideOf, beside_task]; rfl

theorem beside_self (s : VM) : beside s (sideOf s) = s := by
  show { s.setTask s.task with host := s.host, outbuf := s.outbuf, stdout := s.stdout, hldbuf := s.hldbuf, lastError := s.lastError } = s
  rw [VM.setTask_task]

theorem beside_beside (s : VM) (x y : Side) : beside (beside s x) y = beside s y := by
  show { (beside s x).setTask (y.on (beside s x).task) with host := y.host, outbuf := y.outbuf, stdout := y.stdout, hldbuf := y.hldbuf, lastError := y.error } = _
  rw [beside_task]
  show { (s.setTask (x.on s.task)).setTask _ with host := y.host, outbuf := y.outbuf, stdout := y.stdout, hldbuf := y.hldbuf, lastError := y.error } = _
  rw [VM.setTask_setTask]; rfl

/-- A change of the task that leaves this alone. -/
theorem beside_setTask (s : VM) (x : Side) (f : Task → Task) (h : x.on (f s.task) = f (x.on s.task)) :
    (beside s x).setTask (f (beside s x).task) = beside (s.setTask (f s.task)) x := by
  rw [beside_task, beside, beside, VM.task_setTask, VM.setTask_setTask, h]
  show { (s.setTask (x.on s.task)).setTask _ with host := x.host, outbuf := x.outbuf, stdout := x.stdout, hldbuf := x.hldbuf, lastError := x.error } = _
  rw [VM.setTask_setTask]

theorem Spec.Like.beside {s t : VM} (h : Like s t) (x : Side) : Like (beside s x) (beside t x) := by
  obtain ⟨ip, wp, ds, rs, fs, h1, h2, h3, rfl⟩ := h
  refine ⟨ip, wp, ds, rs, fs, ?_, ?_, ?_, ?_⟩
  · rw [beside_task]; exact h1
  · rw [beside_task]; exact h2
  · rw [beside_task]; exact h3
  · exact (beside_setTask t x (fun t => { t with s := ds, r := rs, f := fs, st := { t.st with ip := ip, wp := wp } }) rfl).symm

theorem Spec.Like.side {s t : VM} (h : Like s t) : sideOf s = sideOf t := by
  obtain ⟨ip, wp, ds, rs, fs, -, -, -, rfl⟩ := h
  rw [sideOf, VM.task_setTask]; rfl

theorem beside_shape (s : VM) (l r : List Cell) (m : DataSpace) (x : Side) : beside (shape s l r m) x = shape (beside s x) l r m := by
  have := beside_setTask s x (fun t => { t with s := holding s.task.s l, r := holding s.task.r r }) rfl
  rw [shape_eq (beside s x)]
  simp only [beside_task] at this ⊢
  show _ = { (beside s x).setTask _ with ds := m }
  have e : ({ x.on s.task with s := holding (x.on s.task).s l, r := holding (x.on s.task).r r } : Task) =
    { x.on s.task with s := holding s.task.s l, r := holding s.task.r r } := rfl
  rw [e, this, shape_eq]; rfl

theorem sideOf_shape (s : VM) (l r : List Cell) (m : DataSpace) : sideOf (shape s l r m) = sideOf s := by
  rw [sideOf, shape_task]; rfl

theorem beside_pc (s : VM) (x : Side) : pc (beside s x) = pc s := by rw [pc, beside_task]; rfl

section
variable {R : Refs} {wl : Wordlist} {lv lo hi n i : Nat} {k : Fin 5} {d : DataSpace} {s : VM} {cfg : Cfg}
  {l l' r : List Cell} {m : DataSpace} {ix : String → Nat}

local notation "Do" => Doing cfg n R lv wl lo hi k d

/-- A word that changes the data stack and other things. -/
theorem doing_beside {w : Word} {x : Side} (hw : wl.words[i]? = some w) (hl : l.length ≤ capacity) (hr : r.length ≤ capacity)
    (hl' : l'.length ≤ capacity)
    (h : ∀ u : VM, u.task.s.items = l → u.ds = m → sideOf u = sideOf s → Like u (shape s l r m) → ∃ ds,
      action ⟨cfg, execWord cfg n⟩ w.action u = .ok ((), beside (u.setTask { u.task with s := ds }) x) ∧
      LikeStack ds (holding u.task.s l')) :
    Do i (shape s l r m) (shape (beside s x) l' r m) := by
  intro hL
  have hc : capacity = 64 := rfl
  refine ⟨?_, hL.congr rfl rfl rfl⟩
  intro s1 hli
  obtain ⟨v, e1, e2, e3⟩ := (hL.like hli).kept i w hw
  have hla := hli.at (pc s1) i
  have k2 : (s1.at (pc s1) i).task.r.items = r := hla.ret.trans (shape_ret hr)
  obtain ⟨ds, f1, f2⟩ := h _ (hla.data.trans (shape_data hl)) hla.ds (hla.side.trans (sideOf_shape _ _ _ _)) hla
  refine ⟨_, by rw [exec_word e1, e2]; exact f1, ?_, ?_⟩
  · rw [← beside_shape]
    refine Like.beside ?_ x
    have := like_shape (m' := m) (l' := l') (r' := r) hl hr hl' hr hla
      (ds := ds) (rs := (s1.at (pc s1) i).task.r) f2 (by rw [← k2, holding_self]; exact .refl _) (pc s1) i
    have hds : (s1.at (pc s1) i).ds = m := hla.ds
    rw [← hds] at this ⊢
    refine Like.trans ?_ this
    simp only [VM.at_task]
    exact .refl _
  · rw [beside_pc, pc, VM.task_setTask]; simp

/-- What `load_line` makes of this. -/
def freshLine (c : Ctx) (id : Nat) (x : Side) : Except Fault (Except Exn (Nat × Bool) × Side) :=
  if 0 < id then
    match x.sources[id - 1]? with
    | some (some src) =>
      match x.lines[id - 1]? with
      | some (some _) =>
        let raw := takeLine ((x.host.content src.file.ino).drop src.file.pos)
        let h := { x.host with calls := x.host.calls + 1 }
        if c.cfg.ioFails x.host.calls ∨ src.file.rd = false then
          .ok (.error .fileIO, { x with host := h, lines := x.lines.set (id - 1) (some []) })
        else
          let x := { x with
            host := h
            sources := x.sources.set (id - 1) (some { src with file := { src.file with pos := src.file.pos + raw.length } }) }
          match decodeUtf8 raw with
          | some line => .ok (.ok (byteLen (stripEol line), decide (raw.length ≠ 0)), { x with lines := x.lines.set (id - 1) (some (stripEol line)) })
          | none => .ok (.error .fileIO, { x with lines := x.lines.set (id - 1) (some []) })
      | some none => .ok (.error .invalidNumericArgument, x)
      | none => .error .panic
    | _ => .ok (.error .invalidNumericArgument, x)
  else .ok (.error .invalidNumericArgument, x)

theorem loadLine_beside {c : Ctx} {id : Nat} {s u : VM} {res : Except Exn (Nat × Bool)} (h : loadLine c id s = .ok (res, u)) :
    u = beside s (sideOf u) ∧ ∀ s', sideOf s' = sideOf s → loadLine c id s' = .ok (res, beside s' (sideOf u)) := by
  have key : ∀ s, loadLine c id s = (match freshLine c id (sideOf s) with
      | .ok (res, x) => .ok (res, beside s x)
      | .error e => .error e) := by
    intro s
    unfold loadLine freshLine
    rw [M.bind_ok (getTask_apply s)]
    by_cases h0 : 0 < id
    · rw [if_pos h0, if_pos h0]
      rw [show (sideOf s).sources = s.task.sources from rfl, show (sideOf s).lines = s.task.lines from rfl]
      cases s.task.sources[id - 1]? with
      | none => dsimp only; rw [beside_self]; rfl
      | some src =>
        cases src with
        | none => dsimp only; rw [beside_self]; rfl
        | some src =>
          dsimp only
          cases s.task.lines[id - 1]? with
          | none => rfl
          | some line =>
            cases line with
            | none => dsimp only; rw [beside_self]; rfl
            | some line =>
              dsimp only
              have hc : hostCall c s = .ok (c.cfg.ioFails s.host.calls, { s with host := { s.host with calls := s.host.calls + 1 } }) := rfl
              rw [M.bind_ok hc, M.bind_ok (getVM_apply _)]
              dsimp only
              rw [show (sideOf s).host = s.host from rfl]
              split
              · rfl
              · cases decodeUtf8 (takeLine ((s.host.content src.file.ino).drop src.file.pos)) with
                | none =>
                  dsimp only
                  rw [M.bind_apply, modTask_apply]
                  dsimp only
                  rw [M.bind_apply, modTask_apply, VM.task_setTask, VM.setTask_setTask]
                  rfl
                | some line' =>
                  dsimp only
                  rw [M.bind_apply, modTask_apply]
                  dsimp only
                  rw [M.bind_apply, modTask_apply, VM.task_setTask, VM.setTask_setTask]
                  rfl
    · rw [if_neg h0, if_neg h0]; dsimp only; rw [beside_self]; rfl
  rw [key] at h
  cases hf : freshLine c id (sideOf s) with
  | error e => rw [hf] at h; cases h
  | ok p =>
    rw [hf] at h
    obtain ⟨res', x⟩ := p
    simp only [Except.ok.injEq, Prod.mk.injEq] at h
    obtain ⟨rfl, rfl⟩ := h
    rw [sideOf_beside]
    refine ⟨rfl, fun s' e => ?_⟩
    rw [key, e, hf]

theorem doing_loadLine {x : Cell} {u : VM} {j : Nat} {more : Bool} (hb : Builtin wl i "load-line")
    (h : loadLine (ctx cfg n) x.toNat s = .ok (.ok (j, more), u)) (hl : l.length + 2 ≤ capacity) (hr : r.length ≤ capacity) :
    Do i (shape s (x :: l) r m) (shape u (truth (more = true) :: toCell j :: l) r m) := by
  obtain ⟨w, hw, hp⟩ := hb
  have hp' := prim_inj hp (p := .load .loadLine) rfl
  obtain ⟨h1, h2⟩ := loadLine_beside h
  rw [h1]
  simp only [capacity] at hl
  refine doing_beside hw (by simp [capacity]; omega) hr (by simp [capacity]; omega) fun v k1 k2 k3 k4 => ?_
  have e : v.task.s.pop.1 = x := (items_eq_iff.mp k1).pop_fst
  refine ⟨v.task.s.pop.2.push2 (toCell j) (truth (more = true)), ?_, ?_⟩
  · rw [hp']
    show pLoadLine _ v = _
    unfold pLoadLine
    rw [M.bind_apply, sPop_apply]
    dsimp only
    have hs : sideOf (v.setTask { v.task with s := v.task.s.pop.2 }) = sideOf s := by
      rw [← k3, sideOf, VM.task_setTask]; rfl
    have e2 := h2 _ hs
    rw [ctx] at e2
    rw [e, M.bind_ok e2]
    dsimp only
    rw [sPush2_apply]
    rw [show flag more = truth (more = true) by cases more <;> rfl]
    have := beside_setTask (v.setTask { v.task with s := v.task.s.pop.2 }) (sideOf u)
      (fun t => { t with s := t.s.push2 (toCell j) (truth (more = true)) }) rfl
    rw [this, VM.task_setTask, VM.setTask_setTask]
  · rw [pop_holding k1, push2_holding _ _ _ (by rw [holding_items _ (by omega)]; omega), holding_items _ (by omega)]
    exact LikeStack.holding2 _ (by simp [capacity]; omega) (by simp; omega)

theorem beside_out (s : VM) (o : Option (List Byte)) (p : List Byte) :
    beside s { sideOf s with outbuf := o, stdout := p } = { s with outbuf := o, stdout := p } := by
  show { s.setTask s.task with host := s.host, outbuf := o, stdout := p, hldbuf := s.hldbuf, lastError := s.lastError } = _
  rw [VM.setTask_task]

theorem flushed_beside (s : VM) : flushed s = beside s (sideOf (flushed s)) := by
  unfold flushed
  split
  · exact (beside_out s (some []) _).symm
  · rw [beside_self]

theorem flushed_side {s t : VM} (h : sideOf s = sideOf t) : sideOf (flushed s) = sideOf (flushed t) := by
  have h1 : s.outbuf = t.outbuf := congrArg Side.outbuf h
  have h2 : s.stdout = t.stdout := congrArg Side.stdout h
  unfold flushed
  rw [h1]
  split
  · rw [← beside_out s, ← beside_out t, sideOf_beside, sideOf_beside, h, h2]
  · exact h

theorem flushOutput_apply (s : VM) : flushOutput s = .ok ((), flushed s) := by
  unfold flushOutput flushed
  cases h : s.outbuf with
  | none => simp [modVM, h]
  | some b => cases b <;> simp [modVM, h]

theorem doing_flush (hb : Builtin wl i "flush-output") (hl : l.length ≤ capacity) (hr : r.length ≤ capacity) :
    Do i (shape s l r m) (shape (flushed s) l r m) := by
  obtain ⟨w, hw, hp⟩ := hb
  have hp' := prim_inj hp (p := .out .flushOutput) rfl
  rw [flushed_beside s]
  refine doing_beside hw hl hr hl fun v k1 k2 k3 k4 => ⟨v.task.s, ?_, by rw [← k1, holding_self]; exact .refl _⟩
  rw [hp', VM.setTask_task, ← flushed_side k3, ← flushed_beside]
  exact flushOutput_apply v

theorem freeSlot_some {α : Type} {l : List (Option α)} (h : freePlace l < l.length) : freeSlot l = some (freePlace l) := by
  induction l with
  | nil => simp at h
  | cons x l ih =>
    cases x with
    | none => simp [freeSlot, freePlace, List.findIdx?_cons]
    | some x =>
      have e : freePlace (some x :: l) = freePlace l + 1 := by simp [freePlace]
      rw [e] at h ⊢
      have := ih (by simpa using h)
      simp only [freeSlot] at this ⊢
      simp [List.findIdx?_cons, this]

theorem freeSlot_none {α : Type} {l : List (Option α)} (h : ¬freePlace l < l.length) : freeSlot l = none := by
  induction l with
  | nil => rfl
  | cons x l ih =>
    cases x with
    | none => simp [freePlace] at h
    | some x =>
      have e : freePlace (some x :: l) = freePlace l + 1 := by simp [freePlace]
      rw [e] at h
      have := ih (by simpa using h)
      simp only [freeSlot] at this ⊢
      simp [List.findIdx?_cons, this]

theorem freePlace_le {α : Type} (l : List (Option α)) : freePlace l ≤ l.length := by
  unfold freePlace
  exact (List.takeWhile_sublist _).length_le

theorem freePlace_free {α : Type} {l : List (Option α)} (h : freePlace l < l.length) : l[freePlace l]? = some none := by
  induction l with
  | nil => simp at h
  | cons x l ih =>
    cases x with
    | none => simp [freePlace]
    | some x =>
      have e : freePlace (some x :: l) = freePlace l + 1 := by simp [freePlace]
      rw [e] at h ⊢
      simpa using ih (by simpa using h)

theorem placed_at {α : Type} (l : List (Option α)) (x : α) : (placed l x)[freePlace l]? = some (some x) := by
  unfold placed
  split
  · next h => simp [h]
  · next h =>
    have := freePlace_le l
    rw [show freePlace l = l.length by omega]
    simp

/-- The machine after opening the file. -/
def fileOpened (s : VM) (ino : Nat) : VM :=
  { s.setTask { s.task with files := placed s.task.files ⟨ino, 0, true, false⟩ } with
    host := { s.host with calls := s.host.calls + 1 } }

theorem doing_openFile {a u : Cell} {path : List Byte} {ino : Nat} (hb : Builtin wl i "open-file")
    (h : Opens cfg { s with ds := m } a u path ino) (hs : m.limit < 2 ^ 63) (hl : l.length + 3 ≤ capacity) (hr : r.length ≤ capacity) :
    Do i (shape s (0 :: u :: a :: l) r m) (shape (fileOpened s ino) (0 :: toCell (freePlace s.task.files + 1) :: l) r m) := by
  obtain ⟨w, hw, hp⟩ := hb
  have hp' := prim_inj hp (p := .file .openFile) rfl
  have h1 : fileOpened s ino = beside s { sideOf s with
      files := placed s.task.files ⟨ino, 0, true, false⟩, host := { s.host with calls := s.host.calls + 1 } } := rfl
  rw [h1]
  simp only [capacity] at hl
  refine doing_beside hw (by simp [capacity]; omega) hr (by simp [capacity]; omega) fun v k1 k2 k3 k4 => ?_
  have hrep := items_eq_iff.mp k1
  have hf : v.task.files = s.task.files := congrArg Side.files k3
  have hh : v.host = s.host := congrArg Side.host k3
  have hin : Inside m a u := h.inside
  have hb : textAt m a u = path := h.bytes
  have hlim : a.toNat + u.toNat < 2 ^ 64 := by have := hin.2; omega
  refine ⟨v.task.s.pop3.2.push2 (toCell (freePlace s.task.files + 1)) 0, ?_, ?_⟩
  · rw [hp']
    show openFile _ v = _
    refine Eq.trans (b := .ok ((), withFiles v (v.task.s.pop3.2.push2 (toCell (freePlace s.task.files + 1)) 0)
      (placed s.task.files ⟨ino, 0, true, false⟩) { v.host with calls := v.host.calls + 1 } m)) ?_ ?_
    rotate_left
    · rw [← k3, ← k2, ← hf, ← hh, beside, VM.task_setTask, VM.setTask_setTask]
      rfl
    unfold openFile
    rw [M.bind_ok (Files.pop3 v), hrep.pop3_fst]
    dsimp only
    rw [if_neg (by have := h.short; omega), if_pos rfl, openWith, M.bind_ok (Files.rd (Files.range_ok hlim)), k2,
      if_pos (by simpa using hin), M.bind_ok (Files.rd (Files.text_ok hin)), hb]
    have ho : hostOpen ⟨cfg, execWord cfg n⟩ path true false (withFiles v v.task.s.pop3.2 v.task.files v.host m) =
        .ok (some ⟨ino, 0, true, false⟩, withFiles v v.task.s.pop3.2 v.task.files { v.host with calls := v.host.calls + 1 } m) := by
      unfold hostOpen
      rw [M.bind_ok (Files.call _), M.bind_ok (getVM_apply _)]
      have h1 : cfg.ioFails v.host.calls = false := by rw [hh]; exact h.host
      have h2 : v.host.dir path = some ino := by rw [hh]; exact h.found
      rw [if_neg (by simpa [h1, PathOk] using h.valid), Files.host_eq]
      dsimp only
      rw [h2]; rfl
    rw [M.bind_ok ho]
    dsimp only
    unfold enterFile
    rw [M.bind_ok (getTask_apply _), Files.task_eq]
    dsimp only
    rw [hf]
    by_cases hp : freePlace s.task.files < s.task.files.length
    · rw [freeSlot_some hp]
      dsimp only
      rw [M.bind_ok (Files.set _ _), Files.push2]
      rw [placed, if_pos hp]
    · rw [freeSlot_none hp]
      have := freePlace_le s.task.files
      dsimp only
      rw [M.bind_ok (Files.push2 _ _), Files.append, show s.task.files.length = freePlace s.task.files by omega]
      rw [placed, if_neg hp]
  · rw [pop3_holding k1, push2_holding _ _ _ (by rw [holding_items _ (by omega)]; omega), holding_items _ (by omega)]
    exact LikeStack.holding2 _ (by simp [capacity]; omega) (by simp; omega)

/-- The machine after making a source of an open file. -/
def sourceOpened (s : VM) (id : Nat) (h : Handle) (path : List Byte) : VM :=
  s.setTask { s.task with
    files := s.task.files.set (id - 1) none
    sources := placed s.task.sources ⟨h, path⟩
    lines := if freePlace s.task.sources < s.task.sources.length then s.task.lines else s.task.lines ++ [some []] }

theorem doing_openSource {a u id : Cell} {h : Handle} (hb : Builtin wl i "open-source") (hid : 0 < id.toInt)
    (hf : s.task.files[id.toNat - 1]? = some (some h)) (hin : Inside m a u) (hl : l.length + 3 ≤ capacity) (hr : r.length ≤ capacity) :
    Do i (shape s (id :: u :: a :: l) r m) (shape (sourceOpened s id.toNat h (textAt m a u)) (toCell (nextSource s) :: l) r m) := by
  obtain ⟨w, hw, hp⟩ := hb
  have hp' := prim_inj hp (p := .load .openSource) rfl
  have h1 : sourceOpened s id.toNat h (textAt m a u) = beside s { sideOf s with
      files := s.task.files.set (id.toNat - 1) none, sources := placed s.task.sources ⟨h, textAt m a u⟩,
      lines := if freePlace s.task.sources < s.task.sources.length then s.task.lines else s.task.lines ++ [some []] } := rfl
  rw [h1]
  simp only [capacity] at hl
  refine doing_beside hw (by simp [capacity]; omega) hr (by simp [capacity]; omega) fun v k1 k2 k3 k4 => ?_
  have hrep := items_eq_iff.mp k1
  have hf' : v.task.files = s.task.files := congrArg Side.files k3
  have hs' : v.task.sources = s.task.sources := congrArg Side.sources k3
  have hl' : v.task.lines = s.task.lines := congrArg Side.lines k3
  refine ⟨v.task.s.pop3.2.push (toCell (nextSource s)), ?_, ?_⟩
  · rw [hp']
    show openSource _ v = _
    refine Eq.trans (b := .ok ((), v.setTask { v.task with
      s := v.task.s.pop3.2.push (toCell (nextSource s)), files := s.task.files.set (id.toNat - 1) none
      sources := placed s.task.sources ⟨h, textAt m a u⟩
      lines := if freePlace s.task.sources < s.task.sources.length then s.task.lines else s.task.lines ++ [some []] })) ?_ ?_
    rotate_left
    · rw [← k3, ← hf', ← hs', ← hl', beside, VM.task_setTask, VM.setTask_setTask]
      rfl
    unfold openSource
    rw [M.bind_ok (Files.pop3 v), hrep.pop3_fst]
    dsimp only
    rw [M.bind_ok (getTask_apply _), if_pos hid, Files.task_eq]
    dsimp only
    rw [hf', hf]
    dsimp only
    rw [M.bind_ok (Files.set _ _), k2, M.bind_ok (Files.rd (Files.text_ok hin))]
    rw [show withFiles v v.task.s.pop3.2 (s.task.files.set (id.toNat - 1) none) v.host m =
      v.setTask { v.task with s := v.task.s.pop3.2, files := s.task.files.set (id.toNat - 1) none } by rw [← k2]; rfl]
    unfold enterSource
    rw [M.bind_ok (getTask_apply _), VM.task_setTask]
    dsimp only
    by_cases hp : freePlace s.task.sources < s.task.sources.length
    · rw [hs', freeSlot_some hp, if_pos hp, placed, if_pos hp]
      dsimp only
      rw [M.bind_ok (modTask_apply _ _), sPush_apply]
      simp only [VM.setTask_setTask, VM.task_setTask, hl']
      rfl
    · have := freePlace_le s.task.sources
      rw [hs', freeSlot_none hp, if_neg hp, placed, if_neg hp]
      dsimp only
      rw [M.bind_ok (sPush_apply _ _), modTask_apply]
      simp only [VM.setTask_setTask, VM.task_setTask, hl', nextSource, show freePlace s.task.sources = s.task.sources.length by omega]
  · rw [pop3_holding k1, push_holding _ _ (by rw [holding_items _ (by omega)]; omega), holding_items _ (by omega)]
    exact LikeStack.holding2 _ (by simp [capacity]; omega) (by simp; omega)

theorem doing_closeSource {id : Cell} {f : Source} (hb : Builtin wl i "close-source") (hid : 0 < id.toInt)
    (hne : s.task.st.sourceId ≠ id) (hf : s.task.sources[id.toNat - 1]? = some (some f)) (hl : l.length + 1 ≤ capacity)
    (hr : r.length ≤ capacity) : Do i (shape s (id :: l) r m) (shape (closed s id.toNat) l r m) := by
  obtain ⟨w, hw, hp⟩ := hb
  have hp' := prim_inj hp (p := .load .closeSource) rfl
  have h1 : closed s id.toNat = beside s { sideOf s with sources := s.task.sources.set (id.toNat - 1) none } := rfl
  rw [h1]
  simp only [capacity] at hl
  refine doing_beside hw (by simp [capacity]; omega) hr (by simp [capacity]; omega) fun v k1 k2 k3 k4 => ?_
  have e : v.task.s.pop.1 = id := (items_eq_iff.mp k1).pop_fst
  have hs' : v.task.sources = s.task.sources := congrArg Side.sources k3
  have hi' : v.task.st.sourceId = s.task.st.sourceId := congrArg Side.id k3
  refine ⟨v.task.s.pop.2, ?_, by rw [pop_holding k1]; exact .refl _⟩
  rw [hp']
  show closeSource _ v = _
  refine Eq.trans (b := .ok ((), v.setTask { v.task with
    s := v.task.s.pop.2, sources := s.task.sources.set (id.toNat - 1) none })) ?_ ?_
  rotate_left
  · rw [← k3, ← hs', beside, VM.task_setTask, VM.setTask_setTask]
    rfl
  unfold closeSource
  rw [M.bind_apply, sPop_apply]
  dsimp only
  rw [M.bind_ok (getTask_apply _), VM.task_setTask, e, hi', if_neg hne, if_pos hid, hs', hf]
  dsimp only
  rw [modTask_apply]
  simp only [VM.setTask_setTask, VM.task_setTask]

end
end Verif
