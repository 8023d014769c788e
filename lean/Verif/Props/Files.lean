import Verif.Spec.Files
import Verif.Lemmas.Files
import Verif.Lemmas.Demo
import Verif.Props.Execution

/-!
# C38, C39, C55: file words
-/

namespace Verif
open Spec Files

/-! ## C55: what each word does -/

/-- C55. Every file word, given its operands, returns and does exactly what `FileSpec` says: when it
succeeds, what it leaves, and how it changes the file system, the task's open files and the data space.
Nothing else in the machine changes. Not covered: address ranges that wrap around, and paths of more than 256
bytes for `delete-file` (`C39_refuted`). -/
theorem C55_files (c : Ctx) (w : FilePrim) (args l : List Cell) (s : VM) (ha : args.length = fileTakes w)
    (hi : s.task.s.items = args ++ l) (hl : l.length < 250) (hw : FileArgs w args)
    (hfl : s.task.files.length + 1 < 2 ^ 63) :
    ∃ st fl h d r, action c (.file w) s = .ok ((), withFiles s st fl h d) ∧ st.items = r ++ l ∧
      FileSpec (c.cfg.ioFails s.host.calls) s.ds (disk s) d (disk (withFiles s st fl h d)) w args r :=
  all_good c w args l s ha hi hl hw hfl

/-- C55. What was written can be read back: after writing `bs` at a position, the same number of bytes
read from that position is `bs`, and a read that ends before it or starts behind it gives what was there. -/
theorem C55_readBack {old new bs : List Byte} {pos : Nat} (h : Overwrites old pos bs new) :
    (new.drop pos).take bs.length = bs ∧
    (∀ n, n ≤ pos → n ≤ old.length → new.take n = old.take n) ∧
    (∀ n, pos + bs.length ≤ n → new.drop n = old.drop n) := by
  obtain ⟨hl, hg⟩ := h
  have get : ∀ i, i < new.length → new[i]? = some (new.getD i 0) := fun i hi => by
    rw [List.getD_eq_getElem?_getD, List.getElem?_eq_getElem hi]; rfl
  refine ⟨List.ext_getElem? fun i => ?_, fun n h1 h2 => List.ext_getElem? fun i => ?_, fun n h1 =>
    List.ext_getElem? fun i => ?_⟩
  · rcases Nat.lt_or_ge i bs.length with hi | hi
    · rw [List.getElem?_take_of_lt hi, List.getElem?_drop, get _ (by omega), hg, if_pos ⟨by omega, by omega⟩,
        show pos + i - pos = i from by omega, List.getD_eq_getElem?_getD, List.getElem?_eq_getElem hi]
      rfl
    · rw [List.getElem?_eq_none (by simp; omega), List.getElem?_eq_none hi]
  · rcases Nat.lt_or_ge i n with hi | hi
    · rw [List.getElem?_take_of_lt hi, List.getElem?_take_of_lt hi, get _ (by omega), hg, if_neg (by omega),
        List.getD_eq_getElem?_getD, List.getElem?_eq_getElem (show i < old.length by omega)]
      rfl
    · rw [List.getElem?_eq_none (by simp; omega), List.getElem?_eq_none (by simp; omega)]
  · rw [List.getElem?_drop, List.getElem?_drop]
    rcases Nat.lt_or_ge (n + i) old.length with hi | hi
    · rw [get _ (by omega), hg, if_neg (by omega), List.getD_eq_getElem?_getD, List.getElem?_eq_getElem hi]
      rfl
    · rw [List.getElem?_eq_none hi, List.getElem?_eq_none (by omega)]

/-- C55. The round trip through the words: `write-file`, `reposition-file` back, `read-file` into other
memory. If the three calls succeed, that memory holds what was written. -/
theorem C55_roundTrip {d d1 d2 d3 : DataSpace} {k k1 k2 k3 : Disk} {f1 f2 f3 : Bool} {h : Handle}
    {id u a b lo : Cell} {r1 r2 r3 : List Cell} (ho : k.opened id = some h) (hlo : lo.toNat = h.pos)
    (h1 : FileSpec f1 d k d1 k1 .writeFile [id, u, a] r1) (e1 : r1.head? = some 0)
    (h2 : FileSpec f2 d1 k1 d2 k2 .repositionFile [id, 0, lo] r2) (e2 : r2.head? = some 0)
    (h3 : FileSpec f3 d2 k2 d3 k3 .readFile [id, u, b] r3) (e3 : r3.head? = some 0) :
    u = 0 ∨ (r3 = [0, u] ∧ textAt d3 b u = textAt d a u) := by
  have nope : ∀ {n r}, Failed n r → r.head? = some 0 → False := by
    rintro n r ⟨-, ior, rest, rfl, h0⟩ e
    simp only [List.head?_cons, Option.some.injEq] at e
    exact h0 e
  simp only [FileSpec] at h1 h2 h3
  rw [ho] at h1
  have g1 := h1.1 (Classical.byContradiction fun hn => nope (h1.2 hn).1 e1)
  obtain ⟨new, -, rfl, ⟨hu, -⟩ | ⟨hu, hov, rfl⟩⟩ := g1
  · exact .inl hu
  refine .inr ?_
  have ho1 : ((k.fill h.ino new).put id (some { h with pos := h.pos + u.toNat })).opened id =
      some { h with pos := h.pos + u.toNat } := by simp [Disk.put]
  rw [ho1] at h2
  obtain ⟨-, rfl, rfl⟩ := h2.1 (Classical.byContradiction fun hn => nope (h2.2 hn).1 e2)
  have ho2 : ∀ (k : Disk) x y, ((k.put id x).put id (some y)).opened id = some y := fun k x y => by
    simp [Disk.put]
  rw [ho2] at h3
  obtain ⟨got, hgot, rfl, -, rfl⟩ := h3.1 (Classical.byContradiction fun hn => nope (h3.2 hn).1 e3)
  have hgot' : got = textAt d2 a u := by
    rw [hgot]
    have := (C55_readBack hov).1
    have hlen : (textAt d2 a u).length = u.toNat := by simp [textAt]
    rw [hlen] at this
    simpa [Disk.put, Disk.fill, hlo] using this
  have hlen : (textAt d2 a u).length = u.toNat := by simp [textAt]
  rw [hgot']
  refine ⟨by rw [hlen]; simp [toCell], ?_⟩
  apply List.ext_getElem
  · simp [textAt]
  · intro i hi _
    have hi' : i < u.toNat := by simpa [textAt] using hi
    simp only [textAt, DataSpace.setBytes, List.getElem_map, List.getElem_range, List.length_map,
      List.length_range]
    rw [if_pos (by omega), List.getD_eq_getElem?_getD, List.getElem?_eq_getElem (by simp; omega)]
    simp

/-- A machine with a file `a`, its name in memory, and the operands of `open-file` on the stack. -/
def shelf (l : List Cell) (files : List (Option Handle)) : VM :=
  let s := VM.blank 4096 4096
  let s := { s with
    host := { s.host with dir := fun p => if p = [97] then some 0 else none, content := fun _ => [1, 2, 3], nextIno := 1 }
    ds := s.ds.setBytes 4200 [97] }
  s.setTask { s.task with s := l.foldr (fun x st => st.push x) s.task.s, files := files }

/-- Non-vacuity: opening the file while another is open, reading from it, and writing to it. -/
example : succeeds (action (ctx demoCfg 1) (.file .openFile)) (shelf [2, 1, 4200, 7] [some ⟨9, 0, true, true⟩]) = true ∧
    (after (action (ctx demoCfg 1) (.file .openFile)) (shelf [2, 1, 4200, 7] [some ⟨9, 0, true, true⟩])).task.s.items =
      [0, 2, 7] ∧
    (after (action (ctx demoCfg 1) (.file .readFile)) (shelf [1, 2, 4300] [some ⟨0, 1, true, true⟩])).task.files =
      [some ⟨0, 3, true, true⟩] ∧
    (after (action (ctx demoCfg 1) (.file .writeFile)) (shelf [1, 1, 4200] [some ⟨0, 1, true, true⟩])).host.content 0 =
      [1, 97, 3] ∧
    (after (action (ctx demoCfg 1) (.file .deleteFile)) (shelf [257, 4200] [])).task.s.items.length = 2 := by
  decide +kernel

/-! ## C38: identifiers -/

/-- C38. When `create-file` or `open-file` succeeds, the identifier it gives was not in use, and from then
on denotes the file named by the path, at its beginning; all other identifiers denote what they did. When it
fails nothing at all has changed. -/
theorem C38_open (c : Ctx) (w : FilePrim) (hw : w = .createFile ∨ w = .openFile) (fam u a : Cell)
    (l : List Cell) (s : VM) (hi : s.task.s.items = [fam, u, a] ++ l) (hl : l.length < 250)
    (hau : a.toNat + u.toNat < 2 ^ 64) (hfl : s.task.files.length + 1 < 2 ^ 63) :
    ∃ t x ior, action c (.file w) s = .ok ((), t) ∧ t.task.s.items = ior :: x :: l ∧
      ((ior ≠ 0 ∧ disk t = disk s) ∨
       (ior = 0 ∧ 0 < x.toInt ∧ (disk s).opened x = none ∧
        (∃ h, (disk t).opened x = some h ∧ h.pos = 0 ∧ (disk t).dir (textAt s.ds a u) = some h.ino) ∧
        ∀ y, y ≠ x → (disk t).opened y = (disk s).opened y)) := by
  have key : ∀ {r : List Cell} {k k' : Disk} {d d' : DataSpace} {ok now : Prop},
      Case 2 r k k' d d' ok now → (∃ x ior, r = [ior, x] ∧ ior ≠ 0 ∧ k' = k) ∨ now := by
    intro r k k' d d' ok now hc
    by_cases h : ok
    · exact .inr (hc.1 h)
    · obtain ⟨⟨hlen, ior, rest, rfl, h0⟩, hk, -⟩ := hc.2 h
      match rest, hlen with
      | [x], _ => exact .inl ⟨x, ior, rfl, h0, hk⟩
  rcases hw with rfl | rfl
  · obtain ⟨st, fl, h, d, r, e, hit, hs⟩ := C55_files c .createFile [fam, u, a] l s rfl hi hl hau hfl
    have ht : (withFiles s st fl h d).task.s = st := by rw [task_eq]
    simp only [FileSpec] at hs
    rcases key hs with ⟨x, ior, rfl, h0, hk⟩ | ⟨x, ino, rfl, hx, hn, -, ⟨hd, hk⟩ | ⟨hd, hino, hk⟩⟩
    · exact ⟨_, x, ior, e, by rw [ht, hit]; rfl, .inl ⟨h0, hk⟩⟩
    · refine ⟨_, x, 0, e, by rw [ht, hit]; rfl, .inr ⟨rfl, hx, hn, ⟨⟨ino, 0, decide (fam = 2), true⟩, ?_, rfl, ?_⟩, ?_⟩⟩
      · rw [hk]; simp [Disk.put]
      · rw [hk]; exact hd
      · intro y hy; rw [hk]; simp [Disk.put, Disk.fill, hy]
    · refine ⟨_, x, 0, e, by rw [ht, hit]; rfl, .inr ⟨rfl, hx, hn, ⟨⟨ino, 0, decide (fam = 2), true⟩, ?_, rfl, ?_⟩, ?_⟩⟩
      · rw [hk]; simp [Disk.put]
      · rw [hk]; simp [Disk.put, Disk.fill, Disk.link]
      · intro y hy; rw [hk]; simp [Disk.put, Disk.fill, Disk.link, hy]
  · obtain ⟨st, fl, h, d, r, e, hit, hs⟩ := C55_files c .openFile [fam, u, a] l s rfl hi hl hau hfl
    have ht : (withFiles s st fl h d).task.s = st := by rw [task_eq]
    simp only [FileSpec] at hs
    rcases key hs with ⟨x, ior, rfl, h0, hk⟩ | ⟨x, ino, rfl, hx, hn, -, hd, hk⟩
    · exact ⟨_, x, ior, e, by rw [ht, hit]; rfl, .inl ⟨h0, hk⟩⟩
    · refine ⟨_, x, 0, e, by rw [ht, hit]; rfl,
        .inr ⟨rfl, hx, hn, ⟨⟨ino, 0, decide (fam ≠ 1), decide (fam ≠ 0)⟩, ?_, rfl, ?_⟩, ?_⟩⟩
      · rw [hk]; simp [Disk.put]
      · rw [hk]; exact hd
      · intro y hy; rw [hk]; simp [Disk.put, hy]

/-- The words that take an identifier; it is on top of their operands. -/
def takesId : FilePrim → Bool
  | .createFile | .deleteFile | .openFile => false
  | _ => true

/-- C38. An operation on an identifier that is not open fails and changes no file, no open file and no
memory. -/
theorem C38_closed (c : Ctx) (w : FilePrim) (hw : takesId w = true) (id : Cell) (args l : List Cell)
    (s : VM) (ha : (id :: args).length = fileTakes w) (hi : s.task.s.items = id :: args ++ l)
    (hl : l.length < 250) (haw : FileArgs w (id :: args)) (hfl : s.task.files.length + 1 < 2 ^ 63)
    (hn : (disk s).opened id = none) :
    ∃ t r, action c (.file w) s = .ok ((), t) ∧ t.task.s.items = r ++ l ∧ Failed (fileLeaves w) r ∧
      disk t = disk s ∧ t.ds = s.ds := by
  obtain ⟨st, fl, h, d, r, e, hit, hs⟩ := C55_files c w (id :: args) l s ha hi hl haw hfl
  refine ⟨_, r, e, by rw [task_eq]; exact hit, ?_⟩
  cases w <;> simp only [takesId, Bool.false_eq_true] at hw <;> simp only [fileTakes] at ha <;>
    simp only [fileLeaves] <;>
    first
    | (match args, ha with
       | [], _ => simp only [FileSpec, hn] at hs; exact hs)
    | (match args, ha with
       | [x, y], _ => simp only [FileSpec, hn] at hs; exact hs)

/-- C38. Over every execution: an identifier that denotes a file goes on denoting it (only the position
moves), unless it was closed on the way, while its task was running. Position `p` of the table is identifier
`p + 1`. -/
theorem C38_until {cfg : Cfg} {s t : VM} (h : Reach cfg s t) (hi : InSpace s) (j : Fin 5) (p : Nat)
    (x : Handle) (hx : (s.tasks j).files[p]? = some (some x)) :
    (∃ n, (t.tasks j).files[p]? = some (some { x with pos := n })) ∨
    ∃ u n, Changes runKinds s u ∧ u.cur = j ∧ u.task.files[p]? = some (some { x with pos := n }) ∧
      Changes runKinds (u.setTask { u.task with files := u.task.files.set p none }) t := by
  have hc := h.changes hi
  clear h
  induction hc with
  | refl => exact .inl ⟨x.pos, hx⟩
  | @tail u v k h hk hc ih =>
    rcases ih with ⟨n, ih⟩ | ⟨w, n, h1, h2, h3, h4⟩
    case inr => exact .inr ⟨w, n, h1, h2, h3, h4.tail hk hc⟩
    by_cases hj : j = u.cur
    case neg =>
      refine .inl ⟨n, ?_⟩
      have := (Spec.Change.others hc j hj).1.2.2.2.1
      rw [this]; exact ih
    subst hj
    have ih' : u.task.files[p]? = some (some { x with pos := n }) := ih
    by_cases k1 : k = .fileClose
    · subst k1
      obtain ⟨q, y, hq, rfl⟩ := hc
      by_cases hqp : q = p
      · subst hqp
        exact .inr ⟨u, n, h, rfl, ih, .refl _⟩
      · refine .inl ⟨n, ?_⟩
        rw [VM.tasks_setTask_self]
        show (u.task.files.set q none)[p]? = _
        rw [List.getElem?_set_ne hqp]; exact ih
    refine .inl ?_
    by_cases k2 : k = .fileUse
    · subst k2
      obtain ⟨q, y, m, hq, rfl⟩ := hc
      rw [VM.tasks_setTask_self]
      show ∃ n, (u.task.files.set q _)[p]? = _
      by_cases hqp : q = p
      · subst hqp
        rw [ih', Option.some.injEq, Option.some.injEq] at hq
        subst hq
        exact ⟨m, List.getElem?_set_self (List.getElem?_eq_some_iff.1 ih').1⟩
      · exact ⟨n, by rw [List.getElem?_set_ne hqp]; exact ih'⟩
    by_cases k3 : k = .fileOpen
    · subst k3
      obtain ⟨y, fl, hfl, rfl⟩ := hc
      rw [VM.tasks_setTask_self]
      refine ⟨n, ?_⟩
      show fl[p]? = _
      rcases hfl with ⟨q, hq, rfl⟩ | rfl
      · rw [List.getElem?_set_ne (fun e => by rw [e, ih'] at hq; cases hq)]; exact ih'
      · rw [List.getElem?_append_left (List.getElem?_eq_some_iff.1 ih').1]; exact ih'
    refine ⟨n, ?_⟩
    have key : (v.tasks u.cur).files = u.task.files := by
      cases k <;> simp only [Change] at hc
      case fileClose => exact absurd rfl k1
      case fileUse => exact absurd rfl k2
      case fileOpen => exact absurd rfl k3
      case raise => obtain ⟨e, -, rfl⟩ := hc; exact (congrArg Task.files (VM.tasks_setTask_self u _)).trans rfl
      case sourceOpen =>
        obtain ⟨src, ⟨p, -, rfl⟩ | rfl⟩ := hc <;> exact (congrArg Task.files (VM.tasks_setTask_self u _)).trans rfl
      case inputText =>
        obtain ⟨_, _, t', -, e, rfl⟩ := hc
        rw [VM.tasks_setTask_self]
        simp only [setInputBuffer] at e
        repeat' split at e
        all_goals cases e
        all_goals rfl
      case inputSlot =>
        obtain ⟨_, t', -, e, rfl⟩ := hc
        rw [VM.tasks_setTask_self]
        simp only [setInputBuffer] at e
        repeat' split at e
        all_goals cases e
        all_goals rfl
      case activate =>
        obtain ⟨i, ip, rfl⟩ := hc
        simp only [VM.setTaskAt]
        split
        · rename_i e; rw [← e]; rfl
        · rfl
      case awake =>
        obtain ⟨i, b, rfl⟩ := hc
        simp only [VM.setTaskAt]
        split
        · rename_i e; rw [← e]; rfl
        · rfl
      all_goals
        first
        | (obtain ⟨_, rfl⟩ := hc; exact (congrArg Task.files (VM.tasks_setTask_self u _)).trans rfl)
        | (obtain ⟨_, _, rfl⟩ := hc; exact (congrArg Task.files (VM.tasks_setTask_self u _)).trans rfl)
        | (obtain ⟨_, _, _, rfl⟩ := hc; exact (congrArg Task.files (VM.tasks_setTask_self u _)).trans rfl)
        | (obtain ⟨_, _, _, _, rfl⟩ := hc; exact (congrArg Task.files (VM.tasks_setTask_self u _)).trans rfl)
        | (obtain ⟨_, _, _, _, _, rfl⟩ := hc; exact (congrArg Task.files (VM.tasks_setTask_self u _)).trans rfl)
        | (obtain ⟨_, rfl⟩ := hc; rfl)
        | (obtain ⟨_, _, rfl⟩ := hc; rfl)
        | (obtain ⟨_, _, _, rfl⟩ := hc; rfl)
        | (obtain ⟨_, _, _, _, rfl⟩ := hc; rfl)
        | (obtain ⟨_, _, _, _, _, rfl⟩ := hc; rfl)
        | (obtain ⟨_, _, _, _, _, _, rfl⟩ := hc; rfl)
        | (subst hc; rfl)
    rw [key]; exact ih'

/-- C38. `open-source` hands an open file over to a new source: the file's identifier is free again, the
source's identifier was not in use, and the source has the file as it was. -/
theorem C38_source (c : Ctx) (id u a : Cell) (l : List Cell) (s : VM) (x : Handle)
    (hi : s.task.s.items = [id, u, a] ++ l) (hl : l.length < 250) (ho : (disk s).opened id = some x)
    (hin : Inside s.ds a u) (hsl : s.task.sources.length + 1 < 2 ^ 63) :
    ∃ t, ∃ q : Nat, action c (.load .openSource) s = .ok ((), t) ∧ t.task.s.items = toCell (q + 1) :: l ∧
      disk t = (disk s).put id none ∧
      (s.task.sources[q]? = some none ∨ q = s.task.sources.length) ∧
      t.task.sources[q]? = some (some ⟨x, textAt s.ds a u⟩) ∧
      (∀ q', q' ≠ q → t.task.sources[q']? = s.task.sources[q']?) ∧ t.ds = s.ds := by
  have hr := Stack.items_eq_iff.1 hi
  have hp : s.task.s.pop3.2.Rep l := hr.pop3_snd
  have hpos : 0 < id.toInt := Classical.byContradiction fun hn => by
    rw [opened_none (by omega)] at ho; cases ho
  have hx : s.task.files[id.toNat - 1]? = some (some x) := by
    rw [opened_pos hpos] at ho
    cases hf : s.task.files[id.toNat - 1]? with
    | none => rw [hf] at ho; cases ho
    | some y => rw [hf] at ho; exact congrArg some ho
  have hd := disk_put (s := s) (st := s.task.s) (h := s.host) (d := s.ds) hpos hx none s.task.s.pop3.2 s.ds
  rw [disk_same'] at hd
  have run : action c (.load .openSource) s = enterSource ⟨x, textAt s.ds a u⟩
      (withFiles s s.task.s.pop3.2 (s.task.files.set (id.toNat - 1) none) s.host s.ds) := by
    show Verif.openSource c s = _
    unfold Verif.openSource
    rw [M.bind_ok (Files.pop3 s), hr.pop3_fst]
    dsimp only
    rw [M.bind_ok (getTask_apply _), task_eq, if_pos hpos]
    dsimp only
    rw [hx]
    dsimp only
    rw [M.bind_ok (Files.set _ _), M.bind_ok (Files.rd (text_ok hin))]
  rw [run]
  unfold enterSource
  rw [M.bind_ok (getTask_apply _), task_eq]
  dsimp only
  have keep : ∀ (v : VM) (tk : Task), v.host = s.host → tk.files = s.task.files.set (id.toNat - 1) none →
      disk (v.setTask tk) = disk (withFiles s s.task.s.pop3.2 (s.task.files.set (id.toNat - 1) none) s.host s.ds) := by
    intro v tk hv htk
    simp only [disk, VM.task_setTask, htk, VM.host_setTask, hv, task_eq, host_eq]
  cases hf : freeSlot s.task.sources with
  | some q =>
    have hq := Does.freeSlot_spec hf
    have hlt := (List.getElem?_eq_some_iff.1 hq).1
    refine ⟨_, q, rfl, ?_, ?_, .inl hq, ?_, fun q' h => ?_, rfl⟩
    · rw [VM.task_setTask, VM.task_setTask, task_eq]
      exact Stack.items_eq_iff.2 (hp.push (by omega) _)
    · refine (keep _ _ ?_ ?_).trans hd
      · rfl
      · rw [VM.task_setTask, task_eq]
    · rw [VM.task_setTask, VM.task_setTask, task_eq]
      exact List.getElem?_set_self hlt
    · rw [VM.task_setTask, VM.task_setTask, task_eq]
      exact List.getElem?_set_ne (Ne.symm h)
  | none =>
    refine ⟨_, s.task.sources.length, rfl, ?_, ?_, .inr rfl, ?_, fun q' h => ?_, rfl⟩
    · rw [VM.task_setTask, VM.task_setTask, task_eq]
      exact Stack.items_eq_iff.2 (hp.push (by omega) _)
    · refine (keep _ _ ?_ ?_).trans hd
      · rfl
      · rw [VM.task_setTask, task_eq]
    · rw [VM.task_setTask, VM.task_setTask, task_eq]
      simp
    · rw [VM.task_setTask, VM.task_setTask, task_eq]
      show (s.task.sources ++ [_])[q']? = _
      rcases Nat.lt_or_ge q' s.task.sources.length with hlt | hge
      · rw [List.getElem?_append_left hlt]
      · rw [List.getElem?_eq_none (by simp; omega), List.getElem?_eq_none hge]

/-- C38. Only `close-file` and `open-source` close a file (the second hands it to the source), only
`create-file` and `open-file` open one, and only `create-file`, `delete-file`, `write-file` and `resize-file`
change the file system. -/
theorem C38_who (p : Prim) :
    (.fileClose ∈ footprint p → p = .file .closeFile ∨ p = .load .openSource) ∧
    (.fileOpen ∈ footprint p → p = .file .createFile ∨ p = .file .openFile) ∧
    (.host ∈ footprint p → p = .file .createFile ∨ p = .file .deleteFile ∨ p = .file .writeFile ∨
      p = .file .resizeFile) := by
  cases p with
  | core p => cases p <;> decide
  | out p => cases p <;> decide
  | tool p => cases p <;> decide
  | env p => simp [footprint]
  | flt p => cases p <;> decide
  | unit p => simp [footprint]
  | file p => cases p <;> decide
  | load p => cases p <;> decide
  | receive => decide

/-! ## C39: one shape -/

/-- C39. Every file word leaves as many results as its stack comment says, whatever happens, except
`delete-file` with a path that is too long. -/
theorem C39_partial (c : Ctx) (w : FilePrim) (args l : List Cell) (s : VM) (ha : args.length = fileTakes w)
    (hi : s.task.s.items = args ++ l) (hl : l.length < 250) (hw : FileArgs w args)
    (hfl : s.task.files.length + 1 < 2 ^ 63) :
    ∃ t r, action c (.file w) s = .ok ((), t) ∧ t.task.s.items = r ++ l ∧ r.length = fileLeaves w := by
  obtain ⟨st, fl, h, d, r, e, hit, hs⟩ := C55_files c w args l s ha hi hl hw hfl
  refine ⟨_, r, e, by rw [task_eq]; exact hit, ?_⟩
  have key : ∀ {n : Nat} {r : List Cell} {k k' : Disk} {d d' : DataSpace} {ok now : Prop},
      Case n r k k' d d' ok now → (now → r.length = n) → r.length = n := by
    intro n r k k' d d' ok now hc hn
    by_cases h : ok
    · exact hn (hc.1 h)
    · exact (hc.2 h).1.1
  cases w <;> simp only [fileTakes] at ha <;> simp only [fileLeaves]
  case fileSize =>
    match args, ha with
    | [id], _ =>
      simp only [FileSpec] at hs
      split at hs
      · exact hs.1.1
      · exact key hs fun h => by rw [h.1]; rfl
  case filePosition =>
    match args, ha with
    | [id], _ =>
      simp only [FileSpec] at hs
      split at hs
      · exact hs.1.1
      · exact key hs fun h => by rw [h.1]; rfl
  case closeFile =>
    match args, ha with
    | [id], _ =>
      simp only [FileSpec] at hs
      split at hs
      · exact hs.1.1
      · rw [hs.1]; rfl
  case createFile =>
    match args, ha with
    | [fam, u, a], _ =>
      simp only [FileSpec] at hs
      exact key hs fun ⟨_, _, h, _⟩ => by rw [h]; rfl
  case deleteFile =>
    match args, ha with
    | [u, a], _ =>
      simp only [FileSpec] at hs
      exact key hs fun h => by rw [h.1]; rfl
  case openFile =>
    match args, ha with
    | [fam, u, a], _ =>
      simp only [FileSpec] at hs
      exact key hs fun ⟨_, _, h, _⟩ => by rw [h]; rfl
  case readFile =>
    match args, ha with
    | [id, u, a], _ =>
      simp only [FileSpec] at hs
      split at hs
      · exact hs.1.1
      · exact key hs fun ⟨_, _, h, _⟩ => by rw [h]; rfl
  case writeFile =>
    match args, ha with
    | [id, u, a], _ =>
      simp only [FileSpec] at hs
      split at hs
      · exact hs.1.1
      · exact key hs fun ⟨_, h, _⟩ => by rw [h]; rfl
  case resizeFile =>
    match args, ha with
    | [id, hi', lo], _ =>
      simp only [FileSpec] at hs
      split at hs
      · exact hs.1.1
      · exact key hs fun ⟨_, h, _⟩ => by rw [h]; rfl
  case repositionFile =>
    match args, ha with
    | [id, hi', lo], _ =>
      simp only [FileSpec] at hs
      split at hs
      · exact hs.1.1
      · exact key hs fun h => by rw [h.1]; rfl

/-- C39 is false of `delete-file`: with a path of more than 256 bytes it leaves two results, always. -/
theorem C39_refuted (c : Ctx) (u a : Cell) (l : List Cell) (s : VM) (hu : 256 < u.toNat)
    (hi : s.task.s.items = u :: a :: l) (hl : l.length < 250) :
    ∃ t, action c (.file .deleteFile) s = .ok ((), t) ∧
      t.task.s.items = Exn.invalidNumericArgument.toCell :: -1 :: l ∧
      (t.task.s.items.length : Int) - l.length ≠ fileLeaves .deleteFile := by
  have hr := Stack.items_eq_iff.1 hi
  have e : action c (.file .deleteFile) s = .ok ((), withFiles s (s.task.s.pop2.2.push2 (-1)
      Exn.invalidNumericArgument.toCell) s.task.files s.host s.ds) := by
    show Verif.deleteFile c s = _
    unfold Verif.deleteFile
    rw [M.bind_ok (Files.pop2 s), hr.pop2_fst]
    dsimp only
    rw [if_pos hu]
    exact Files.push2 _ _
  have hit := items_push2 hr.pop2_snd hl (-1) Exn.invalidNumericArgument.toCell
  refine ⟨_, e, by rw [task_eq]; exact hit, ?_⟩
  rw [task_eq]
  dsimp only
  rw [hit]
  simp [fileLeaves]
  omega

end Verif
