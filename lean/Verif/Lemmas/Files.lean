import Verif.Spec.Files
import Verif.Lemmas.Memory
import Verif.Lemmas.Stack
import Verif.Lemmas.Footprint

/-!
# Running the file words
-/

namespace Verif
open Spec Stack

namespace Files

variable {s : VM} {st : Stack Cell} {fl : List (Option Handle)} {h : Host} {d : DataSpace}

theorem pop1 (s : VM) : sPop s = .ok (s.task.s.pop.1, withFiles s s.task.s.pop.2 s.task.files s.host s.ds) := rfl
theorem pop2 (s : VM) : sPop2 s = .ok (s.task.s.pop2.1, withFiles s s.task.s.pop2.2 s.task.files s.host s.ds) := rfl
theorem pop3 (s : VM) : sPop3 s = .ok (s.task.s.pop3.1, withFiles s s.task.s.pop3.2 s.task.files s.host s.ds) := rfl

theorem task_eq : (withFiles s st fl h d).task = { s.task with s := st, files := fl } :=
  VM.task_setTask s _
theorem host_eq : (withFiles s st fl h d).host = h := rfl
theorem ds_eq : (withFiles s st fl h d).ds = d := rfl

theorem setTask_eq (st' : Stack Cell) (fl' : List (Option Handle)) :
    (withFiles s st fl h d).setTask { s.task with s := st', files := fl' } = withFiles s st' fl' h d := by
  simp only [withFiles, VM.setTask, VM.mk.injEq, true_and, and_true]
  funext i; split <;> rfl

theorem ok_unit {a b : VM} (h : a = b) : (Except.ok ((), a) : Except Fault (Unit × VM)) = .ok ((), b) := by
  rw [h]

theorem push (v : Cell) : sPush v (withFiles s st fl h d) = .ok ((), withFiles s (st.push v) fl h d) := by
  rw [sPush_apply, task_eq]; exact ok_unit (setTask_eq _ _)
theorem push2 (v w : Cell) :
    sPush2 v w (withFiles s st fl h d) = .ok ((), withFiles s (st.push2 v w) fl h d) := by
  rw [sPush2_apply, task_eq]; exact ok_unit (setTask_eq _ _)
theorem push3 (u v w : Cell) :
    sPush3 u v w (withFiles s st fl h d) = .ok ((), withFiles s (st.push3 u v w) fl h d) := by
  rw [sPush3_apply, task_eq]; exact ok_unit (setTask_eq _ _)
theorem set (i : Nat) (x : Option Handle) :
    setFile i x (withFiles s st fl h d) = .ok ((), withFiles s st (fl.set i x) h d) := by
  unfold setFile
  rw [modTask_apply, task_eq]; exact ok_unit (setTask_eq _ _)
theorem append (x : Option Handle) :
    modTask (fun t => { t with files := t.files ++ [x] }) (withFiles s st fl h d) =
      .ok ((), withFiles s st (fl ++ [x]) h d) := by
  rw [modTask_apply, task_eq]; exact ok_unit (setTask_eq _ _)
theorem call (c : Ctx) : hostCall c (withFiles s st fl h d) =
    .ok (c.cfg.ioFails h.calls, withFiles s st fl { h with calls := h.calls + 1 } d) := rfl
theorem mod (f : Host → Host) :
    modHost f (withFiles s st fl h d) = .ok ((), withFiles s st fl (f h) d) := rfl
theorem rd {α : Type} {f : DataSpace → Except Fault α} {a : α} (e : f d = .ok a) :
    dsRd f (withFiles s st fl h d) = .ok (a, withFiles s st fl h d) := dsRd_ok e
theorem op {f : DataSpace → Except Fault DataSpace} {d' : DataSpace} (e : f d = .ok d') :
    dsOp f (withFiles s st fl h d) = .ok ((), withFiles s st fl h d') := by
  rw [dsOp_apply, ds_eq, e]; rfl

theorem opSet (a : Nat) (got : List Byte) :
    dsOp (fun d => .ok (d.setBytes a got)) (withFiles s st fl h d) =
      .ok ((), withFiles s st fl h (d.setBytes a got)) := rfl

/-! ## The view -/

theorem opened_none {id : Cell} (hn : id.toInt ≤ 0) : (disk s).opened id = none := by
  simp only [disk]; rw [if_neg (by omega)]

theorem opened_pos {id : Cell} (hn : 0 < id.toInt) :
    (disk s).opened id = (s.task.files[id.toNat - 1]?).join := by
  simp only [disk]; rw [if_pos hn]

theorem toNat_pos {id : Cell} (hn : 0 < id.toInt) : 0 < id.toNat := by
  rcases Nat.eq_zero_or_pos id.toNat with h | h
  · have : id = 0 := BitVec.eq_of_toNat_eq (by simpa using h)
    subst this; exact absurd hn (by decide)
  · exact h

theorem toNat_neg {id : Cell} (hn : id.toInt ≤ 0) (h0 : id ≠ 0) : 2 ^ 63 ≤ id.toNat := by
  have : id.toNat ≠ 0 := fun e => h0 (BitVec.eq_of_toNat_eq (by simpa using e))
  rw [BitVec.toInt_eq_toNat_cond] at hn
  split at hn <;> omega

theorem disk_put {id : Cell} (hn : 0 < id.toInt) {y : Option Handle} (hy : fl[id.toNat - 1]? = some y)
    (x : Option Handle) (st' : Stack Cell) (d' : DataSpace) :
    disk (withFiles s st' (fl.set (id.toNat - 1) x) h d') = (disk (withFiles s st fl h d)).put id x := by
  simp only [disk, Disk.put, task_eq, host_eq, Disk.mk.injEq, and_true]
  funext j
  by_cases hj : 0 < j.toInt
  · rw [if_pos hj]
    by_cases e : j = id
    · subst e
      rw [if_pos rfl, List.getElem?_set_self (List.getElem?_eq_some_iff.1 hy).1]; rfl
    · rw [if_neg e, if_pos hj, List.getElem?_set_ne]
      intro he
      have h1 := toNat_pos hj
      have h2 := toNat_pos hn
      exact e (BitVec.eq_of_toNat_eq (by omega))
  · rw [if_neg hj, if_neg hj, if_neg (fun e => hj (by rw [e]; exact hn))]

theorem toInt_small {n : Nat} (h : n < 2 ^ 63) : (toCell n).toInt = n := toInt_ofNat_small h
theorem toNat_small {n : Nat} (h : n < 2 ^ 63) : (toCell n).toNat = n := by
  simp only [toCell, BitVec.toNat_ofNat]; omega

theorem disk_append {x : Option Handle} (hl : fl.length + 1 < 2 ^ 63) (st' : Stack Cell) (d' : DataSpace) :
    disk (withFiles s st' (fl ++ [x]) h d') =
      (disk (withFiles s st fl h d)).put (toCell (fl.length + 1)) x := by
  simp only [disk, Disk.put, task_eq, host_eq, Disk.mk.injEq, and_true]
  funext j
  by_cases hj : 0 < j.toInt
  · rw [if_pos hj]
    have h1 := toNat_pos hj
    by_cases e : j = toCell (fl.length + 1)
    · subst e
      rw [if_pos rfl, toNat_small hl]; simp
    · rw [if_neg e, if_pos hj]
      have : j.toNat ≠ fl.length + 1 := fun he => e (BitVec.eq_of_toNat_eq (by rw [he, toNat_small hl]))
      rcases Nat.lt_or_ge (j.toNat - 1) fl.length with h2 | h2
      · rw [List.getElem?_append_left h2]
      · rw [List.getElem?_eq_none (by simp; omega), List.getElem?_eq_none (by omega)]
  · rw [if_neg hj, if_neg hj, if_neg (fun e => hj (by rw [e, toInt_small hl]; omega))]

theorem disk_same (st' : Stack Cell) (d' : DataSpace) (n : Nat) :
    disk (withFiles s st' s.task.files { s.host with calls := n } d') = disk s := by
  simp only [disk, task_eq, host_eq]

theorem disk_same' (st' : Stack Cell) (d' : DataSpace) :
    disk (withFiles s st' s.task.files s.host d') = disk s := by
  simp only [disk, task_eq, host_eq]

/-! ## The words -/

/-- What is to be shown of each word. -/
def Good (c : Ctx) (w : FilePrim) (args l : List Cell) (s : VM) : Prop :=
  ∃ st fl h d r, action c (.file w) s = .ok ((), withFiles s st fl h d) ∧ st.items = r ++ l ∧
    FileSpec (c.cfg.ioFails s.host.calls) s.ds (disk s) d (disk (withFiles s st fl h d)) w args r

theorem failed1 (e : Cell) (he : e ≠ 0) : Failed 1 [e] := ⟨rfl, _, _, rfl, he⟩
theorem failed2 (a e : Cell) (he : e ≠ 0) : Failed 2 [e, a] := ⟨rfl, _, _, rfl, he⟩
theorem failed3 (a b e : Cell) (he : e ≠ 0) : Failed 3 [e, b, a] := ⟨rfl, _, _, rfl, he⟩

theorem ior1 : Exn.invalidNumericArgument.toCell ≠ 0 := by decide
theorem ior2 : Exn.fileIO.toCell ≠ 0 := by decide
theorem ior3 : Exn.resultOutOfRange.toCell ≠ 0 := by decide
theorem ior4 : Exn.invalidMemoryAddress.toCell ≠ 0 := by decide

section
variable {c : Ctx} {l : List Cell} {id : Cell}

theorem bind_eq {α β : Type} {m : M α} {k : α → M β} {s s' : VM} {a : α} {x : Except Fault (β × VM)}
    (h : m s = .ok (a, s')) (h' : k a s' = x) : (m >>= k) s = x := by rw [M.bind_ok h]; exact h'

theorem items_push {xs : List Cell} (hr : Rep st xs) (hl : xs.length < 250) (v : Cell) :
    (st.push v).items = [v] ++ xs := items_eq_iff.2 (hr.push (by omega) v)
theorem items_push2 {xs : List Cell} (hr : Rep st xs) (hl : xs.length < 250) (v w : Cell) :
    (st.push2 v w).items = [w, v] ++ xs := items_eq_iff.2 (hr.push2 (by omega) v w)
theorem items_push3 {xs : List Cell} (hr : Rep st xs) (hl : xs.length < 250) (u v w : Cell) :
    (st.push3 u v w).items = [w, v, u] ++ xs := items_eq_iff.2 (hr.push3 (by omega) u v w)

theorem range_ok {oc : Bool} {d : DataSpace} {a u : Cell} (hw : a.toNat + u.toNat < 2 ^ 64) :
    rangeOk oc d a.toNat u.toNat = .ok (decide (Inside d a u)) := by
  unfold rangeOk
  by_cases h : d.start ≤ a.toNat
  · rw [if_pos h, uadd_ok (by simpa [usizeMod] using hw)]
    simp [Inside, h, bind, Except.bind]
  · rw [if_neg h]; simp [Inside, h]

theorem text_ok {d : DataSpace} {a u : Cell} (h : Inside d a u) :
    d.getBytes a.toNat u.toNat = .ok (textAt d a u) := by
  unfold DataSpace.getBytes
  split
  · rename_i h0; simp [textAt, h0]
  · rw [if_pos (show d.valid a.toNat u.toNat from h)]; rfl

theorem resizes (old : List Byte) (n : Nat) : Resizes old n (resizeTo old n) := by
  refine ⟨by simp [resizeTo]; omega, fun i hi => ?_⟩
  simp only [resizeTo, List.getD_eq_getElem?_getD]
  rcases Nat.lt_or_ge i old.length with h | h
  · rw [List.getElem?_append_left (by simp; omega), List.getElem?_take_of_lt hi]
  · rw [List.getElem?_append_right (by simp; omega), List.getElem?_eq_none h, List.getElem?_replicate]
    split <;> rfl

theorem overwrites (old : List Byte) (pos : Nat) (bs : List Byte) :
    Overwrites old pos bs (writeAt old pos bs) := by
  have hl : ((old ++ List.replicate (pos - old.length) (0 : Byte)).take pos).length = pos := by
    simp; omega
  refine ⟨by simp [writeAt]; omega, fun i => ?_⟩
  simp only [writeAt, List.getD_eq_getElem?_getD]
  rcases Nat.lt_or_ge i pos with h | h
  · rw [if_neg (by omega), List.append_assoc, List.getElem?_append_left (by omega), List.getElem?_take_of_lt h]
    rcases Nat.lt_or_ge i old.length with h2 | h2
    · rw [List.getElem?_append_left h2]
    · rw [List.getElem?_append_right h2, List.getElem?_eq_none h2, List.getElem?_replicate]
      split <;> rfl
  · rcases Nat.lt_or_ge i (pos + bs.length) with h2 | h2
    · rw [if_pos ⟨h, h2⟩, List.append_assoc, List.getElem?_append_right (by omega), hl,
        List.getElem?_append_left (by omega)]
    · rw [if_neg (by omega), List.getElem?_append_right (by rw [List.length_append, hl]; omega),
        List.length_append, hl, List.getElem?_drop]
      congr 2; omega

theorem fileSize_good (hi : s.task.s.items = [id] ++ l) (hl : l.length < 250) :
    Good c .fileSize [id] l s := by
  have hr := items_eq_iff.1 hi
  have hp := hr.pop_snd
  unfold Good
  show ∃ st fl h d r, Verif.fileSize c s = _ ∧ _
  unfold Verif.fileSize
  rw [M.bind_ok (pop1 s), hr.pop_fst]
  by_cases hn : id.toInt ≤ 0
  · rw [if_pos hn]
    refine ⟨_, _, _, _, _, push3 _ _ _, items_push3 hp hl _ _ _, ?_⟩
    rw [FileSpec, opened_none hn]
    exact ⟨failed3 _ _ _ ior1, disk_same' _ _, rfl⟩
  rw [if_neg hn, M.bind_ok (getTask_apply _), task_eq]
  simp only [FileSpec]
  rw [opened_pos (by omega)]
  cases hx : s.task.files[id.toNat - 1]? with
  | none =>
    exact ⟨_, _, _, _, _, push3 _ _ _, items_push3 hp hl _ _ _, failed3 _ _ _ ior1, disk_same' _ _, rfl⟩
  | some y =>
    cases y with
    | none =>
      exact ⟨_, _, _, _, _, push3 _ _ _, items_push3 hp hl _ _ _, failed3 _ _ _ ior1, disk_same' _ _, rfl⟩
    | some y =>
      dsimp only [Option.join]
      rw [M.bind_ok (call c)]
      by_cases hf : c.cfg.ioFails s.host.calls = true
      · rw [if_pos hf]
        refine ⟨_, _, _, _, _, push3 _ _ _, items_push3 hp hl _ _ _, fun h => ?_, fun _ =>
          ⟨failed3 _ _ _ ior2, disk_same _ _ _, rfl⟩⟩
        rw [hf] at h; cases h.1
      · rw [if_neg hf, M.bind_ok (getVM_apply _), host_eq]
        dsimp only
        split
        · refine ⟨_, _, _, _, _, push3 _ _ _, items_push3 hp hl _ _ _, fun h =>
            ⟨rfl, disk_same _ _ _, rfl⟩, fun h => absurd ⟨by simpa using hf, ?_⟩ h⟩
          simp only [disk]; omega
        · refine ⟨_, _, _, _, _, push3 _ _ _, items_push3 hp hl _ _ _, fun h => ?_, fun h =>
            ⟨failed3 _ _ _ ior3, disk_same _ _ _, rfl⟩⟩
          have := h.2
          simp only [disk] at this; omega

theorem filePosition_good (hi : s.task.s.items = [id] ++ l) (hl : l.length < 250) :
    Good c .filePosition [id] l s := by
  have hr := items_eq_iff.1 hi
  have hp := hr.pop_snd
  unfold Good
  show ∃ st fl h d r, Verif.filePosition c s = _ ∧ _
  unfold Verif.filePosition
  rw [M.bind_ok (pop1 s), hr.pop_fst]
  by_cases hn : id.toInt ≤ 0
  · rw [if_pos hn]
    refine ⟨_, _, _, _, _, push3 _ _ _, items_push3 hp hl _ _ _, ?_⟩
    rw [FileSpec, opened_none hn]
    exact ⟨failed3 _ _ _ ior1, disk_same' _ _, rfl⟩
  rw [if_neg hn]
  rw [M.bind_ok (getTask_apply _), task_eq]
  simp only [FileSpec]
  rw [opened_pos (by omega)]
  cases hx : s.task.files[id.toNat - 1]? with
  | none =>
    exact ⟨_, _, _, _, _, push3 _ _ _, items_push3 hp hl _ _ _, failed3 _ _ _ ior1, disk_same' _ _, rfl⟩
  | some y =>
    cases y with
    | none =>
      exact ⟨_, _, _, _, _, push3 _ _ _, items_push3 hp hl _ _ _, failed3 _ _ _ ior1, disk_same' _ _, rfl⟩
    | some y =>
      dsimp only [Option.join]
      rw [M.bind_ok (call c)]
      by_cases hf : c.cfg.ioFails s.host.calls = true
      · rw [if_pos hf]
        refine ⟨_, _, _, _, _, push3 _ _ _, items_push3 hp hl _ _ _, fun h => ?_, fun _ =>
          ⟨failed3 _ _ _ ior2, disk_same _ _ _, rfl⟩⟩
        rw [hf] at h; cases h.1
      · rw [if_neg hf]
        split
        · exact ⟨_, _, _, _, _, push3 _ _ _, items_push3 hp hl _ _ _, fun h =>
            ⟨rfl, disk_same _ _ _, rfl⟩, fun h => absurd ⟨by simpa using hf, by omega⟩ h⟩
        · refine ⟨_, _, _, _, _, push3 _ _ _, items_push3 hp hl _ _ _, fun h => ?_, fun h =>
            ⟨failed3 _ _ _ ior3, disk_same _ _ _, rfl⟩⟩
          have := h.2
          omega

theorem closeFile_good (hi : s.task.s.items = [id] ++ l) (hl : l.length < 250) :
    Good c .closeFile [id] l s := by
  have hr := items_eq_iff.1 hi
  have hp := hr.pop_snd
  unfold Good
  show ∃ st fl h d r, Verif.closeFile s = _ ∧ _
  unfold Verif.closeFile
  rw [M.bind_ok (pop1 s), hr.pop_fst]
  by_cases hn : id.toInt ≤ 0
  · rw [if_pos hn]
    refine ⟨_, _, _, _, _, push _, items_push hp hl _, ?_⟩
    rw [FileSpec, opened_none hn]
    exact ⟨failed1 _ ior1, disk_same' _ _, rfl⟩
  rw [if_neg hn]
  rw [M.bind_ok (getTask_apply _), task_eq]
  simp only [FileSpec]
  rw [opened_pos (by omega)]
  cases hx : s.task.files[id.toNat - 1]? with
  | none =>
    exact ⟨_, _, _, _, _, push _, items_push hp hl _, failed1 _ ior1, disk_same' _ _, rfl⟩
  | some y =>
    cases y with
    | none =>
      exact ⟨_, _, _, _, _, push _, items_push hp hl _, failed1 _ ior1, disk_same' _ _, rfl⟩
    | some y =>
      dsimp only [Option.join]
      rw [M.bind_ok (set _ _)]
      exact ⟨_, _, _, _, _, push _, items_push hp hl _, rfl,
        (disk_put (by omega) hx _ _ _).trans (congrArg (Disk.put · id none) (disk_same' s.task.s s.ds)), rfl⟩

theorem repositionFile_good {hi' lo : Cell} (hi : s.task.s.items = [id, hi', lo] ++ l) (hl : l.length < 250) :
    Good c .repositionFile [id, hi', lo] l s := by
  have hr := items_eq_iff.1 hi
  have hp := hr.pop3_snd
  unfold Good
  show ∃ st fl h d r, Verif.repositionFile c s = _ ∧ _
  unfold Verif.repositionFile
  rw [M.bind_ok (pop3 s), hr.pop3_fst]
  dsimp only
  by_cases hn : id.toInt ≤ 0
  · rw [if_pos hn]
    refine ⟨_, _, _, _, _, push _, items_push hp hl _, ?_⟩
    rw [FileSpec, opened_none hn]
    exact ⟨failed1 _ ior1, disk_same' _ _, rfl⟩
  rw [if_neg hn]
  by_cases h1 : hi' = 0
  case neg =>
    rw [if_pos h1]
    refine ⟨_, _, _, _, _, push _, items_push hp hl _, ?_⟩
    rw [FileSpec]
    split
    · exact ⟨failed1 _ ior1, disk_same' _ _, rfl⟩
    · exact ⟨fun h => absurd h.1 h1, fun _ => ⟨failed1 _ ior1, disk_same' _ _, rfl⟩⟩
  rw [if_neg (by simp [h1])]
  by_cases h2 : lo.toNat > 9223372036854775807
  · rw [if_pos h2]
    refine ⟨_, _, _, _, _, push _, items_push hp hl _, ?_⟩
    rw [FileSpec]
    split
    · exact ⟨failed1 _ ior1, disk_same' _ _, rfl⟩
    · refine ⟨fun h => ?_, fun _ => ⟨failed1 _ ior1, disk_same' _ _, rfl⟩⟩
      have := h.2.1
      omega
  rw [if_neg h2]
  rw [M.bind_ok (getTask_apply _), task_eq]
  simp only [FileSpec]
  rw [opened_pos (by omega)]
  cases hx : s.task.files[id.toNat - 1]? with
  | none =>
    exact ⟨_, _, _, _, _, push _, items_push hp hl _, failed1 _ ior1, disk_same' _ _, rfl⟩
  | some y =>
    cases y with
    | none =>
      exact ⟨_, _, _, _, _, push _, items_push hp hl _, failed1 _ ior1, disk_same' _ _, rfl⟩
    | some y =>
      dsimp only [Option.join]
      rw [M.bind_ok (call c)]
      by_cases hf : c.cfg.ioFails s.host.calls = true
      · rw [if_pos hf]
        refine ⟨_, _, _, _, _, push _, items_push hp hl _, fun h => ?_, fun _ =>
          ⟨failed1 _ ior2, disk_same _ _ _, rfl⟩⟩
        rw [hf] at h; cases h.2.2
      · rw [if_neg hf, M.bind_ok (push _)]
        refine ⟨_, _, _, _, _, set _ _, items_push hp hl _, fun h => ⟨rfl, rfl, ?_⟩, fun h =>
          absurd ⟨h1, by omega, by simpa using hf⟩ h⟩
        exact (disk_put (by omega) hx _ _ _).trans (congrArg (Disk.put · id _) (disk_same s.task.s s.ds _))

theorem resizeFile_good {hi' lo : Cell} (hi : s.task.s.items = [id, hi', lo] ++ l) (hl : l.length < 250) :
    Good c .resizeFile [id, hi', lo] l s := by
  have hr := items_eq_iff.1 hi
  have hp := hr.pop3_snd
  unfold Good
  show ∃ st fl h d r, Verif.resizeFile c s = _ ∧ _
  unfold Verif.resizeFile
  rw [M.bind_ok (pop3 s), hr.pop3_fst]
  dsimp only
  by_cases hn : id.toInt ≤ 0
  · rw [if_pos hn]
    refine ⟨_, _, _, _, _, push _, items_push hp hl _, ?_⟩
    rw [FileSpec, opened_none hn]
    exact ⟨failed1 _ ior1, disk_same' _ _, rfl⟩
  rw [if_neg hn]
  by_cases h1 : hi' = 0
  case neg =>
    rw [if_pos h1]
    refine ⟨_, _, _, _, _, push _, items_push hp hl _, ?_⟩
    rw [FileSpec]
    split
    · exact ⟨failed1 _ ior1, disk_same' _ _, rfl⟩
    · exact ⟨fun h => absurd h.1 h1, fun _ => ⟨failed1 _ ior1, disk_same' _ _, rfl⟩⟩
  rw [if_neg (by simp [h1])]
  by_cases h2 : lo.toNat > 9223372036854775807
  · rw [if_pos h2]
    refine ⟨_, _, _, _, _, push _, items_push hp hl _, ?_⟩
    rw [FileSpec]
    split
    · exact ⟨failed1 _ ior1, disk_same' _ _, rfl⟩
    · refine ⟨fun h => ?_, fun _ => ⟨failed1 _ ior1, disk_same' _ _, rfl⟩⟩
      have := h.2.1
      omega
  rw [if_neg h2]
  rw [M.bind_ok (getTask_apply _), task_eq]
  simp only [FileSpec]
  rw [opened_pos (by omega)]
  cases hx : s.task.files[id.toNat - 1]? with
  | none =>
    exact ⟨_, _, _, _, _, push _, items_push hp hl _, failed1 _ ior1, disk_same' _ _, rfl⟩
  | some y =>
    cases y with
    | none =>
      exact ⟨_, _, _, _, _, push _, items_push hp hl _, failed1 _ ior1, disk_same' _ _, rfl⟩
    | some y =>
      dsimp only [Option.join]
      rw [M.bind_ok (call c)]
      by_cases hf : c.cfg.ioFails s.host.calls = true ∨ y.wr = false
      · rw [if_pos hf]
        refine ⟨_, _, _, _, _, push _, items_push hp hl _, fun h => ?_, fun _ =>
          ⟨failed1 _ ior2, disk_same _ _ _, rfl⟩⟩
        rcases hf with hf | hf
        · rw [hf] at h; cases h.2.2.1
        · rw [hf] at h; cases h.2.2.2
      · rw [if_neg hf, M.bind_ok (mod _)]
        refine ⟨_, _, _, _, _, push _, items_push hp hl _, fun h => ⟨_, rfl, rfl, resizes _ _, ?_⟩, fun h =>
          absurd ⟨h1, by omega, ?_, ?_⟩ h⟩
        · simp only [disk, Disk.fill, task_eq, host_eq, Host.setContent]
        · cases hb : c.cfg.ioFails s.host.calls
          · rfl
          · exact absurd (.inl hb) hf
        · cases hb : y.wr
          · exact absurd (.inr hb) hf
          · rfl

theorem writeFile_good {u a : Cell} (hi : s.task.s.items = [id, u, a] ++ l) (hl : l.length < 250)
    (hw : a.toNat + u.toNat < 2 ^ 64) :
    Good c .writeFile [id, u, a] l s := by
  have hr := items_eq_iff.1 hi
  have hp := hr.pop3_snd
  unfold Good
  show ∃ st fl h d r, Verif.writeFile c s = _ ∧ _
  unfold Verif.writeFile
  rw [M.bind_ok (pop3 s), hr.pop3_fst]
  dsimp only
  by_cases hn : id.toInt ≤ 0
  · rw [if_pos hn]
    refine ⟨_, _, _, _, _, push _, items_push hp hl _, ?_⟩
    rw [FileSpec, opened_none hn]
    exact ⟨failed1 _ ior1, disk_same' _ _, rfl⟩
  rw [if_neg hn]
  rw [M.bind_ok (getTask_apply _), task_eq]
  simp only [FileSpec]
  rw [opened_pos (by omega)]
  cases hx : s.task.files[id.toNat - 1]? with
  | none =>
    exact ⟨_, _, _, _, _, push _, items_push hp hl _, failed1 _ ior1, disk_same' _ _, rfl⟩
  | some y =>
    cases y with
    | none =>
      exact ⟨_, _, _, _, _, push _, items_push hp hl _, failed1 _ ior1, disk_same' _ _, rfl⟩
    | some y =>
      dsimp only [Option.join]
      rw [M.bind_ok (rd (range_ok hw))]
      by_cases hin : Inside s.ds a u
      case neg =>
        rw [if_neg (by simpa using hin)]
        exact ⟨_, _, _, _, _, push _, items_push hp hl _, fun h => absurd h.1 hin, fun _ =>
          ⟨failed1 _ ior2, disk_same' _ _, rfl⟩⟩
      rw [if_pos (by simpa using hin)]
      by_cases h0 : u = 0
      · rw [if_pos h0]
        exact ⟨_, _, _, _, _, push _, items_push hp hl _, fun _ => ⟨[], rfl, rfl, .inl ⟨h0, disk_same' _ _⟩⟩,
          fun h => absurd ⟨hin, .inl h0⟩ h⟩
      rw [if_neg h0, M.bind_ok (rd (text_ok hin)), M.bind_ok (call c)]
      by_cases hf : c.cfg.ioFails s.host.calls = true ∨ y.wr = false
      · rw [if_pos hf]
        refine ⟨_, _, _, _, _, push _, items_push hp hl _, fun h => ?_, fun _ =>
          ⟨failed1 _ ior2, disk_same _ _ _, rfl⟩⟩
        rcases h.2 with h2 | h2
        · exact absurd h2 h0
        rcases hf with hf | hf
        · rw [hf] at h2; cases h2.1
        · rw [hf] at h2; cases h2.2
      · rw [if_neg hf, M.bind_ok (mod _), M.bind_ok (push _)]
        refine ⟨_, _, _, _, _, set _ _, items_push hp hl _, fun h => ⟨_, rfl, rfl, .inr ⟨h0, overwrites _ _ _, ?_⟩⟩,
          fun h => absurd ⟨hin, .inr ⟨?_, ?_⟩⟩ h⟩
        · refine (disk_put (st := s.task.s) (d := s.ds) (by omega) hx _ _ _).trans ?_
          simp only [disk, Disk.put, Disk.fill, task_eq, host_eq, Host.setContent]
        · cases hb : c.cfg.ioFails s.host.calls
          · rfl
          · exact absurd (.inl hb) hf
        · cases hb : y.wr
          · exact absurd (.inr hb) hf
          · rfl

theorem readFile_good {u a : Cell} (hi : s.task.s.items = [id, u, a] ++ l) (hl : l.length < 250)
    (hw : a.toNat + u.toNat < 2 ^ 64) (hfl : s.task.files.length + 1 < 2 ^ 63) :
    Good c .readFile [id, u, a] l s := by
  have hr := items_eq_iff.1 hi
  have hp := hr.pop3_snd
  unfold Good
  show ∃ st fl h d r, Verif.readFile c s = _ ∧ _
  unfold Verif.readFile
  rw [M.bind_ok (pop3 s), hr.pop3_fst]
  dsimp only
  by_cases hz : id = 0
  · rw [if_pos hz]
    refine ⟨_, _, _, _, _, push2 _ _, items_push2 hp hl _ _, ?_⟩
    rw [FileSpec, opened_none (by rw [hz]; decide)]
    exact ⟨failed2 _ _ ior1, disk_same' _ _, rfl⟩
  rw [if_neg hz]
  by_cases hn : id.toInt ≤ 0
  · rw [M.bind_ok (getTask_apply _), task_eq]
    have hx : s.task.files[id.toNat - 1]? = none :=
      List.getElem?_eq_none (by have := toNat_neg hn hz; omega)
    dsimp only
    rw [hx]
    refine ⟨_, _, _, _, _, push2 _ _, items_push2 hp hl _ _, ?_⟩
    rw [FileSpec, opened_none hn]
    exact ⟨failed2 _ _ ior1, disk_same' _ _, rfl⟩
  rw [M.bind_ok (getTask_apply _), task_eq]
  simp only [FileSpec]
  rw [opened_pos (by omega)]
  cases hx : s.task.files[id.toNat - 1]? with
  | none =>
    exact ⟨_, _, _, _, _, push2 _ _, items_push2 hp hl _ _, failed2 _ _ ior1, disk_same' _ _, rfl⟩
  | some y =>
    cases y with
    | none =>
      exact ⟨_, _, _, _, _, push2 _ _, items_push2 hp hl _ _, failed2 _ _ ior1, disk_same' _ _, rfl⟩
    | some y =>
      dsimp only [Option.join]
      rw [M.bind_ok (rd (range_ok hw))]
      by_cases hin : Inside s.ds a u
      case neg =>
        rw [if_neg (by simpa using hin)]
        exact ⟨_, _, _, _, _, push2 _ _, items_push2 hp hl _ _, fun h => absurd h.1 hin, fun _ =>
          ⟨failed2 _ _ ior4, disk_same' _ _, rfl⟩⟩
      rw [if_pos (by simpa using hin), M.bind_ok (rd (text_ok hin)), M.bind_ok (call c),
        M.bind_ok (getVM_apply _), host_eq]
      by_cases hf : c.cfg.ioFails s.host.calls = true ∨ y.rd = false
      · rw [if_pos hf]
        refine ⟨_, _, _, _, _, push2 _ _, items_push2 hp hl _ _, fun h => ?_, fun _ =>
          ⟨failed2 _ _ ior2, disk_same _ _ _, rfl⟩⟩
        rcases hf with hf | hf
        · rw [hf] at h; cases h.2.1
        · rw [hf] at h; cases h.2.2
      · rw [if_neg hf, M.bind_ok (opSet _ _), M.bind_ok (push2 _ _)]
        refine ⟨_, _, _, _, _, set _ _, items_push2 hp hl _ _, fun h => ⟨_, rfl, rfl, ?_, rfl⟩,
          fun h => absurd ⟨hin, ?_, ?_⟩ h⟩
        · exact (disk_put (by omega) hx _ _ _).trans (congrArg (Disk.put · id _) (disk_same s.task.s s.ds _))
        · cases hb : c.cfg.ioFails s.host.calls
          · rfl
          · exact absurd (.inl hb) hf
        · cases hb : y.rd
          · exact absurd (.inr hb) hf
          · rfl

theorem Case.of {n : Nat} {r : List Cell} {k k' : Disk} {d d' : DataSpace} {p q p' q' : Prop}
    (hc : Case n r k k' d d' p q) (h1 : p' ↔ p) (h2 : q → q') : Case n r k k' d d' p' q' :=
  ⟨fun h => h2 (hc.1 (h1.1 h)), fun h => hc.2 fun hp => h (h1.2 hp)⟩

/-- Entering a file in the table. -/
theorem enter (x : Handle) (hfl : fl.length + 1 < 2 ^ 63) :
    ∃ id fl', enterFile x (withFiles s st fl h d) = .ok ((), withFiles s (st.push2 id 0) fl' h d) ∧
      0 < id.toInt ∧ (disk (withFiles s st fl h d)).opened id = none ∧
      ∀ st' d', disk (withFiles s st' fl' h d') = (disk (withFiles s st fl h d)).put id (some x) := by
  unfold enterFile
  rw [M.bind_ok (getTask_apply _), task_eq]
  dsimp only
  cases hf : freeSlot fl with
  | none =>
    refine ⟨toCell (fl.length + 1), fl ++ [some x], ?_, ?_, ?_, fun st' d' => disk_append hfl st' d'⟩
    · dsimp only
      rw [M.bind_ok (push2 _ _)]; exact append _
    · rw [toInt_small hfl]; omega
    · rw [opened_pos (by rw [toInt_small hfl]; omega), task_eq, toNat_small hfl]; simp
  | some p =>
    have hp := Does.freeSlot_spec hf
    have hlt := (List.getElem?_eq_some_iff.1 hp).1
    have e1 : (toCell (p + 1)).toInt = (p + 1 : Nat) := toInt_small (by omega)
    have e2 : (toCell (p + 1)).toNat = p + 1 := toNat_small (by omega)
    have hp' : fl[(toCell (p + 1)).toNat - 1]? = some none := by rw [e2]; exact hp
    refine ⟨toCell (p + 1), fl.set p (some x), ?_, by omega, ?_, fun st' d' => ?_⟩
    · dsimp only
      rw [M.bind_ok (set _ _)]; exact push2 _ _
    · rw [opened_pos (by omega), task_eq]
      dsimp only
      rw [hp']; rfl
    · have := disk_put (s := s) (st := st) (h := h) (d := d) (by omega) hp' (some x) st' d'
      rwa [e2] at this

theorem hostOpen_eq (c : Ctx) (p : List Byte) (rd wr : Bool) :
    hostOpen c p rd wr (withFiles s st fl h d) =
      .ok (if c.cfg.ioFails h.calls = true ∨ p = [] ∨ p.contains 0 = true then none
        else (h.dir p).map (fun i => ⟨i, 0, rd, wr⟩), withFiles s st fl { h with calls := h.calls + 1 } d) := by
  unfold hostOpen
  rw [M.bind_ok (call c), M.bind_ok (getVM_apply _), host_eq, M.ite_apply]
  split
  · rfl
  · dsimp only
    cases h.dir p <;> rfl

theorem path_iff {fails : Bool} {p : List Byte} :
    ¬ (fails = true ∨ p = [] ∨ p.contains 0 = true) ↔ fails = false ∧ PathOk p := by
  simp [PathOk]

theorem openWith_good {c : Ctx} {u a : Cell} (rd' wr : Bool) (hp : Rep st l) (hl : l.length < 250)
    (hw : a.toNat + u.toNat < 2 ^ 64) (hfl : s.task.files.length + 1 < 2 ^ 63) :
    ∃ st' fl h d r, openWith c a.toNat u.toNat (fun p => hostOpen c p rd' wr)
        (withFiles s st s.task.files s.host s.ds) = .ok ((), withFiles s st' fl h d) ∧ st'.items = r ++ l ∧
      Case 2 r (disk s) (disk (withFiles s st' fl h d)) s.ds d
        (Inside s.ds a u ∧ c.cfg.ioFails s.host.calls = false ∧
          PathOk (textAt s.ds a u) ∧ (disk s).dir (textAt s.ds a u) ≠ none)
        (∃ id ino, r = [0, id] ∧ 0 < id.toInt ∧ (disk s).opened id = none ∧ d = s.ds ∧
          (disk s).dir (textAt s.ds a u) = some ino ∧
          disk (withFiles s st' fl h d) = (disk s).put id (some ⟨ino, 0, rd', wr⟩)) := by
  unfold openWith
  rw [M.bind_ok (rd (range_ok hw))]
  by_cases hin : Inside s.ds a u
  case neg =>
    rw [if_neg (by simpa using hin)]
    exact ⟨_, _, _, _, _, push2 _ _, items_push2 hp hl _ _, fun h => absurd h.1 hin, fun _ =>
      ⟨failed2 _ _ ior4, disk_same' _ _, rfl⟩⟩
  rw [if_pos (by simpa using hin), M.bind_ok (rd (text_ok hin)), M.bind_ok (hostOpen_eq c _ _ _)]
  split
  · rename_i hf
    refine ⟨_, _, _, _, _, push2 _ _, items_push2 hp hl _ _, fun h => ?_, fun _ =>
      ⟨failed2 _ _ ior2, disk_same _ _ _, rfl⟩⟩
    exact absurd hf (path_iff.2 ⟨h.2.1, h.2.2.1⟩)
  · rename_i hf
    cases hd : s.host.dir (textAt s.ds a u) with
    | none =>
      exact ⟨_, _, _, _, _, push2 _ _, items_push2 hp hl _ _, fun h => absurd hd h.2.2.2, fun _ =>
        ⟨failed2 _ _ ior2, disk_same _ _ _, rfl⟩⟩
    | some ino =>
      obtain ⟨id, fl', e, h1, h2, h3⟩ := enter (s := s) (st := st) (fl := s.task.files)
        (h := { s.host with calls := s.host.calls + 1 }) (d := s.ds) ⟨ino, 0, rd', wr⟩ hfl
      rw [disk_same] at h2
      refine ⟨_, _, _, _, _, e, items_push2 hp hl _ _, fun _ => ⟨id, ino, rfl, h1, h2, rfl, hd, ?_⟩, fun h => ?_⟩
      · rw [h3, disk_same]
      · have := path_iff.1 hf
        refine absurd ⟨hin, this.1, this.2, ?_⟩ h
        intro he
        have : s.host.dir (textAt s.ds a u) = none := he
        rw [hd] at this; cases this

theorem openFile_good {fam u a : Cell} (hi : s.task.s.items = [fam, u, a] ++ l) (hl : l.length < 250)
    (hw : a.toNat + u.toNat < 2 ^ 64) (hfl : s.task.files.length + 1 < 2 ^ 63) :
    Good c .openFile [fam, u, a] l s := by
  have hr := items_eq_iff.1 hi
  have hp := hr.pop3_snd
  unfold Good
  show ∃ st fl h d r, Verif.openFile c s = _ ∧ _
  unfold Verif.openFile
  rw [M.bind_ok (pop3 s), hr.pop3_fst]
  dsimp only
  simp only [FileSpec]
  by_cases hu : u.toNat > 256
  · rw [if_pos hu]
    refine ⟨_, _, _, _, _, push2 _ _, items_push2 hp hl _ _, fun h => ?_, fun _ =>
      ⟨failed2 _ _ ior1, disk_same' _ _, rfl⟩⟩
    have := h.1; omega
  rw [if_neg hu]
  by_cases f0 : fam = 0
  · rw [if_pos f0]
    obtain ⟨st', fl, h, d, r, e, hit, hc⟩ := openWith_good (s := s) (c := c) true false hp hl hw hfl
    refine ⟨st', fl, h, d, r, e, hit, Case.of hc ⟨fun h => h.2.2, fun h => ⟨by omega, .inl f0, h⟩⟩ ?_⟩
    subst f0; exact fun h => h
  rw [if_neg f0]
  by_cases f1 : fam = 1
  · rw [if_pos f1]
    obtain ⟨st', fl, h, d, r, e, hit, hc⟩ := openWith_good (s := s) (c := c) false true hp hl hw hfl
    refine ⟨st', fl, h, d, r, e, hit, Case.of hc ⟨fun h => h.2.2, fun h => ⟨by omega, .inr (.inl f1), h⟩⟩ ?_⟩
    subst f1; exact fun h => h
  rw [if_neg f1]
  by_cases f2 : fam = 2
  · rw [if_pos f2]
    obtain ⟨st', fl, h, d, r, e, hit, hc⟩ := openWith_good (s := s) (c := c) true true hp hl hw hfl
    refine ⟨st', fl, h, d, r, e, hit, Case.of hc ⟨fun h => h.2.2, fun h => ⟨by omega, .inr (.inr f2), h⟩⟩ ?_⟩
    subst f2; exact fun h => h
  rw [if_neg f2]
  refine ⟨_, _, _, _, _, push2 _ _, items_push2 hp hl _ _, fun h => ?_, fun _ =>
    ⟨failed2 _ _ ior1, disk_same' _ _, rfl⟩⟩
  rcases h.2.1 with h | h | h
  · exact absurd h f0
  · exact absurd h f1
  · exact absurd h f2

theorem createWith_good {c : Ctx} {u a : Cell} (rd' : Bool) (hp : Rep st l) (hl : l.length < 250)
    (hw : a.toNat + u.toNat < 2 ^ 64) (hfl : s.task.files.length + 1 < 2 ^ 63) :
    ∃ st' fl h d r, openWith c a.toNat u.toNat (fun p => hostCreate c p rd')
        (withFiles s st s.task.files s.host s.ds) = .ok ((), withFiles s st' fl h d) ∧ st'.items = r ++ l ∧
      Case 2 r (disk s) (disk (withFiles s st' fl h d)) s.ds d
        (Inside s.ds a u ∧ c.cfg.ioFails s.host.calls = false ∧ PathOk (textAt s.ds a u))
        (∃ id ino, r = [0, id] ∧ 0 < id.toInt ∧ (disk s).opened id = none ∧ d = s.ds ∧
          (((disk s).dir (textAt s.ds a u) = some ino ∧
              disk (withFiles s st' fl h d) = ((disk s).fill ino []).put id (some ⟨ino, 0, rd', true⟩)) ∨
            ((disk s).dir (textAt s.ds a u) = none ∧ ino = (disk s).next ∧
              disk (withFiles s st' fl h d) = { (((disk s).link (textAt s.ds a u) (some ino)).fill ino []).put id
                (some ⟨ino, 0, rd', true⟩) with next := (disk s).next + 1 }))) := by
  unfold openWith
  rw [M.bind_ok (rd (range_ok hw))]
  by_cases hin : Inside s.ds a u
  case neg =>
    rw [if_neg (by simpa using hin)]
    exact ⟨_, _, _, _, _, push2 _ _, items_push2 hp hl _ _, fun h => absurd h.1 hin, fun _ =>
      ⟨failed2 _ _ ior4, disk_same' _ _, rfl⟩⟩
  rw [if_pos (by simpa using hin), M.bind_ok (rd (text_ok hin))]
  by_cases hf : c.cfg.ioFails s.host.calls = true ∨ textAt s.ds a u = [] ∨ (textAt s.ds a u).contains 0 = true
  · have e : hostCreate c (textAt s.ds a u) rd' (withFiles s st s.task.files s.host s.ds) =
        .ok (none, withFiles s st s.task.files { s.host with calls := s.host.calls + 1 } s.ds) := by
      unfold hostCreate
      rw [M.bind_ok (call c), M.bind_ok (getVM_apply _), if_pos hf]; rfl
    rw [M.bind_ok e]
    exact ⟨_, _, _, _, _, push2 _ _, items_push2 hp hl _ _, fun h => absurd hf (path_iff.2 h.2), fun _ =>
      ⟨failed2 _ _ ior2, disk_same _ _ _, rfl⟩⟩
  cases hd : s.host.dir (textAt s.ds a u) with
  | none =>
    have e : hostCreate c (textAt s.ds a u) rd' (withFiles s st s.task.files s.host s.ds) =
        .ok (some ⟨s.host.nextIno, 0, rd', true⟩, withFiles s st s.task.files
          { (({ s.host with calls := s.host.calls + 1 }.setDir (textAt s.ds a u) (some s.host.nextIno)).setContent
            s.host.nextIno []) with nextIno := s.host.nextIno + 1 } s.ds) := by
      unfold hostCreate
      rw [M.bind_ok (call c), M.bind_ok (getVM_apply _), if_neg hf, host_eq]
      dsimp only
      rw [hd]
      rfl
    rw [M.bind_ok e]
    obtain ⟨id, fl', e, h1, h2, h3⟩ := enter (s := s) (st := st) (fl := s.task.files)
      (h := { (({ s.host with calls := s.host.calls + 1 }.setDir (textAt s.ds a u) (some s.host.nextIno)).setContent
            s.host.nextIno []) with nextIno := s.host.nextIno + 1 }) (d := s.ds) ⟨s.host.nextIno, 0, rd', true⟩ hfl
    refine ⟨_, _, _, _, _, e, items_push2 hp hl _ _, fun _ => ⟨id, _, rfl, h1, ?_, rfl, .inr ⟨hd, rfl, ?_⟩⟩, fun h =>
      absurd ⟨hin, path_iff.1 hf⟩ h⟩
    · simpa only [disk, task_eq] using h2
    · rw [h3]
      simp only [disk, Disk.put, Disk.fill, Disk.link, task_eq, host_eq, Host.setContent, Host.setDir]
      congr 1
  | some ino =>
    have e : hostCreate c (textAt s.ds a u) rd' (withFiles s st s.task.files s.host s.ds) =
        .ok (some ⟨ino, 0, rd', true⟩, withFiles s st s.task.files
          ({ s.host with calls := s.host.calls + 1 }.setContent ino []) s.ds) := by
      unfold hostCreate
      rw [M.bind_ok (call c), M.bind_ok (getVM_apply _), if_neg hf, host_eq]
      dsimp only
      rw [hd]
      rfl
    rw [M.bind_ok e]
    obtain ⟨id, fl', e, h1, h2, h3⟩ := enter (s := s) (st := st) (fl := s.task.files)
      (h := { s.host with calls := s.host.calls + 1 }.setContent ino []) (d := s.ds) ⟨ino, 0, rd', true⟩ hfl
    refine ⟨_, _, _, _, _, e, items_push2 hp hl _ _, fun _ => ⟨id, _, rfl, h1, ?_, rfl, .inl ⟨hd, ?_⟩⟩, fun h =>
      absurd ⟨hin, path_iff.1 hf⟩ h⟩
    · simpa only [disk, task_eq] using h2
    · rw [h3]
      simp only [disk, Disk.put, Disk.fill, task_eq, host_eq, Host.setContent]

theorem createFile_good {fam u a : Cell} (hi : s.task.s.items = [fam, u, a] ++ l) (hl : l.length < 250)
    (hw : a.toNat + u.toNat < 2 ^ 64) (hfl : s.task.files.length + 1 < 2 ^ 63) :
    Good c .createFile [fam, u, a] l s := by
  have hr := items_eq_iff.1 hi
  have hp := hr.pop3_snd
  unfold Good
  show ∃ st fl h d r, Verif.createFile c s = _ ∧ _
  unfold Verif.createFile
  rw [M.bind_ok (pop3 s), hr.pop3_fst]
  dsimp only
  simp only [FileSpec]
  by_cases hu : u.toNat > 256
  · rw [if_pos hu]
    refine ⟨_, _, _, _, _, push2 _ _, items_push2 hp hl _ _, fun h => ?_, fun _ =>
      ⟨failed2 _ _ ior1, disk_same' _ _, rfl⟩⟩
    have := h.1; omega
  rw [if_neg hu]
  by_cases f1 : fam = 1
  · rw [if_pos f1]
    obtain ⟨st', fl, h, d, r, e, hit, hc⟩ := createWith_good (s := s) (c := c) false hp hl hw hfl
    refine ⟨st', fl, h, d, r, e, hit, Case.of hc ⟨fun h => h.2.2, fun h => ⟨by omega, .inl f1, h⟩⟩ ?_⟩
    subst f1; exact fun h => h
  rw [if_neg f1]
  by_cases f2 : fam = 2
  · rw [if_pos f2]
    obtain ⟨st', fl, h, d, r, e, hit, hc⟩ := createWith_good (s := s) (c := c) true hp hl hw hfl
    refine ⟨st', fl, h, d, r, e, hit, Case.of hc ⟨fun h => h.2.2, fun h => ⟨by omega, .inr f2, h⟩⟩ ?_⟩
    subst f2; exact fun h => h
  rw [if_neg f2]
  refine ⟨_, _, _, _, _, push2 _ _, items_push2 hp hl _ _, fun h => ?_, fun _ =>
    ⟨failed2 _ _ ior1, disk_same' _ _, rfl⟩⟩
  rcases h.2.1 with h | h
  · exact absurd h f1
  · exact absurd h f2

theorem deleteFile_good {u a : Cell} (hi : s.task.s.items = [u, a] ++ l) (hl : l.length < 250)
    (hw : a.toNat + u.toNat < 2 ^ 64) (hu : u.toNat ≤ 256) : Good c .deleteFile [u, a] l s := by
  have hr := items_eq_iff.1 hi
  have hp := hr.pop2_snd
  unfold Good
  show ∃ st fl h d r, Verif.deleteFile c s = _ ∧ _
  unfold Verif.deleteFile
  rw [M.bind_ok (pop2 s), hr.pop2_fst]
  dsimp only
  simp only [FileSpec]
  rw [if_neg (by omega), M.bind_ok (rd (range_ok hw))]
  by_cases hin : Inside s.ds a u
  case neg =>
    rw [if_neg (by simpa using hin)]
    exact ⟨_, _, _, _, _, push _, items_push hp hl _, fun h => absurd h.2.1 hin, fun _ =>
      ⟨failed1 _ ior4, disk_same' _ _, rfl⟩⟩
  rw [if_pos (by simpa using hin), M.bind_ok (rd (text_ok hin)), M.bind_ok (call c), M.bind_ok (getVM_apply _),
    host_eq]
  by_cases hf : c.cfg.ioFails s.host.calls = true ∨ (s.host.dir (textAt s.ds a u)).isNone = true ∨
      (textAt s.ds a u).contains 0 = true
  · rw [if_pos hf]
    refine ⟨_, _, _, _, _, push _, items_push hp hl _, fun h => ?_, fun _ =>
      ⟨failed1 _ ior2, disk_same _ _ _, rfl⟩⟩
    obtain ⟨-, -, h1, h2, h3⟩ := h
    rcases hf with hf | hf | hf
    · rw [hf] at h1; cases h1
    · exact absurd (Option.isNone_iff_eq_none.1 hf) h3
    · exact absurd (List.contains_iff_mem.1 hf) h2
  · rw [if_neg hf, M.bind_ok (mod _)]
    refine ⟨_, _, _, _, _, push _, items_push hp hl _, fun h => ⟨rfl, ?_, rfl⟩, fun h =>
      absurd ⟨hu, hin, ?_, ?_, ?_⟩ h⟩
    · simp only [disk, Disk.link, task_eq, host_eq, Host.setDir]
    · cases hb : c.cfg.ioFails s.host.calls
      · rfl
      · exact absurd (.inl hb) hf
    · exact fun hm => hf (.inr (.inr (List.contains_iff_mem.2 hm)))
    · exact fun hm => hf (.inr (.inl (Option.isNone_iff_eq_none.2 hm)))

/-- All of them. -/
theorem all_good (c : Ctx) (w : FilePrim) (args l : List Cell) (s : VM) (ha : args.length = fileTakes w)
    (hi : s.task.s.items = args ++ l) (hl : l.length < 250) (hw : FileArgs w args)
    (hfl : s.task.files.length + 1 < 2 ^ 63) : Good c w args l s := by
  cases w <;> simp only [fileTakes] at ha
  case fileSize =>
    match args, ha with
    | [id], _ => exact fileSize_good hi hl
  case filePosition =>
    match args, ha with
    | [id], _ => exact filePosition_good hi hl
  case closeFile =>
    match args, ha with
    | [id], _ => exact closeFile_good hi hl
  case createFile =>
    match args, ha with
    | [fam, u, a], _ => exact createFile_good hi hl hw hfl
  case deleteFile =>
    match args, ha with
    | [u, a], _ => exact deleteFile_good hi hl hw.1 hw.2
  case openFile =>
    match args, ha with
    | [fam, u, a], _ => exact openFile_good hi hl hw hfl
  case readFile =>
    match args, ha with
    | [id, u, a], _ => exact readFile_good hi hl hw hfl
  case writeFile =>
    match args, ha with
    | [id, u, a], _ => exact writeFile_good hi hl hw
  case resizeFile =>
    match args, ha with
    | [id, hi', lo], _ => exact resizeFile_good hi hl
  case repositionFile =>
    match args, ha with
    | [id, hi', lo], _ => exact repositionFile_good hi hl

end

end Files

end Verif
