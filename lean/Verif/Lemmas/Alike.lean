import Verif.Lemmas.Run

/-!
# Machines that agree up to places that hold nothing
-/

namespace Verif
open Spec Stack

theorem Spec.Alike.refl (s : VM) : Alike s s :=
  ⟨s.task.s, s.task.r, s.task.f, .refl _, .refl _, .refl _, (VM.setTask_task s).symm⟩

theorem Spec.Alike.symm {s t : VM} (h : Alike s t) : Alike t s := by
  obtain ⟨ds, rs, fs, h1, h2, h3, rfl⟩ := h
  refine ⟨t.task.s, t.task.r, t.task.f, ?_, ?_, ?_, ?_⟩
  · simpa using h1.symm
  · simpa using h2.symm
  · simpa using h3.symm
  · simp
    exact (VM.setTask_task t).symm

theorem Spec.Alike.trans {s t u : VM} (h : Alike s t) (k : Alike t u) : Alike s u := by
  obtain ⟨ds, rs, fs, h1, h2, h3, rfl⟩ := h
  obtain ⟨ds', rs', fs', k1, k2, k3, rfl⟩ := k
  refine ⟨ds, rs, fs, ?_, ?_, ?_, ?_⟩
  · refine h1.trans ?_; simpa using k1
  · refine h2.trans ?_; simpa using k2
  · refine h3.trans ?_; simpa using k3
  · simp

theorem Spec.Alike.setData {s t : VM} (h : Alike s t) {l : List Cell} (hl : l.length < 256) :
    Alike (setData s l) (setData t l) := by
  obtain ⟨ds, rs, fs, h1, h2, h3, rfl⟩ := h
  refine ⟨holding ds l, rs, fs, ?_, ?_, ?_, ?_⟩
  · simpa [Spec.setData] using h1.hold l hl
  · simpa [Spec.setData] using h2
  · simpa [Spec.setData] using h3
  · simp [Spec.setData]

theorem Spec.Alike.setRet {s t : VM} (h : Alike s t) {l : List Cell} (hl : l.length < 256) :
    Alike (setRet s l) (setRet t l) := by
  obtain ⟨ds, rs, fs, h1, h2, h3, rfl⟩ := h
  refine ⟨ds, holding rs l, fs, ?_, ?_, ?_, ?_⟩
  · simpa [Spec.setRet] using h1
  · simpa [Spec.setRet] using h2.hold l hl
  · simpa [Spec.setRet] using h3
  · simp [Spec.setRet]

theorem alike_data (s : VM) {l m : List Cell} (hl : l.length ≤ capacity) (hm : m.length < 256) :
    Alike (setData (setData s l) m) (setData s m) := by
  refine ⟨holding (holding s.task.s l) m, s.task.r, s.task.f, ?_, ?_, ?_, ?_⟩
  · simpa [setData] using LikeStack.holding2 s.task.s hl hm
  · simpa [setData] using LikeStack.refl _
  · simpa [setData] using LikeStack.refl _
  · simp [setData]

theorem alike_ret (s : VM) {l m : List Cell} (hl : l.length ≤ capacity) (hm : m.length < 256) :
    Alike (setRet (setRet s l) m) (setRet s m) := by
  refine ⟨s.task.s, holding (holding s.task.r l) m, s.task.f, ?_, ?_, ?_, ?_⟩
  · simpa [setRet] using LikeStack.refl _
  · simpa [setRet] using LikeStack.holding2 s.task.r hl hm
  · simpa [setRet] using LikeStack.refl _
  · simp [setRet]

theorem setRet_setData (s : VM) (l m : List Cell) : setRet (setData s l) m = setData (setRet s m) l := by
  simp [setRet, setData]

theorem setData_self (s : VM) : setData s (data s) = s := by
  simp only [setData, data, holding_self]
  exact VM.setTask_task s

theorem setRet_self (s : VM) : setRet s (ret s) = s := by
  simp only [setRet, ret, holding_self]
  exact VM.setTask_task s

theorem ret_setRet {s : VM} {l : List Cell} (h : l.length < 256) : ret (setRet s l) = l := by
  simp [ret, setRet, holding_items _ h]

theorem setRet_data (s : VM) (l : List Cell) : data (setRet s l) = data s := by
  simp [data, setRet]

theorem Spec.Alike.data {s t : VM} (h : Alike s t) : data s = data t := h.like.data
theorem Spec.Alike.ret {s t : VM} (h : Alike s t) : ret s = ret t := h.like.ret

theorem received_task (s : VM) (tok : List Char) (n : Nat) :
    (received s tok n).task = { s.task with st := { s.task.st with sourceIndex := n } } :=
  VM.task_setTask s _

theorem received_data (s : VM) (tok : List Char) (n : Nat) : data (received s tok n) = data s := by
  simp only [data, received_task]

theorem received_ret (s : VM) (tok : List Char) (n : Nat) : ret (received s tok n) = ret s := by
  simp only [ret, received_task]

end Verif
