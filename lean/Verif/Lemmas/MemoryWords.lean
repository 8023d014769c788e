import Verif.Spec.Memory
import Verif.Lemmas.Memory
import Verif.Lemmas.Stack

/-!
# What each memory word does, for every address
-/

namespace Verif
open Spec Stack DataSpace

/-! ## Exact behaviour of each word, for every address -/

theorem cellAddrOk_of_lt {oc : Bool} {d : DataSpace} {t : Nat} (h : t + 8 < usizeMod) :
    cellAddrOk oc d t = .ok (decide (d.start < t ∧ t + 8 ≤ d.limit)) := by
  simp only [cellAddrOk]
  by_cases hs : d.start < t
  · simp [hs, uadd_ok h, bind, Except.bind]
  · simp [hs]

theorem fetch_ok (c : Ctx) (s : VM) (h1 : s.ds.start < s.task.s.pop.1.toNat)
    (h2 : s.task.s.pop.1.toNat + 8 ≤ s.ds.limit) (h3 : s.ds.limit < 2 ^ 63) :
    fetch c s = .ok ((), withData s (s.task.s.pop.2.push (s.ds.cellAt s.task.s.pop.1.toNat))) := by
  have hv : s.ds.valid s.task.s.pop.1.toNat 8 := ⟨by omega, h2⟩
  have ho := cellAddrOk_of_lt (oc := c.oc) (d := s.ds) (t := s.task.s.pop.1.toNat)
    (by simp only [usizeMod]; omega)
  simp [fetch, dsRd_apply, ho, h1, h2, getCell, hv, withData]

theorem store_ok (c : Ctx) (s : VM) (h1 : s.ds.start < s.task.s.pop2.1.2.toNat)
    (h2 : s.task.s.pop2.1.2.toNat + 8 ≤ s.ds.limit) (h3 : s.ds.limit < 2 ^ 63) :
    store c s = .ok ((), withMem s s.task.s.pop2.2
      (s.ds.setCell s.task.s.pop2.1.2.toNat s.task.s.pop2.1.1)) := by
  have hv : s.ds.valid s.task.s.pop2.1.2.toNat 8 := ⟨by omega, h2⟩
  have ho := cellAddrOk_of_lt (oc := c.oc) (d := s.ds) (t := s.task.s.pop2.1.2.toNat)
    (by simp only [usizeMod]; omega)
  simp [store, dsRd_apply, dsOp_apply, ho, h1, h2, putCell, hv, withData, withMem]

theorem cFetch_ok (c : Ctx) (s : VM) (h1 : s.ds.start ≤ s.task.s.pop.1.toNat)
    (h2 : s.task.s.pop.1.toNat < s.ds.limit) :
    cFetch c s = .ok ((), withData s
      (s.task.s.pop.2.push ((s.ds.bytes s.task.s.pop.1.toNat).setWidth 64))) := by
  have hv : s.ds.valid s.task.s.pop.1.toNat 1 := ⟨by omega, h2⟩
  simp [cFetch, dsRd_apply, h1, h2, getU8, hv, withData]

theorem cStore_ok (c : Ctx) (s : VM) (h1 : s.ds.start < s.task.s.pop2.1.2.toNat)
    (h2 : s.task.s.pop2.1.2.toNat < s.ds.limit) :
    cStore c s = .ok ((), withMem s s.task.s.pop2.2
      (s.ds.setByte s.task.s.pop2.1.2.toNat (s.task.s.pop2.1.1.setWidth 8))) := by
  have hv : s.ds.valid s.task.s.pop2.1.2.toNat 1 := ⟨by omega, h2⟩
  simp [cStore, dsOp_apply, h1, h2, putU8, hv, withData, withMem]

theorem fetch_bad (c : Ctx) (s : VM) (h : s.task.s.pop.1.toNat + 8 < 2 ^ 64)
    (hb : ¬ (s.ds.start < s.task.s.pop.1.toNat ∧ s.task.s.pop.1.toNat + 8 ≤ s.ds.limit)) :
    fetch c s = abortWith c .invalidMemoryAddress (withData s s.task.s.pop.2) := by
  have ho := cellAddrOk_of_lt (oc := c.oc) (d := s.ds) (t := s.task.s.pop.1.toNat)
    (by simp only [usizeMod]; omega)
  simp only [hb, decide_false] at ho
  simp [fetch, dsRd_apply, ho, withData]

theorem store_bad (c : Ctx) (s : VM) (h : s.task.s.pop2.1.2.toNat + 8 < 2 ^ 64)
    (hb : ¬ (s.ds.start < s.task.s.pop2.1.2.toNat ∧ s.task.s.pop2.1.2.toNat + 8 ≤ s.ds.limit)) :
    store c s = abortWith c .invalidMemoryAddress (withData s s.task.s.pop2.2) := by
  have ho := cellAddrOk_of_lt (oc := c.oc) (d := s.ds) (t := s.task.s.pop2.1.2.toNat)
    (by simp only [usizeMod]; omega)
  simp only [hb, decide_false] at ho
  simp [store, dsRd_apply, ho, withData]

theorem cFetch_bad (c : Ctx) (s : VM)
    (hb : ¬ (s.ds.start ≤ s.task.s.pop.1.toNat ∧ s.task.s.pop.1.toNat < s.ds.limit)) :
    cFetch c s = abortWith c .invalidMemoryAddress (withData s s.task.s.pop.2) := by
  simp only [cFetch, M.bind_apply, sPop_apply, getDs_apply, VM.ds_setTask, M.ite_apply, hb, if_false,
    withData]

theorem cStore_bad (c : Ctx) (s : VM)
    (hb : ¬ (s.ds.start < s.task.s.pop2.1.2.toNat ∧ s.task.s.pop2.1.2.toNat < s.ds.limit)) :
    cStore c s = abortWith c .invalidMemoryAddress (withData s s.task.s.pop2.2) := by
  simp only [cStore, M.bind_apply, sPop2_apply, getDs_apply, VM.ds_setTask, M.ite_apply, hb, if_false,
    withData]

/-- `allot` of a fixed small amount inside the space, used by the compiling functions. -/
theorem ds_allot_nat {oc : Bool} {d : DataSpace} (hd : SoundSpace d) {k : Nat} (hk : k < 2 ^ 63)
    (h : d.here + k ≤ d.limit) : d.allot oc (BitVec.ofNat 64 k) = .ok { d with len := d.len + k } := by
  have hsm := hd.small
  have hh : (toCell d.here).toInt = d.here := by
    exact toInt_ofNat_small (by simp only [DataSpace.here, limit] at *; omega)
  have hk' : (BitVec.ofNat 64 k).toInt = k := toInt_ofNat_small hk
  have hiadd : iadd oc (toCell d.here) (BitVec.ofNat 64 k) =
      .ok (toCell d.here + BitVec.ofNat 64 k) := by
    simp only [iadd]; rw [if_pos]; rw [inIsize, hh, hk']; simp only [limit] at h; omega
  have hn : (toCell d.here + BitVec.ofNat 64 k).toNat = d.here + k := by
    simp only [toCell, BitVec.toNat_add, BitVec.toNat_ofNat, limit, DataSpace.here] at *
    omega
  simp only [DataSpace.allot, hiadd, bind, Except.bind, hn, setHere]
  rw [if_pos ⟨by simp only [DataSpace.here]; omega, h⟩]
  simp only [Except.ok.injEq, DataSpace.mk.injEq, true_and]
  simp only [DataSpace.here]; omega

theorem ds_compileCell {oc : Bool} {d : DataSpace} (hd : SoundSpace d) (v : Cell)
    (h : d.here + 8 ≤ d.limit) :
    d.compileCell oc v = .ok { d.setCell d.here v with len := d.len + 8 } := by
  have hv : d.valid d.here 8 := ⟨by simp [DataSpace.here], h⟩
  have hd' : SoundSpace (d.setCell d.here v) := ⟨hd.pos, hd.aligned, hd.small, hd.vars, hd.inside⟩
  have := ds_allot_nat (oc := oc) hd' (k := 8) (by omega) h
  simp only [DataSpace.compileCell, h, if_true, putCell, hv, bind, Except.bind]
  exact this

theorem moveOk_of_lt {oc : Bool} {d : DataSpace} {a b u : Nat} (h1 : a + u < usizeMod)
    (h2 : b + u < usizeMod) : moveOk oc d a b u =
      .ok (decide (d.start < a ∧ a + u ≤ d.limit ∧ d.start < b ∧ b + u ≤ d.limit)) := by
  simp only [moveOk, uadd_ok h1, uadd_ok h2]
  by_cases hs : d.start < a <;> by_cases hs2 : a + u ≤ d.limit <;> by_cases hs3 : d.start < b <;>
    simp [hs, hs2, hs3, bind, Except.bind]

end Verif
