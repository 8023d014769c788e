import Verif.Spec.Counted
import Verif.Lemmas.Setters
import Verif.Lemmas.MemoryWords
import Verif.Lemmas.Demo

/-!
# Counted strings
-/

namespace Verif
open Spec

theorem putCstrLoop_ok {bs : List Byte} : ∀ {d : DataSpace} {p : Nat}, d.start ≤ p → p + 1 + bs.length ≤ d.limit →
    ∃ e, d.putCstrLoop bs p = .ok e ∧ WrittenIn (p + 1) bs.length d e ∧
      ∀ i b, bs[i]? = some b → e.bytes (p + 1 + i) = b := by
  induction bs with
  | nil => intro d p _ _; exact ⟨d, rfl, ⟨rfl, rfl, rfl, fun _ _ => rfl⟩, by simp⟩
  | cons b bs ih =>
    intro d p h1 h2
    simp only [List.length_cons] at h2
    have hp : d.putU8 b (p + 1) = .ok { d with bytes := fun x => if x = p + 1 then b else d.bytes x } := by
      rw [DataSpace.putU8, if_pos (show d.valid (p + 1) 1 from ⟨by omega, by omega⟩)]
      rfl
    obtain ⟨e, e1, ⟨e2, e3, e4, e5⟩, e6⟩ := ih (d := { d with bytes := fun x => if x = p + 1 then b else d.bytes x })
      (p := p + 1) (by show d.start ≤ _; omega) (by show _ ≤ d.limit; omega)
    refine ⟨e, ?_, ⟨e2, e3, e4, ?_⟩, ?_⟩
    · simp only [DataSpace.putCstrLoop, hp]; exact e1
    · intro x hx
      simp only [List.length_cons] at hx
      rw [e5 x (by omega)]
      exact if_neg (by omega)
    · intro i c hc
      cases i with
      | zero =>
        simp only [List.getElem?_cons_zero, Option.some.injEq] at hc
        subst hc
        rw [e5 _ (by omega)]
        exact if_pos rfl
      | succ i =>
        rw [show p + 1 + (i + 1) = p + 1 + 1 + i by omega]
        exact e6 i c (by simpa using hc)

theorem putCstr_ok {oc : Bool} {bs : List Byte} {d : DataSpace} {p : Nat} (h0 : d.limit < 2 ^ 64) (h1 : d.start ≤ p)
    (h2 : p + min bs.length 255 + 8 ≤ d.limit) :
    ∃ e, d.putCstr oc bs p = .ok e ∧ WrittenIn p (min bs.length 255 + 1) d e ∧ Counted e p (bs.take 255) := by
  have hu : usizeMod = 2 ^ 64 := rfl
  have hp : ∀ v, d.putU8 v p = .ok { d with bytes := fun x => if x = p then v else d.bytes x } := by
    intro v
    rw [DataSpace.putU8, if_pos (show d.valid p 1 from ⟨by omega, by omega⟩)]
    rfl
  have hl : (bs.take (min bs.length 255)).length = min bs.length 255 := by simp
  obtain ⟨e, e1, ⟨e2, e3, e4, e5⟩, e6⟩ := putCstrLoop_ok (bs := bs.take (min bs.length 255))
    (d := { d with bytes := fun x => if x = p then BitVec.ofNat 8 (min bs.length 255) else d.bytes x }) (p := p)
    h1 (by rw [hl]; show _ ≤ d.limit; omega)
  rw [hl] at e5
  refine ⟨e, ?_, ⟨e2, e3, e4, ?_⟩, ?_, ?_⟩
  · simp only [DataSpace.putCstr]
    rw [uadd_ok (by omega)]
    simp only [bind, Except.bind]
    rw [uadd_ok (by omega)]
    simp only [if_pos h2, hp]
    exact e1
  · intro x hx
    rw [e5 x (by omega)]
    exact if_neg (by omega)
  · rw [e5 p (by omega)]
    simp only [if_true, BitVec.toNat_ofNat, List.length_take]
    omega
  · intro i b hb
    refine e6 i b ?_
    rw [List.getElem?_take] at hb ⊢
    have : (i < min bs.length 255) ↔ i < 255 ∧ i < bs.length := by omega
    by_cases h : i < 255
    · rw [if_pos h] at hb
      have := (List.getElem?_eq_some_iff.1 hb).1
      rw [if_pos (by omega)]
      exact hb
    · rw [if_neg h] at hb
      cases hb

/-- C49, the part proved. If the token fits, with 7 bytes to spare, `!token` stores it as a counted string, writes
nothing else, and clears the token. Of a token of more than 255 bytes the first 255 are stored. -/
theorem C49_partial {c : Ctx} {s : VM} {tok : List Char} (hd : SoundSpace s.ds) (ht : s.tkn = some tok)
    (hlo : s.ds.start ≤ s.task.s.pop.1.toNat)
    (hhi : s.task.s.pop.1.toNat + min (utf8 tok).length 255 + 8 ≤ s.ds.limit) :
    ∃ e, storeToken c s = .ok ((), { withMem s s.task.s.pop.2 e with tkn := some [] }) ∧
      WrittenIn s.task.s.pop.1.toNat (min (utf8 tok).length 255 + 1) s.ds e ∧
      Counted e s.task.s.pop.1.toNat ((utf8 tok).take 255) := by
  have hsmall := hd.small
  obtain ⟨e, e1, e2, e3⟩ := putCstr_ok (oc := c.oc) (bs := utf8 tok) (by simp only [DataSpace.limit]; omega) hlo hhi
  refine ⟨e, ?_, e2, e3⟩
  simp only [storeToken, M.bind_apply, sPop_apply, getVM_apply]
  rw [if_pos (by exact hlo)]
  have : (s.setTask { s.task with s := s.task.s.pop.2 }).tkn = some tok := ht
  rw [this]
  simp only [M.bind_apply]
  rw [dsOp_ok (d := e) (by exact e1)]
  rfl

/-- C49. Below the data space it raises an exception and writes nothing. -/
theorem C49_low {c : Ctx} {s : VM} (h : s.task.s.pop.1.toNat < s.ds.start) :
    storeToken c s = abortWith c .invalidMemoryAddress (withData s s.task.s.pop.2) := by
  simp only [storeToken, M.bind_apply, sPop_apply, getVM_apply]
  rw [if_neg (by show ¬ s.ds.start ≤ _; omega)]
  rfl

/-- C49. What is stored is what `count` reads: the bytes of the token after their number. -/
theorem C49_count {d : DataSpace} {a : Nat} {bs cs : List Byte} (h : Counted d a bs) (k : Counted d a cs) : bs = cs := by
  apply List.ext_getElem?
  intro i
  have hl : bs.length = cs.length := h.1.symm.trans k.1
  cases hb : bs[i]? with
  | none =>
    rw [List.getElem?_eq_none_iff] at hb
    exact (List.getElem?_eq_none_iff.2 (by omega)).symm
  | some b =>
    have hi := (List.getElem?_eq_some_iff.1 hb).1
    have hc : cs[i]? = some cs[i] := List.getElem?_eq_getElem (by omega)
    rw [hc, ← h.2 i b hb, k.2 i _ hc]

/-- C49 is false of the end of the data space: a token that does not fit is not refused with an exception. In every
build, from every such address that does not wrap around, `!token` panics. -/
theorem C49_refuted {c : Ctx} {s : VM} {tok : List Char} (ht : s.tkn = some tok)
    (hlo : s.ds.start ≤ s.task.s.pop.1.toNat) (hw : s.task.s.pop.1.toNat + min (utf8 tok).length 255 + 8 < 2 ^ 64)
    (hhi : s.ds.limit < s.task.s.pop.1.toNat + min (utf8 tok).length 255 + 8) :
    storeToken c s = .error .panic := by
  have hu : usizeMod = 2 ^ 64 := rfl
  have hp : s.ds.putCstr c.oc (utf8 tok) s.task.s.pop.1.toNat = .error .panic := by
    simp only [DataSpace.putCstr]
    rw [uadd_ok (by omega)]
    simp only [bind, Except.bind]
    rw [uadd_ok (by omega)]
    simp only [if_neg (by omega : ¬ s.task.s.pop.1.toNat + min (utf8 tok).length 255 + 8 ≤ s.ds.limit)]
  simp only [storeToken, M.bind_apply, sPop_apply, getVM_apply]
  rw [if_pos (by exact hlo)]
  have : (s.setTask { s.task with s := s.task.s.pop.2 }).tkn = some tok := ht
  rw [this]
  simp only [M.bind_apply, dsOp]
  rw [show (s.setTask { s.task with s := s.task.s.pop.2 }).ds = s.ds from rfl, hp]

/-- Non-vacuity: a token, an address below the data space, one in it and one too close to its end. -/
example : ∃ s : VM, SoundSpace s.ds ∧ s.tkn = some "two".toList ∧
    (withData s (s.task.s.push 9)).task.s.pop.1.toNat < s.ds.start ∧
    (s.ds.start ≤ (withData s (s.task.s.push 2000)).task.s.pop.1.toNat ∧
      (withData s (s.task.s.push 2000)).task.s.pop.1.toNat + min (utf8 "two".toList).length 255 + 8 ≤ s.ds.limit) ∧
    s.ds.limit < (withData s (s.task.s.push 66550)).task.s.pop.1.toNat + min (utf8 "two".toList).length 255 + 8 ∧
    (withData s (s.task.s.push 66550)).task.s.pop.1.toNat + min (utf8 "two".toList).length 255 + 8 < 2 ^ 64 := by
  refine ⟨{ VM.blank 1024 65536 with tkn := some "two".toList }, ?_, rfl, ?_⟩
  · constructor <;> decide
  · decide +kernel

end Verif
