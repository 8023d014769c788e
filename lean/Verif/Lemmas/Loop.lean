import Verif.Lemmas.Memory
import Verif.Spec.Control

/-!
# Arithmetic of counted loops
-/

namespace Verif
open Spec

/-- The first loop parameter as the code computes it. -/
theorem params_eq (lim idx : Cell) :
    params lim idx = [cellMin + idx - lim, idx - (cellMin + idx - lim)] := by
  have h1 : cellMin + idx - lim = BitVec.ofInt 64 (idx.toInt - lim.toInt + 2 ^ 63) := by
    apply BitVec.eq_of_toInt_eq
    simp only [cellMin, BitVec.toInt_sub, BitVec.toInt_add, BitVec.toInt_ofInt, BitVec.toInt_ofNat]
    simp only [Int.bmod_def]
    have := idx.toInt_lt; have := idx.le_toInt; have := lim.toInt_lt; have := lim.le_toInt
    omega
  have h2 : idx - (cellMin + idx - lim) = BitVec.ofInt 64 (lim.toInt + 2 ^ 63) := by
    have e : idx - (cellMin + idx - lim) = lim + cellMin := by
      unfold cellMin; bv_omega
    rw [e]
    apply BitVec.eq_of_toInt_eq
    simp only [cellMin, BitVec.toInt_add, BitVec.toInt_ofInt, BitVec.toInt_ofNat]
    simp only [Int.bmod_def]
    have := lim.toInt_lt; have := lim.le_toInt
    omega
  rw [params, ← h1, ← h2]

/-- The counter as a signed number. -/
theorem counter_toInt (lim idx : Cell) :
    (cellMin + idx - lim).toInt = ((idx - lim).toNat : Int) - 2 ^ 63 := by
  have e : cellMin + idx - lim = (idx - lim) + cellMin := by bv_omega
  rw [e]
  generalize idx - lim = u
  have hu := u.isLt
  rw [BitVec.toInt_eq_toNat_cond, BitVec.toNat_add]
  have : cellMin.toNat = 2 ^ 63 := rfl
  rw [this]
  split <;> omega

/-- `checked_add` fails exactly when the line is crossed. -/
theorem crosses_iff (lim idx n : Cell) :
    Crosses lim idx n ↔ ¬ inIsize ((cellMin + idx - lim).toInt + n.toInt) := by
  rw [counter_toInt]
  have hn := n.toInt_lt
  have hn' := n.le_toInt
  have hu := (idx - lim).isLt
  have key : ∀ k : Nat, k < 2 ^ 63 → (idx + BitVec.ofNat 64 k = lim - 1 ↔
      (idx - lim).toNat + k = 2 ^ 64 - 1) := by
    intro k hk; bv_omega
  have key2 : ∀ k : Nat, k ≤ 2 ^ 63 → (idx - BitVec.ofNat 64 k = lim ↔ (idx - lim).toNat = k) := by
    intro k hk; bv_omega
  unfold Crosses inIsize
  generalize (idx - lim).toNat = u at *
  split
  · constructor
    · rintro ⟨k, h1, h2⟩
      rw [key k (by omega)] at h2
      omega
    · intro h
      refine ⟨2 ^ 64 - 1 - u, by omega, ?_⟩
      rw [key _ (by omega)]; omega
  · constructor
    · rintro ⟨k, h1, h2⟩
      rw [key2 k (by omega)] at h2
      omega
    · intro h
      refine ⟨u, by omega, ?_⟩
      rw [key2 _ (by omega)]

instance (lim idx n : Cell) : Decidable (Crosses lim idx n) := decidable_of_iff _ (crosses_iff lim idx n).symm

/-- For an increment of one the line is crossed exactly when the next index is the limit. -/
theorem crosses_one (lim idx : Cell) : Crosses lim idx 1 ↔ idx + 1 = lim := by
  have h : (1 : Cell).toInt = 1 := by decide
  unfold Crosses
  rw [h, if_pos (by decide)]
  constructor
  · rintro ⟨k, h1, h2⟩
    have : k = 0 := by omega
    subst this
    bv_omega
  · intro h
    exact ⟨0, by decide, by bv_omega⟩

/-- The parameters after an increment. -/
theorem params_add (lim idx n : Cell) :
    params lim (idx + n) = [cellMin + idx - lim + n, idx - (cellMin + idx - lim)] := by
  rw [params_eq]
  have h1 : cellMin + (idx + n) - lim = cellMin + idx - lim + n := by bv_omega
  have h2 : idx + n - (cellMin + (idx + n) - lim) = idx - (cellMin + idx - lim) := by bv_omega
  rw [h2, h1]

end Verif
