import Verif.Lemmas.Monad
import Verif.Lemmas.Stack
import Verif.Model.Boot

/-!
# Memory lemmas
-/

namespace Verif

theorem uadd_ok {oc : Bool} {a b : Nat} (h : a + b < usizeMod) : uadd oc a b = .ok (a + b) := by
  simp [uadd, h]

theorem usub_ok {oc : Bool} {a b : Nat} (h : b ≤ a) : usub oc a b = .ok (a - b) := by
  simp [usub, h]

theorem toInt_ofNat_small {n : Nat} (h : n < 2 ^ 63) : (BitVec.ofNat 64 n : Cell).toInt = n := by
  rw [BitVec.toInt_eq_toNat_cond, BitVec.toNat_ofNat]
  have : n % 2 ^ 64 = n := by omega
  rw [this]; split <;> omega

theorem toNat_toCell {n : Nat} (h : n < 2 ^ 64) : (toCell n).toNat = n := by
  simp only [toCell, BitVec.toNat_ofNat]; omega

namespace DataSpace

/-- Clearing the low bits. -/
theorem land_mask (k b : Nat) (hk : k ≤ 64) (hb : b < 2 ^ 64) :
    b &&& (2 ^ 64 - 2 ^ k) = b / 2 ^ k * 2 ^ k := by
  have e : 2 ^ 64 - 2 ^ k = (2 ^ (64 - k) - 1) * 2 ^ k := by
    rw [Nat.sub_mul, ← Nat.pow_add, Nat.sub_add_cancel hk]; simp
  rw [e, ← Nat.shiftLeft_eq, ← Nat.shiftLeft_eq, ← Nat.shiftRight_eq_div_pow]
  apply Nat.eq_of_testBit_eq
  intro i
  simp only [Nat.testBit_and, Nat.testBit_shiftLeft, Nat.testBit_two_pow_sub_one,
    Nat.testBit_shiftRight]
  by_cases h : k ≤ i
  · have e : k + (i - k) = i := by omega
    rw [e]
    by_cases h2 : i < 64
    · simp [h]; omega
    · have : b.testBit i = false := Nat.testBit_lt_two_pow (Nat.lt_of_lt_of_le hb
        (Nat.pow_le_pow_right (by omega) (by omega)))
      simp [this]
  · simp [h]

theorem aligned_ok {oc : Bool} {pos : Nat} (h : pos + 8 < usizeMod) :
    aligned oc pos = .ok ((pos + 7) / 8 * 8) := by
  have := land_mask 3 (pos + 8 - 1) (by omega) (by simp [usizeMod] at h; omega)
  simp only [aligned, alignedTo, uadd_ok h]
  simp only [bind, Except.bind]
  rw [usub_ok (by omega)]
  simp only [usizeMod] at *
  rw [show (18446744073709551616 : Nat) - 8 = 2 ^ 64 - 2 ^ 3 by decide, this]
  congr 2

theorem aligned16_ok {oc : Bool} {pos : Nat} (h : pos + 16 < usizeMod) :
    aligned16 oc pos = .ok ((pos + 15) / 16 * 16) := by
  have := land_mask 4 (pos + 16 - 1) (by omega) (by simp [usizeMod] at h; omega)
  simp only [aligned16, alignedTo, uadd_ok h]
  simp only [bind, Except.bind]
  rw [usub_ok (by omega)]
  simp only [usizeMod] at *
  rw [show (18446744073709551616 : Nat) - 16 = 2 ^ 64 - 2 ^ 4 by decide, this]
  congr 2

theorem byteOf_toNat (v : Cell) (i : Nat) : (byteOf v i).toNat = v.toNat / 256 ^ i % 256 := by
  simp [byteOf]

/-- Reading back a stored cell. -/
theorem cellAt_setCell (d : DataSpace) (a : Nat) (v : Cell) : (d.setCell a v).cellAt a = v := by
  have hb (i : Nat) (hi : i < 8) : (d.setCell a v).bytes (a + i) = byteOf v i := by
    simp only [setCell]
    rw [if_pos (by omega)]
    congr 1; omega
  have h0 := hb 0 (by omega)
  simp only [Nat.add_zero] at h0
  unfold cellAt
  rw [h0, hb 1 (by omega), hb 2 (by omega), hb 3 (by omega), hb 4 (by omega), hb 5 (by omega),
    hb 6 (by omega), hb 7 (by omega)]
  simp only [byteOf_toNat]
  apply BitVec.eq_of_toNat_eq
  simp only [BitVec.toNat_ofNat]
  have := v.isLt
  omega

/-- A cell read depends only on its eight bytes. -/
theorem cellAt_congr {d d' : DataSpace} {a : Nat}
    (h : ∀ x, a ≤ x → x < a + 8 → d'.bytes x = d.bytes x) : d'.cellAt a = d.cellAt a := by
  unfold cellAt
  rw [h a (by omega) (by omega), h (a + 1) (by omega) (by omega), h (a + 2) (by omega) (by omega),
    h (a + 3) (by omega) (by omega), h (a + 4) (by omega) (by omega), h (a + 5) (by omega) (by omega),
    h (a + 6) (by omega) (by omega), h (a + 7) (by omega) (by omega)]

theorem setCell_bytes_out {d : DataSpace} {a : Nat} {v : Cell} {x : Nat} (h : x < a ∨ a + 8 ≤ x) :
    (d.setCell a v).bytes x = d.bytes x := by
  simp only [setCell]; rw [if_neg (by omega)]

theorem cellAt_setCell_ne {d : DataSpace} {a b : Nat} {v : Cell} (h : b + 8 ≤ a ∨ a + 8 ≤ b) :
    (d.setCell a v).cellAt b = d.cellAt b :=
  cellAt_congr fun x h1 h2 => setCell_bytes_out (by omega)

@[simp] theorem setCell_start (d : DataSpace) (a : Nat) (v : Cell) : (d.setCell a v).start = d.start := rfl
@[simp] theorem setCell_cap (d : DataSpace) (a : Nat) (v : Cell) : (d.setCell a v).cap = d.cap := rfl
@[simp] theorem setCell_len (d : DataSpace) (a : Nat) (v : Cell) : (d.setCell a v).len = d.len := rfl
@[simp] theorem setCell_limit (d : DataSpace) (a : Nat) (v : Cell) : (d.setCell a v).limit = d.limit := rfl
@[simp] theorem setCell_here (d : DataSpace) (a : Nat) (v : Cell) : (d.setCell a v).here = d.here := rfl
@[simp] theorem setByte_start (d : DataSpace) (a : Nat) (v : Byte) : (d.setByte a v).start = d.start := rfl
@[simp] theorem setByte_cap (d : DataSpace) (a : Nat) (v : Byte) : (d.setByte a v).cap = d.cap := rfl
@[simp] theorem setByte_len (d : DataSpace) (a : Nat) (v : Byte) : (d.setByte a v).len = d.len := rfl
@[simp] theorem setByte_limit (d : DataSpace) (a : Nat) (v : Byte) : (d.setByte a v).limit = d.limit := rfl
@[simp] theorem setByte_here (d : DataSpace) (a : Nat) (v : Byte) : (d.setByte a v).here = d.here := rfl

end DataSpace

/-! ### The copy loops of `move` -/

/-- Two data spaces that differ at most in their bytes. -/
structure SameShape (d d' : DataSpace) : Prop where
  start : d'.start = d.start
  cap : d'.cap = d.cap
  len : d'.len = d.len

theorem SameShape.refl (d : DataSpace) : SameShape d d := ⟨rfl, rfl, rfl⟩
theorem SameShape.trans {d e f : DataSpace} (h : SameShape d e) (k : SameShape e f) : SameShape d f :=
  ⟨k.start.trans h.start, k.cap.trans h.cap, k.len.trans h.len⟩

theorem SameShape.eq {d d' : DataSpace} (h : SameShape d d') : d' = { d with bytes := d'.bytes } := by
  cases d; cases d'; obtain ⟨h1, h2, h3⟩ := h; simp_all

open DataSpace

theorem moveUp_spec (n : Nat) : ∀ (d : DataSpace) (a b : Nat), b ≤ a → d.start ≤ b →
    a + n ≤ d.limit → ∃ d', moveUp d a b n = .ok d' ∧ SameShape d d' ∧
      (∀ k, k < n → d'.bytes (b + k) = d.bytes (a + k)) ∧
      (∀ x, x < b ∨ b + n ≤ x → d'.bytes x = d.bytes x) := by
  induction n with
  | zero => intro d a b _ _ _; exact ⟨d, rfl, SameShape.refl d, by omega, fun _ _ => rfl⟩
  | succ n ih =>
    intro d a b hba hs hl
    have e : moveUp d a b (n + 1) = moveUp (d.setByte b (d.bytes a)) (a + 1) (b + 1) n := by
      have h1 : d.valid a 1 := by unfold valid; omega
      have h2 : d.valid b 1 := by unfold valid; omega
      simp [moveUp, getU8, putU8, h1, h2, bind, Except.bind]
    obtain ⟨d', h1, h2, h3, h4⟩ := ih (d.setByte b (d.bytes a)) (a + 1) (b + 1) (by omega)
      (by simp; omega) (by simp; omega)
    refine ⟨d', by rw [e, h1], ⟨h2.start, h2.cap, h2.len⟩, ?_, ?_⟩
    · intro k hk
      match k with
      | 0 =>
        rw [h4 _ (by omega)]; simp [setByte]
      | k + 1 =>
        have := h3 k (by omega)
        rw [show b + (k + 1) = b + 1 + k by omega, this]
        simp only [setByte]
        rw [if_neg (by omega)]
        congr 1; omega
    · intro x hx
      rw [h4 x (by omega)]
      simp only [setByte]; rw [if_neg (by omega)]

theorem moveDown_spec (n : Nat) : ∀ (d : DataSpace) (a b : Nat), a ≤ b → d.start ≤ a →
    b + n ≤ d.limit → ∃ d', moveDown d a b n = .ok d' ∧ SameShape d d' ∧
      (∀ k, k < n → d'.bytes (b + k) = d.bytes (a + k)) ∧
      (∀ x, x < b ∨ b + n ≤ x → d'.bytes x = d.bytes x) := by
  induction n with
  | zero => intro d a b _ _ _; exact ⟨d, rfl, SameShape.refl d, by omega, fun _ _ => rfl⟩
  | succ n ih =>
    intro d a b hba hs hl
    have e : moveDown d a b (n + 1) = moveDown (d.setByte (b + n) (d.bytes (a + n))) a b n := by
      have h1 : d.valid (a + n) 1 := by unfold valid; omega
      have h2 : d.valid (b + n) 1 := by unfold valid; omega
      simp [moveDown, getU8, putU8, h1, h2, bind, Except.bind]
    obtain ⟨d', h1, h2, h3, h4⟩ := ih (d.setByte (b + n) (d.bytes (a + n))) a b (by omega)
      (by simp; omega) (by simp; omega)
    refine ⟨d', by rw [e, h1], ⟨h2.start, h2.cap, h2.len⟩, ?_, ?_⟩
    · intro k hk
      by_cases hkn : k = n
      · subst hkn
        rw [h4 _ (by omega)]; simp [setByte]
      · rw [h3 k (by omega)]
        simp only [setByte]
        rw [if_neg (by omega)]
    · intro x hx
      rw [h4 x (by omega)]
      simp only [setByte]; rw [if_neg (by omega)]

end Verif
