import Verif.Lemmas.Stack

/-!
# The ring buffer against the unbounded tape
-/

namespace Verif
open Spec
namespace Stack
variable {α : Type}

/-- The ring holds the tape, for depths that do not wrap onto each other. -/
structure OnTape (st : Stack α) (t : Tape α) : Prop where
  len : (st.len.toNat : Int) = t.depth % 256
  slot : ∀ i : BitVec 8, st.inner i =
    (if i.toNat < 128 then t.tape i.toNat else t.tape (i.toNat - 256)).getD st.canary
  range : ∀ i v, t.tape i = some v → -127 ≤ i ∧ i ≤ 127

theorem onTape_new (c : α) : OnTape (Stack.new c) (Tape.empty : Tape α) := by
  refine ⟨rfl, ?_, ?_⟩
  · intro i; simp [Stack.new, Tape.empty]
  · intro i v h; simp [Tape.empty] at h

theorem onTape_reset (st : Stack α) : OnTape st.reset (Tape.empty : Tape α) := by
  refine ⟨rfl, ?_, ?_⟩
  · intro i; simp [Stack.reset, Tape.empty]
  · intro i v h; simp [Tape.empty] at h

theorem OnTape.push {st : Stack α} {t : Tape α} (h : OnTape st t) (h1 : -127 ≤ t.depth)
    (h2 : t.depth ≤ 127) (v : α) : OnTape (st.push v) (t.push v) := by
  have hl := h.len
  have hlt := st.len.isLt
  refine ⟨?_, ?_, ?_⟩
  · simp only [Stack.push, setSlot, Tape.push]
    rw [BitVec.toNat_add]; simp; omega
  · intro i
    have e : (st.push v).inner i = if i = st.len then v else st.inner i := by
      have hx : st.len + 1 - 1 = st.len := by bv_omega
      simp only [Stack.push, setSlot, hx]
    rw [e, h.slot i]
    have hc : (st.push v).canary = st.canary := rfl
    rw [hc]
    simp only [Tape.push]
    have hil := i.isLt
    by_cases hi : i = st.len
    · subst hi
      simp only [if_true]
      split
      · rw [if_pos (by omega)]; rfl
      · rw [if_pos (by omega)]; rfl
    · have hne : i.toNat ≠ st.len.toNat := fun e => hi (BitVec.eq_of_toNat_eq e)
      rw [if_neg hi]
      split
      · rw [if_neg (by omega)]
      · rw [if_neg (by omega)]
  · intro i w hw
    simp only [Tape.push] at hw
    split at hw
    · omega
    · exact h.range i w hw

theorem push2_eq (st : Stack α) (a b : α) : st.push2 a b = (st.push a).push b := by
  simp only [push2, push, setSlot]
  have e : st.len + 2 = st.len + 1 + 1 := by bv_omega
  have e2 : st.len + 2 - 2 = st.len + 1 - 1 := by bv_omega
  rw [e2]; simp only [e]

theorem push3_eq (st : Stack α) (a b c : α) : st.push3 a b c = ((st.push a).push b).push c := by
  simp only [push3, push, setSlot]
  have e : st.len + 3 = st.len + 1 + 1 + 1 := by bv_omega
  have e2 : st.len + 3 - 2 = st.len + 1 + 1 - 1 := by bv_omega
  have e3 : st.len + 3 - 3 = st.len + 1 - 1 := by bv_omega
  rw [e2, e3]; simp only [e]

theorem onTape_lower {st : Stack α} {t : Tape α} (h : OnTape st t) (n : Nat) :
    OnTape { st with len := st.len - BitVec.ofNat 8 n } { t with depth := t.depth - n } := by
  have hl := h.len
  refine ⟨?_, h.slot, h.range⟩
  simp only [BitVec.toNat_sub, BitVec.toNat_ofNat]
  have := st.len.isLt
  omega

theorem OnTape.call {st : Stack α} {t : Tape α} (h : OnTape st t) (op : StackOp α)
    (h1 : -127 ≤ t.depth) (h2 : (t.step op).depth ≤ 128) :
    OnTape (st.call op).1 (t.step op) := by
  cases op with
  | push a => exact h.push h1 (by simp [Tape.step, Tape.push] at h2; omega) a
  | push2 a b =>
    simp only [Tape.step, Tape.push] at h2
    simp only [Stack.call, push2_eq]
    exact (h.push h1 (by omega) a).push (by simp [Tape.push]; omega) (by simp [Tape.push]; omega) b
  | push3 a b c =>
    simp only [Tape.step, Tape.push] at h2
    simp only [Stack.call, push3_eq]
    exact ((h.push h1 (by omega) a).push (by simp [Tape.push]; omega) (by simp [Tape.push]; omega)
      b).push (by simp [Tape.push]; omega) (by simp [Tape.push]; omega) c
  | pop => exact onTape_lower h 1
  | pop2 => exact onTape_lower h 2
  | pop3 => exact onTape_lower h 3
  | last => exact h
  | get i => exact h
  | len => exact h
  | reset => exact onTape_reset st

theorem OnTape.calls {ops : List (StackOp α)} : ∀ {st : Stack α} {t : Tape α}, OnTape st t →
    t.Within (-127) 128 ops → OnTape (st.calls ops).1 (t.run ops) := by
  induction ops with
  | nil => intro st t h _; exact h
  | cons op ops ih =>
    intro st t h hw
    simp only [Tape.Within] at hw
    have hd : (t.step op).depth ≤ 128 := by
      cases ops with
      | nil => exact hw.2.2.2
      | cons => exact hw.2.2.2.1
    exact ih (h.call op hw.1 hd) hw.2.2

theorem call_canary (st : Stack α) (op : StackOp α) : (st.call op).1.canary = st.canary := by
  cases op <;> rfl

theorem calls_canary (st : Stack α) (ops : List (StackOp α)) :
    (st.calls ops).1.canary = st.canary := by
  induction ops generalizing st with
  | nil => rfl
  | cons op ops ih => simp only [Stack.calls]; rw [ih, call_canary]

theorem within_last {lo hi : Int} {t : Tape α} {ops : List (StackOp α)} (h : t.Within lo hi ops) :
    lo ≤ (t.run ops).depth ∧ (t.run ops).depth ≤ hi := by
  induction ops generalizing t with
  | nil => exact h
  | cons op ops ih => exact ih h.2.2

theorem OnTape.overflow_iff [DecidableEq α] {st : Stack α} {t : Tape α} (h : OnTape st t)
    (h1 : -127 ≤ t.depth) (h2 : t.depth ≤ 128) :
    st.overflow = true ↔ t.Marked st.canary 64 ∨ 64 < t.depth := by
  have hl := h.len
  have := st.len.isLt
  have hs := h.slot 64
  simp only [Stack.overflow, Bool.or_eq_true, Bool.and_eq_true, decide_eq_true_eq]
  have e : BitVec.toNat (64 : BitVec 8) = 64 := rfl
  rw [hs, e]
  simp only [show (64 : Nat) < 128 from by omega, if_true]
  constructor
  · rintro (h' | h')
    · left
      cases ht : t.tape ((64 : Nat) : Int) with
      | none => rw [ht] at h'; exact absurd rfl h'
      | some v => rw [ht] at h'; exact ⟨v, ht, h'⟩
    · right; omega
  · rintro (⟨v, hv, hne⟩ | h')
    · left; rw [show (((64 : Nat) : Int)) = 64 from rfl, hv]; exact hne
    · right; omega

theorem OnTape.underflow_iff [DecidableEq α] {st : Stack α} {t : Tape α} (h : OnTape st t)
    (h1 : -127 ≤ t.depth) (h2 : t.depth ≤ 128) :
    st.underflow = true ↔ t.Marked st.canary (-1) ∨ t.depth < 0 := by
  have hl := h.len
  have := st.len.isLt
  have hs := h.slot 255
  simp only [Stack.underflow, Bool.or_eq_true, decide_eq_true_eq]
  have e : BitVec.toNat (255 : BitVec 8) = 255 := rfl
  rw [hs, e]
  simp only [show ¬ (255 : Nat) < 128 from by omega, if_false]
  have e2 : ((255 : Nat) : Int) - 256 = -1 := by omega
  rw [e2]
  constructor
  · rintro (h' | h')
    · left
      cases ht : t.tape (-1) with
      | none => rw [ht] at h'; exact absurd rfl h'
      | some v => rw [ht] at h'; exact ⟨v, ht, h'⟩
    · right; omega
  · rintro (⟨v, hv, hne⟩ | h')
    · left; rw [hv]; exact hne
    · right; omega

end Stack

/-- While the depth stays within `lo..hi`, only places `lo..hi-1` are written. -/
theorem Spec.Tape.places {α : Type} {lo hi : Int} {ops : List (StackOp α)} :
    ∀ {t : Tape α}, (∀ i v, t.tape i = some v → lo ≤ i ∧ i < hi) → lo ≤ 0 → 0 ≤ hi →
      t.Within lo hi ops → ∀ i v, (t.run ops).tape i = some v → lo ≤ i ∧ i < hi := by
  induction ops with
  | nil => intro t h _ _ _; exact h
  | cons op ops ih =>
    intro t h hl hh hw
    simp only [Tape.Within] at hw
    refine ih ?_ hl hh hw.2.2
    have hd : (t.step op).depth ≤ hi := by
      cases ops with
      | nil => exact hw.2.2.2
      | cons => exact hw.2.2.2.1
    have hlo := hw.1
    intro i v hv
    cases op <;> simp only [Tape.step, Tape.push, Tape.empty] at hd <;>
      simp only [Tape.step] at hv
    case push =>
      simp only [Tape.push] at hv
      split at hv
      · omega
      · exact h i v hv
    case push2 =>
      by_cases h1 : i = t.depth + 1
      · omega
      · by_cases h2 : i = t.depth
        · omega
        · exact h i v (by simpa [Tape.push, h1, h2] using hv)
    case push3 =>
      by_cases h1 : i = t.depth + 1 + 1
      · omega
      · by_cases h2 : i = t.depth + 1
        · omega
        · by_cases h3 : i = t.depth
          · omega
          · exact h i v (by simpa [Tape.push, h1, h2, h3] using hv)
    all_goals first | exact h i v hv | (exfalso; simp [Tape.empty] at hv)

end Verif
