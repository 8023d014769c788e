import Verif.Lemmas.Effects
import Verif.Lemmas.Tape

/-!
# C01 – C06: stacks, stack words, arithmetic and comparison
-/

namespace Verif
open Spec Stack

/-! ## C01: the stack is a last-in first-out list -/

/-- C01. Any sequence of stack calls that the abstract list stack allows (never popping what is not
there, never holding more than 255) returns exactly what the list returns, and leaves exactly the
list's content. -/
theorem C01_stack_is_lifo {α : Type} (g : α) (ops : List (StackOp α)) (l : List α)
    (outs : List (StackOut α)) (h : specStackRun 255 [] ops = some (l, outs)) :
    ((Stack.new g).calls ops).2 = outs ∧ ((Stack.new g).calls ops).1.asList = l.reverse := by
  suffices H : ∀ (ops : List (StackOp α)) (st : Stack α) (xs l : List α) (outs : List (StackOut α)),
      Rep st xs → xs.length ≤ 255 → specStackRun 255 xs ops = some (l, outs) →
      (st.calls ops).2 = outs ∧ Rep (st.calls ops).1 l by
    obtain ⟨h1, h2⟩ := H ops (Stack.new g) [] l outs (rep_new g) (by simp) h
    refine ⟨h1, ?_⟩
    have := items_eq_iff.2 h2
    rw [← this, Stack.items, List.reverse_reverse]
  intro ops
  induction ops with
  | nil =>
    intro st xs l outs hr _ h
    simp only [specStackRun, Option.some.injEq, Prod.mk.injEq] at h
    exact ⟨h.2, h.1 ▸ hr⟩
  | cons op ops ih =>
    intro st xs l outs hr hx h
    simp only [specStackRun] at h
    split at h
    · simp at h
    · next l' o he =>
      split at h
      · next hle =>
        split at h
        · next l'' os hrun =>
          simp only [Option.some.injEq, Prod.mk.injEq] at h
          have key : (st.call op).2 = o ∧ Rep (st.call op).1 l' := by
            cases op with
            | push a =>
              simp only [specStack, Option.some.injEq, Prod.mk.injEq] at he
              obtain ⟨rfl, rfl⟩ := he
              exact ⟨rfl, hr.push (by simp at hle; omega) a⟩
            | push2 a b =>
              simp only [specStack, Option.some.injEq, Prod.mk.injEq] at he
              obtain ⟨rfl, rfl⟩ := he
              exact ⟨rfl, hr.push2 (by simp at hle; omega) a b⟩
            | push3 a b c =>
              simp only [specStack, Option.some.injEq, Prod.mk.injEq] at he
              obtain ⟨rfl, rfl⟩ := he
              exact ⟨rfl, hr.push3 (by simp at hle; omega) a b c⟩
            | pop =>
              match xs, hr, he with
              | a :: xs, hr, he =>
                simp only [specStack, Option.some.injEq, Prod.mk.injEq] at he
                obtain ⟨rfl, rfl⟩ := he
                exact ⟨by simp [Stack.call, hr.pop_fst], hr.pop_snd⟩
            | pop2 =>
              match xs, hr, he with
              | b :: a :: xs, hr, he =>
                simp only [specStack, Option.some.injEq, Prod.mk.injEq] at he
                obtain ⟨rfl, rfl⟩ := he
                exact ⟨by simp [Stack.call, hr.pop2_fst], hr.pop2_snd⟩
            | pop3 =>
              match xs, hr, he with
              | c :: b :: a :: xs, hr, he =>
                simp only [specStack, Option.some.injEq, Prod.mk.injEq] at he
                obtain ⟨rfl, rfl⟩ := he
                exact ⟨by simp [Stack.call, hr.pop3_fst], hr.pop3_snd⟩
            | last =>
              match xs, hr, he with
              | a :: xs, hr, he =>
                simp only [specStack, Option.some.injEq, Prod.mk.injEq] at he
                obtain ⟨rfl, rfl⟩ := he
                exact ⟨by simp [Stack.call, hr.last], hr⟩
            | get i =>
              simp only [specStack] at he
              split at he
              · next v hv =>
                simp only [Option.some.injEq, Prod.mk.injEq] at he
                obtain ⟨rfl, rfl⟩ := he
                exact ⟨by simp [Stack.call, hr.get hv], hr⟩
              · simp at he
            | len =>
              simp only [specStack, Option.some.injEq, Prod.mk.injEq] at he
              obtain ⟨rfl, rfl⟩ := he
              exact ⟨by simp [Stack.call, hr.1], hr⟩
            | reset =>
              simp only [specStack, Option.some.injEq, Prod.mk.injEq] at he
              obtain ⟨rfl, rfl⟩ := he
              exact ⟨rfl, rep_reset st⟩
          have ih' := ih (st.call op).1 l' l'' os key.2 hle hrun
          simp only [Stack.calls]
          rw [← h.1, ← h.2, key.1, ih'.1]
          exact ⟨rfl, ih'.2⟩
        · simp at h
      · simp at h

example : specStackRun 255 [] [.push (1 : Nat), .push2 2 3, .pop, .push3 4 5 6, .get 1, .pop2, .last,
    .len] = some ([4, 2, 1], [.unit, .unit, .val 3, .unit, .val 2, .val2 5 6, .val 4, .num 3]) := by
  decide

/-! ## C02, C03: the stack alarms -/

/-- C02. A history that kept the depth within 0..64 raises no alarm. -/
theorem C02_no_false_alarm {α : Type} [DecidableEq α] (g : α) (ops : List (StackOp α))
    (h : (Tape.empty : Tape α).Within 0 64 ops) :
    ((Stack.new g).calls ops).1.overflow = false ∧ ((Stack.new g).calls ops).1.underflow = false := by
  have hpl := Tape.places (lo := 0) (hi := 64) (ops := ops) (t := (Tape.empty : Tape α))
    (by intro i v hv; simp [Tape.empty] at hv) (by omega) (by omega) h
  have hlast := within_last h
  have hw : (Tape.empty : Tape α).Within (-127) 128 ops := by
    clear hpl hlast
    generalize (Tape.empty : Tape α) = t at h
    induction ops generalizing t with
    | nil => simp only [Tape.Within] at h ⊢; omega
    | cons op ops ih => exact ⟨by have := h.1; omega, by have := h.2.1; omega, ih _ h.2.2⟩
  have ht := (onTape_new g).calls hw
  have h1 := ht.overflow_iff (by omega) (by omega)
  have h2 := ht.underflow_iff (by omega) (by omega)
  constructor
  · rw [← Bool.not_eq_true, h1]
    rintro (⟨v, hv, _⟩ | h')
    · have := hpl _ _ hv; omega
    · omega
  · rw [← Bool.not_eq_true, h2]
    rintro (⟨v, hv, _⟩ | h')
    · have := hpl _ _ hv; omega
    · omega

example : (Tape.empty : Tape Nat).Within 0 64 [.push 1, .push3 2 3 4, .pop2, .reset, .push 7] := by
  simp [Tape.Within, Tape.step, Tape.push, Tape.empty]

/-- C02. `check_stacks` does nothing on a machine whose four stacks stayed within 0..64 for
their whole history. -/
theorem C02_check_passes (c : Ctx) (s : VM) (h1 : Tame s.task.s) (h2 : Tame s.task.r)
    (h3 : Tame s.task.c) (h4 : Tame s.task.f) : checkStacks c s = .ok ((), s) := by
  obtain ⟨g1, o1, w1, e1⟩ := h1
  obtain ⟨g2, o2, w2, e2⟩ := h2
  obtain ⟨g3, o3, w3, e3⟩ := h3
  obtain ⟨g4, o4, w4, e4⟩ := h4
  obtain ⟨a1, b1⟩ := C02_no_false_alarm g1 o1 w1
  obtain ⟨a2, b2⟩ := C02_no_false_alarm g2 o2 w2
  obtain ⟨a3, b3⟩ := C02_no_false_alarm g3 o3 w3
  obtain ⟨a4, b4⟩ := C02_no_false_alarm g4 o4 w4
  rw [← e1] at a1 b1
  rw [← e2] at a2 b2
  rw [← e3] at a3 b3
  rw [← e4] at a4 b4
  simp [checkStacks, a1, b1, a2, b2, a3, b3, a4, b4]

example : Tame (VM.blank 4096 4096).task.s ∧ Tame (VM.blank 4096 4096).task.r ∧
    Tame (VM.blank 4096 4096).task.c ∧ Tame (VM.blank 4096 4096).task.f :=
  ⟨⟨_, [], by simp [Tape.Within, Tape.empty], rfl⟩, ⟨_, [], by simp [Tape.Within, Tape.empty], rfl⟩,
    ⟨_, [], by simp [Tape.Within, Tape.empty], rfl⟩, ⟨_, [], by simp [Tape.Within, Tape.empty], rfl⟩⟩

/-- C03. The alarms of a stack are characterised completely for every history of calls, including
pops of an empty stack and pushes beyond the limit, as long as the depth stays within
-127..128. The overflow alarm is on exactly when the depth is above 64, or a value other than the guard value
was written at the 65th place since the last reset. The underflow alarm is on exactly when the
depth is negative, or a value other than the guard value was written just below the bottom. -/
theorem C03_alarms_exact {α : Type} [DecidableEq α] (g : α) (ops : List (StackOp α))
    (h : (Tape.empty : Tape α).Within (-127) 128 ops) :
    (((Stack.new g).calls ops).1.overflow = true ↔
      64 < (Tape.empty.run ops).depth ∨ (Tape.empty.run ops).Marked g 64) ∧
    (((Stack.new g).calls ops).1.underflow = true ↔
      (Tape.empty.run ops).depth < 0 ∨ (Tape.empty.run ops).Marked g (-1)) := by
  have ht := (onTape_new g).calls h
  have hl := within_last h
  have h1 := ht.overflow_iff hl.1 hl.2
  have h2 := ht.underflow_iff hl.1 hl.2
  rw [calls_canary] at h1 h2
  exact ⟨h1.trans or_comm, h2.trans or_comm⟩

/-- The hypothesis of `C03_alarms_exact` allows an underflow that was refilled: the alarm is still on. -/
example : (Tape.empty : Tape Nat).Within (-127) 128 [.pop2, .push3 1 2 3] ∧
    ((Stack.new 99).calls [StackOp.pop2, .push3 1 2 3]).1.underflow = true := by
  refine ⟨by simp [Tape.Within, Tape.step, Tape.push, Tape.empty], by decide⟩

/-- C03. `check_stacks` raises the exception of the first stack in alarm, in the order data,
return, control, float, overflow before underflow; and no exception when none is in alarm. -/
theorem C03_check_raises (c : Ctx) (s : VM) :
    let t := s.task
    checkStacks c s =
      match [(t.s.overflow, Exn.stackOverflow), (t.s.underflow, .stackUnderflow),
        (t.r.overflow, .returnStackOverflow), (t.r.underflow, .returnStackUnderflow),
        (t.c.overflow, .controlStructureMismatch), (t.c.underflow, .controlStructureMismatch),
        (t.f.overflow, .fStackOverflow), (t.f.underflow, .fStackUnderflow)].find? (·.1) with
      | some (_, e) => abortWith c e s
      | none => .ok ((), s) := by
  simp only [checkStacks, M.bind_apply, getTask_apply, List.find?]
  cases s.task.s.overflow <;> cases s.task.s.underflow <;> cases s.task.r.overflow <;>
    cases s.task.r.underflow <;> cases s.task.c.overflow <;> cases s.task.c.underflow <;>
    cases s.task.f.overflow <;> cases s.task.f.underflow <;> rfl

/-- C03. In particular: whatever the history, more than 64 items on the data stack raise
stack overflow; and fewer than none, when the 65th place was not disturbed, stack underflow. -/
theorem C03_data_stack (c : Ctx) (s : VM) (g : Cell) (ops : List (StackOp Cell))
    (hs : s.task.s = ((Stack.new g).calls ops).1) (h : (Tape.empty : Tape Cell).Within (-127) 128 ops) :
    (64 < (Tape.empty.run ops).depth → checkStacks c s = abortWith c .stackOverflow s) ∧
    ((Tape.empty.run ops).depth < 0 → ¬ (Tape.empty.run ops).Marked g 64 →
      checkStacks c s = abortWith c .stackUnderflow s) := by
  obtain ⟨h1, h2⟩ := C03_alarms_exact g ops h
  rw [← hs] at h1 h2
  constructor
  · intro hd
    have : s.task.s.overflow = true := h1.2 (Or.inl hd)
    simp [checkStacks, this]
  · intro hd hm
    have ho : s.task.s.overflow = false := by
      rw [← Bool.not_eq_true, h1]; rintro (h' | h')
      · omega
      · exact hm h'
    have : s.task.s.underflow = true := h2.2 (Or.inl hd)
    simp [checkStacks, this, ho]

/-! ## C04: stack words -/

/-- C04. Every word of the effect table exists, and whenever its operands are on the data stack
and the result fits, executing it replaces the stack content as documented and changes nothing else
of the machine. -/
theorem C04_stack_words (c : Ctx) (name : String) (eff : Effect) (he : (name, eff) ∈ effects) :
    ∃ p, primOf name = some p ∧ ∀ (s : VM) (ys : List Cell), eff s.task.s.items = some ys →
      ys.length ≤ 255 → ∃ st', action c p s = .ok ((), withData s st') ∧ st'.items = ys := by
  obtain ⟨p, hp, h⟩ := all_effects (c := c) _ he
  refine ⟨p, hp, fun s ys h1 h2 => ?_⟩
  obtain ⟨st', h3, h4⟩ := h s _ ys (rep_items _) h1 h2
  exact ⟨st', h3, items_eq_iff.2 h4.rep⟩

example : ∃ eff, ("rot", eff) ∈ effects ∧ eff [1, 2, 3, 4] = some [3, 1, 2, 4] :=
  ⟨_, List.mem_of_getElem? (i := 6) rfl, rfl⟩

/-- C02. Numbers and words executed in any order, never holding more than 64 items: the
result is the one the effect table gives, and the stack check passes. -/
theorem C02_words_no_false_alarm (c : Ctx) (s : VM) (ts : List Token) (ys : List Cell)
    (h1 : Tame s.task.s) (h2 : Tame s.task.r) (h3 : Tame s.task.c) (h4 : Tame s.task.f)
    (h : tokensEffect 64 ts s.task.s.items = some ys) :
    ∃ s', execTokens c ts s = .ok ((), s') ∧ s'.task.s.items = ys ∧
      checkStacks c s' = .ok ((), s') := by
  suffices H : ∀ (ts : List Token) (s : VM) (xs : List Cell), Rep s.task.s xs → xs.length ≤ 64 →
      s.task.s.inner 64 = s.task.s.canary → s.task.s.inner 255 = s.task.s.canary →
      tokensEffect 64 ts xs = some ys → ∃ st', execTokens c ts s = .ok ((), withData s st') ∧
        Rep st' ys ∧ ys.length ≤ 64 ∧ st'.inner 64 = st'.canary ∧ st'.inner 255 = st'.canary by
    have hl : s.task.s.items.length ≤ 64 ∧ s.task.s.inner 64 = s.task.s.canary ∧
        s.task.s.inner 255 = s.task.s.canary := by
      obtain ⟨g1, o1, w1, e1⟩ := h1
      obtain ⟨a1, b1⟩ := C02_no_false_alarm g1 o1 w1
      rw [← e1] at a1 b1
      simp only [Stack.overflow, Stack.underflow, Bool.or_eq_false_iff, Bool.and_eq_false_iff,
        decide_eq_false_iff_not, ne_eq, Decidable.not_not] at a1 b1
      rw [items_length]
      exact ⟨by omega, a1.1, b1.1⟩
    obtain ⟨st', r1, r2, r3, r4, r5⟩ := H ts s _ (rep_items _) hl.1 hl.2.1 hl.2.2 h
    refine ⟨_, r1, by simpa [withData] using items_eq_iff.2 r2, ?_⟩
    obtain ⟨g2, o2, w2, e2⟩ := h2
    obtain ⟨g3, o3, w3, e3⟩ := h3
    obtain ⟨g4, o4, w4, e4⟩ := h4
    obtain ⟨a2, b2⟩ := C02_no_false_alarm g2 o2 w2
    obtain ⟨a3, b3⟩ := C02_no_false_alarm g3 o3 w3
    obtain ⟨a4, b4⟩ := C02_no_false_alarm g4 o4 w4
    rw [← e2] at a2 b2
    rw [← e3] at a3 b3
    rw [← e4] at a4 b4
    have a1 : st'.overflow = false := by
      have := r2.1
      simp only [Stack.overflow, r4, Bool.or_eq_false_iff, Bool.and_eq_false_iff,
        decide_eq_false_iff_not, ne_eq, Decidable.not_not, true_and]
      omega
    have b1 : st'.underflow = false := by
      have := r2.1
      simp only [Stack.underflow, r5, Bool.or_eq_false_iff,
        decide_eq_false_iff_not, ne_eq, Decidable.not_not, true_and]
      omega
    simp [checkStacks, withData, a1, b1, a2, b2, a3, b3, a4, b4]
  intro ts
  induction ts with
  | nil =>
    intro s xs hr hl q1 q2 h
    simp only [tokensEffect, Option.some.injEq] at h
    subst h
    exact ⟨s.task.s, show _ = Except.ok ((), s.setTask s.task) by simp [execTokens], hr, hl, q1, q2⟩
  | cons t ts ih =>
    intro s xs hr hl q1 q2 h
    simp only [tokensEffect] at h
    split at h
    · next l' he =>
      split at h
      · next hle =>
        have key : ∃ st', t.exec c s = .ok ((), withData s st') ∧ To s.task.s xs st' l' := by
          cases t with
          | lit v =>
            simp only [Token.effect, Option.some.injEq] at he
            subst he
            exact ⟨s.task.s.push v, by simp [Token.exec, withData], hr.toPush (by omega) v⟩
          | word n =>
            simp only [Token.effect] at he
            split at he
            · next e hlook =>
              have hm : (n, e) ∈ effects := List.lookup_eq_some_iff.1 hlook |> fun ⟨l1, l2, h, _⟩ => by
                rw [h]; simp
              obtain ⟨p, hp, hh⟩ := all_effects (c := c) _ hm
              obtain ⟨st', h3, h4⟩ := hh s xs l' hr he (by omega)
              exact ⟨st', by simp only [Token.exec, hp, h3], h4⟩
            · simp at he
        obtain ⟨st', k1, k2⟩ := key
        have q (i : BitVec 8) (hi : 64 ≤ i.toNat) (hq : s.task.s.inner i = s.task.s.canary) :
            st'.inner i = st'.canary := by
          rw [k2.canary, ← hq]
          exact k2.quiet i (by omega) (by omega)
        obtain ⟨st2, r1, r2⟩ := ih (withData s st') l' (by simpa [withData] using k2.rep) hle
          (by simpa [withData] using q 64 (by decide) q1)
          (by simpa [withData] using q 255 (by decide) q2) h
        refine ⟨st2, ?_, r2⟩
        simp only [execTokens, M.bind_apply, k1, r1]
        simp [withData]
      · simp at h
    · simp at h

example : tokensEffect 64 [.lit 7, .lit 3, .word "over", .word "-", .word "swap", .word "<"] [] =
    some [wrap (-1)] := by decide

/-! ## C05: division -/

/-- What division truncated toward zero means, without mentioning how it is computed. -/
def Spec.DivMod (n d q r : Cell) : Prop :=
  n = wrap (q.toInt * d.toInt + r.toInt) ∧ r.toInt.natAbs < d.toInt.natAbs ∧
    (r = 0 ∨ (0 < r.toInt ↔ 0 < n.toInt)) ∧
    (¬ (n.toInt = -2 ^ 63 ∧ d.toInt = -1) → n.toInt = q.toInt * d.toInt + r.toInt) ∧
    (n.toInt = -2 ^ 63 ∧ d.toInt = -1 → q = n ∧ r = 0)

theorem divMod_sdiv (n d : Cell) (hd : d ≠ 0) : DivMod n d (n.sdiv d) (n.srem d) := by
  have hr : (n.srem d).toInt = n.toInt.tmod d.toInt := BitVec.toInt_srem n d
  have hdi : d.toInt ≠ 0 := fun e => hd (BitVec.eq_of_toInt_eq (by simpa using e))
  have hid := Int.mul_tdiv_add_tmod n.toInt d.toInt
  have hlt : (n.toInt.tmod d.toInt).natAbs < d.toInt.natAbs := by
    rw [Int.natAbs_tmod]; exact Nat.mod_lt _ (by omega)
  have hsign : n.toInt.tmod d.toInt = 0 ∨ (0 < n.toInt.tmod d.toInt ↔ 0 < n.toInt) := by
    rcases Int.lt_trichotomy n.toInt 0 with h | h | h
    · have : n.toInt.tmod d.toInt ≤ 0 := by
        have h1 : -(n.toInt.tmod d.toInt) = (-n.toInt).tmod d.toInt := by rw [Int.neg_tmod]
        have h2 := Int.tmod_nonneg (a := -n.toInt) d.toInt (by omega)
        omega
      right; constructor <;> intro <;> omega
    · left; rw [h]; exact Int.zero_tmod _
    · have := Int.tmod_nonneg (a := n.toInt) d.toInt (by omega)
      by_cases h0 : n.toInt.tmod d.toInt = 0
      · exact Or.inl h0
      · right; constructor <;> intro <;> omega
  have hq : (¬ (n.toInt = -2 ^ 63 ∧ d.toInt = -1)) →
      (n.sdiv d).toInt = n.toInt.tdiv d.toInt := by
    intro h
    apply BitVec.toInt_sdiv_of_ne_or_ne
    by_cases h1 : n = BitVec.intMin 64
    · right; intro h2; exact h ⟨by rw [h1]; decide, by rw [h2]; decide⟩
    · exact Or.inl h1
  have hq2 : (n.toInt = -2 ^ 63 ∧ d.toInt = -1) → n.sdiv d = n ∧ n.srem d = 0 := by
    rintro ⟨h1, h2⟩
    have e1 : n = BitVec.intMin 64 := BitVec.eq_of_toInt_eq (by rw [h1]; decide)
    have e2 : d = -1#64 := BitVec.eq_of_toInt_eq (by rw [h2]; decide)
    rw [e1, e2]; decide
  refine ⟨?_, by rw [hr]; exact hlt, ?_, ?_, hq2⟩
  · by_cases h : n.toInt = -2 ^ 63 ∧ d.toInt = -1
    · obtain ⟨a, b⟩ := hq2 h
      rw [a, b]
      have e1 : n = BitVec.intMin 64 := BitVec.eq_of_toInt_eq (by rw [h.1]; decide)
      rw [h.2, e1]; decide
    · rw [hq h, hr, Int.mul_comm, hid, wrap_toInt]
  · rcases hsign with h | h
    · left; apply BitVec.eq_of_toInt_eq; rw [hr, h]; decide
    · right; rw [hr]; exact h
  · intro h; rw [hq h, hr, Int.mul_comm, hid]

/-- The quotient and the remainder are determined by `DivMod`: the specification is not loose. -/
theorem C05_division_unique (n d q r q' r' : Cell) (hd : d ≠ 0) (h : DivMod n d q r)
    (h' : DivMod n d q' r') : q = q' ∧ r = r' := by
  have hdi : d.toInt ≠ 0 := fun e => hd (BitVec.eq_of_toInt_eq (by simpa using e))
  obtain ⟨_, h2, h3, h4, h5⟩ := h
  obtain ⟨_, h2', h3', h4', h5'⟩ := h'
  by_cases hx : n.toInt = -2 ^ 63 ∧ d.toInt = -1
  · exact ⟨(h5 hx).1.trans (h5' hx).1.symm, (h5 hx).2.trans (h5' hx).2.symm⟩
  · have e := h4 hx
    have e' := h4' hx
    have z : r = 0 → r.toInt = 0 := by rintro rfl; decide
    have z' : r' = 0 → r'.toInt = 0 := by rintro rfl; decide
    have hq : q.toInt = q'.toInt := by
      refine Decidable.byContradiction fun hne => ?_
      have hm : (q.toInt - q'.toInt) * d.toInt = r'.toInt - r.toInt := by
        rw [Int.sub_mul]; omega
      have h1 : d.toInt.natAbs ≤ (r'.toInt - r.toInt).natAbs := by
        rw [← hm, Int.natAbs_mul]
        exact Nat.le_mul_of_pos_left _ (by omega)
      -- both remainders lie on the same side of zero, so they differ by less than |d|
      rcases h3 with h3 | h3 <;> rcases h3' with h3' | h3'
      · have := z h3; have := z' h3'; omega
      · have := z h3; omega
      · have := z' h3'; omega
      · omega
    refine ⟨BitVec.eq_of_toInt_eq hq, BitVec.eq_of_toInt_eq ?_⟩
    rw [hq] at e; omega

/-- C05. `/mod` with a non-zero divisor leaves remainder and quotient of the division truncated
toward zero and changes nothing else. -/
theorem C05_slash_mod (c : Ctx) : ∃ p, primOf "/mod" = some p ∧
    ∀ (s : VM) (d n : Cell) (l : List Cell), s.task.s.items = d :: n :: l → d ≠ 0 →
      ∃ st' q r, action c p s = .ok ((), withData s st') ∧ st'.items = q :: r :: l ∧
        DivMod n d q r := by
  refine ⟨_, rfl, fun s d n l h hd => ?_⟩
  have hr := items_eq_iff.1 h
  refine ⟨slashModS s.task.s, n.sdiv d, n.srem d, ?_, ?_, divMod_sdiv n d hd⟩
  · simp only [action, coreAction, slashMod, M.bind_apply, getTask_apply, hr.top, M.ite_apply, hd,
      if_false]
    simp [modS, withData]
  · exact items_eq_iff.2 (hr.slashMod (n.srem d) (n.sdiv d) (by
      simp only [slashModS, hr.top, hr.snd]))

/-- C05. `/` leaves that quotient. -/
theorem C05_slash (c : Ctx) : ∃ p, primOf "/" = some p ∧
    ∀ (s : VM) (d n : Cell) (l : List Cell), s.task.s.items = d :: n :: l → d ≠ 0 →
      ∃ st' q r, action c p s = .ok ((), withData s st') ∧ st'.items = q :: l ∧ DivMod n d q r := by
  refine ⟨_, rfl, fun s d n l h hd => ?_⟩
  have hr := items_eq_iff.1 h
  refine ⟨s.task.s.binop BitVec.sdiv, n.sdiv d, n.srem d, ?_, items_eq_iff.2 (hr.binop _),
    divMod_sdiv n d hd⟩
  simp only [action, coreAction, divOp, M.bind_apply, getTask_apply, hr.top, M.ite_apply, hd,
    if_false]
  simp [modS, withData]

/-- C05. `mod` leaves that remainder. -/
theorem C05_mod (c : Ctx) : ∃ p, primOf "mod" = some p ∧
    ∀ (s : VM) (d n : Cell) (l : List Cell), s.task.s.items = d :: n :: l → d ≠ 0 →
      ∃ st' q r, action c p s = .ok ((), withData s st') ∧ st'.items = r :: l ∧ DivMod n d q r := by
  refine ⟨_, rfl, fun s d n l h hd => ?_⟩
  have hr := items_eq_iff.1 h
  refine ⟨s.task.s.binop BitVec.srem, n.sdiv d, n.srem d, ?_, items_eq_iff.2 (hr.binop _),
    divMod_sdiv n d hd⟩
  simp only [action, coreAction, divOp, M.bind_apply, getTask_apply, hr.top, M.ite_apply, hd,
    if_false]
  simp [modS, withData]

example : DivMod (wrap (-7)) (wrap 2) (wrap (-3)) (wrap (-1)) := by
  refine ⟨by decide, by decide, by decide, by decide, by decide⟩

/-- A machine with -7 and 2 on its data stack. -/
example : (withData (VM.blank 4096 4096) ((Stack.new 0).push2 (wrap (-7)) (wrap 2))).task.s.items =
    [wrap 2, wrap (-7)] := by decide

/-- C05. A zero divisor raises the division-by-zero exception, and a non-zero one never does; in no
state does the division itself fault. -/
theorem C05_zero_divisor (c : Ctx) (name : String) (hn : name ∈ ["/", "mod", "/mod"]) :
    ∃ p, primOf name = some p ∧ ∀ s : VM,
      (s.task.s.last = 0 → action c p s = abortWith c .divisionByZero s) ∧
      (s.task.s.last ≠ 0 → ∃ st', action c p s = .ok ((), withData s st')) := by
  simp only [List.mem_cons, List.not_mem_nil, or_false] at hn
  rcases hn with rfl | rfl | rfl
  · refine ⟨_, rfl, fun s => ⟨fun h => ?_, fun h => ?_⟩⟩
    · simp only [Stack.last] at h
      simp only [action, coreAction, divOp, M.bind_apply, getTask_apply, M.ite_apply, h, if_true]
    · simp only [Stack.last, ne_eq] at h
      simp only [action, coreAction, divOp, M.bind_apply, getTask_apply, M.ite_apply, h, if_false]
      exact ⟨_, rfl⟩
  · refine ⟨_, rfl, fun s => ⟨fun h => ?_, fun h => ?_⟩⟩
    · simp only [Stack.last] at h
      simp only [action, coreAction, divOp, M.bind_apply, getTask_apply, M.ite_apply, h, if_true]
    · simp only [Stack.last, ne_eq] at h
      simp only [action, coreAction, divOp, M.bind_apply, getTask_apply, M.ite_apply, h, if_false]
      exact ⟨_, rfl⟩
  · refine ⟨_, rfl, fun s => ⟨fun h => ?_, fun h => ?_⟩⟩
    · simp only [Stack.last] at h
      simp only [action, coreAction, slashMod, M.bind_apply, getTask_apply, M.ite_apply, h, if_true]
    · simp only [Stack.last, ne_eq] at h
      simp only [action, coreAction, slashMod, M.bind_apply, getTask_apply, M.ite_apply, h, if_false]
      exact ⟨_, rfl⟩

/-! ## C06: flags -/

/-- C06. The binary comparisons leave -1 when the relation holds and 0 when it does not. -/
theorem C06_flags_binary (c : Ctx) (name : String) (R : Int → Int → Prop)
    (h : (name, R) ∈ relations2) : ∃ p, primOf name = some p ∧
    ∀ (s : VM) (a b : Cell) (l : List Cell), s.task.s.items = b :: a :: l →
      ∃ st' f, action c p s = .ok ((), withData s st') ∧ st'.items = f :: l ∧
        (R a.toInt b.toInt → f.toInt = -1) ∧ (¬ R a.toInt b.toInt → f.toInt = 0) := by
  have key : ∀ (g : Cell → Cell → Cell), (name, binary g) ∈ effects →
      (∀ a b : Cell, (R a.toInt b.toInt → (g a b).toInt = -1) ∧
        (¬ R a.toInt b.toInt → (g a b).toInt = 0)) →
      ∃ p, primOf name = some p ∧
      ∀ (s : VM) (a b : Cell) (l : List Cell), s.task.s.items = b :: a :: l →
      ∃ st' f, action c p s = .ok ((), withData s st') ∧ st'.items = f :: l ∧
        (R a.toInt b.toInt → f.toInt = -1) ∧ (¬ R a.toInt b.toInt → f.toInt = 0) := by
    intro g hg hR
    obtain ⟨p, hp, hh⟩ := C04_stack_words c name _ hg
    refine ⟨p, hp, fun s a b l hs => ?_⟩
    have hlen := items_length_lt s.task.s
    rw [hs] at hlen
    obtain ⟨st', h1, h2⟩ := hh s (g a b :: l) (by rw [hs]; rfl) (by simp at hlen ⊢; omega)
    exact ⟨st', g a b, h1, h2, hR a b⟩
  simp only [relations2, List.mem_cons, Prod.mk.injEq, List.not_mem_nil, or_false] at h
  have t (p : Prop) [Decidable p] : (p → (truth p).toInt = -1) ∧ (¬ p → (truth p).toInt = 0) :=
    ⟨fun h => by simp only [truth, h, if_true]; decide, fun h => by simp only [truth, h, if_false]; decide⟩
  rcases h with ⟨rfl, rfl⟩ | ⟨rfl, rfl⟩ | ⟨rfl, rfl⟩ | ⟨rfl, rfl⟩
  · refine key _ (List.mem_of_getElem? (i := 23) rfl) fun a b => ?_
    simp only [BitVec.toInt_inj]; exact t (a = b)
  · refine key _ (List.mem_of_getElem? (i := 24) rfl) fun a b => ?_
    simp only [ne_eq, BitVec.toInt_inj]; exact t (a ≠ b)
  · exact key _ (List.mem_of_getElem? (i := 25) rfl) fun a b => t _
  · exact key _ (List.mem_of_getElem? (i := 26) rfl) fun a b => t _

/-- C06. The comparisons with zero likewise. -/
theorem C06_flags_unary (c : Ctx) (name : String) (R : Int → Prop) (h : (name, R) ∈ relations1) :
    ∃ p, primOf name = some p ∧
    ∀ (s : VM) (a : Cell) (l : List Cell), s.task.s.items = a :: l →
      ∃ st' f, action c p s = .ok ((), withData s st') ∧ st'.items = f :: l ∧
        (R a.toInt → f.toInt = -1) ∧ (¬ R a.toInt → f.toInt = 0) := by
  have key : ∀ (g : Cell → Cell), (name, unary g) ∈ effects →
      (∀ a : Cell, (R a.toInt → (g a).toInt = -1) ∧ (¬ R a.toInt → (g a).toInt = 0)) →
      ∃ p, primOf name = some p ∧
      ∀ (s : VM) (a : Cell) (l : List Cell), s.task.s.items = a :: l →
      ∃ st' f, action c p s = .ok ((), withData s st') ∧ st'.items = f :: l ∧
        (R a.toInt → f.toInt = -1) ∧ (¬ R a.toInt → f.toInt = 0) := by
    intro g hg hR
    obtain ⟨p, hp, hh⟩ := C04_stack_words c name _ hg
    refine ⟨p, hp, fun s a l hs => ?_⟩
    have hlen := items_length_lt s.task.s
    rw [hs] at hlen
    obtain ⟨st', h1, h2⟩ := hh s (g a :: l) (by rw [hs]; rfl) (by simp at hlen ⊢; omega)
    exact ⟨st', g a, h1, h2, hR a⟩
  simp only [relations1, List.mem_cons, Prod.mk.injEq, List.not_mem_nil, or_false] at h
  have t (p : Prop) [Decidable p] : (p → (truth p).toInt = -1) ∧ (¬ p → (truth p).toInt = 0) :=
    ⟨fun h => by simp only [truth, h, if_true]; decide, fun h => by simp only [truth, h, if_false]; decide⟩
  rcases h with ⟨rfl, rfl⟩ | ⟨rfl, rfl⟩ | ⟨rfl, rfl⟩ | ⟨rfl, rfl⟩ | ⟨rfl, rfl⟩
  · exact key _ (List.mem_of_getElem? (i := 27) rfl) fun a => t _
  · exact key _ (List.mem_of_getElem? (i := 28) rfl) fun a => t _
  · exact key _ (List.mem_of_getElem? (i := 29) rfl) fun a => t _
  · exact key _ (List.mem_of_getElem? (i := 30) rfl) fun a => t _
  · exact key _ (List.mem_of_getElem? (i := 31) rfl) fun a => t _

/-- C06. `x1 x2 x3 within` holds iff `x2 <= x1 < x3` as signed numbers. -/
theorem C06_within (c : Ctx) : ∃ p, primOf "within" = some p ∧
    ∀ (s : VM) (x1 x2 x3 : Cell) (l : List Cell), s.task.s.items = x3 :: x2 :: x1 :: l →
      ∃ st' f, action c p s = .ok ((), withData s st') ∧ st'.items = f :: l ∧
        ((x2.toInt ≤ x1.toInt ∧ x1.toInt < x3.toInt) → f.toInt = -1) ∧
        (¬ (x2.toInt ≤ x1.toInt ∧ x1.toInt < x3.toInt) → f.toInt = 0) := by
  obtain ⟨p, hp, hh⟩ := C04_stack_words c "within" _ (List.mem_of_getElem? (i := 32) rfl)
  refine ⟨p, hp, fun s x1 x2 x3 l hs => ?_⟩
  have hlen := items_length_lt s.task.s
  rw [hs] at hlen
  obtain ⟨st', h1, h2⟩ := hh s (truth (x2.toInt ≤ x1.toInt ∧ x1.toInt < x3.toInt) :: l)
    (by rw [hs]) (by simp at hlen ⊢; omega)
  refine ⟨st', _, h1, h2, fun h => ?_, fun h => ?_⟩
  · simp only [truth, h, and_self, if_true]; decide
  · simp only [truth, h, if_false]; decide

end Verif
