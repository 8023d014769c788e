import Verif.Spec.Words
import Verif.Lemmas.Monad
import Verif.Lemmas.Stack

/-!
# The stack words have their documented effects: one lemma per word
-/

namespace Verif
open Spec Stack

/-- The word named `name` has stack effect `eff` and touches nothing else. -/
def HasEffect (c : Ctx) (name : String) (eff : Effect) : Prop :=
  ∃ p, primOf name = some p ∧ ∀ (s : VM) (xs ys : List Cell), Rep s.task.s xs → eff xs = some ys →
    ys.length ≤ 255 → ∃ st', action c p s = .ok ((), withData s st') ∧ To s.task.s xs st' ys

theorem wrap_toInt (a : Cell) : wrap a.toInt = a := by simp [wrap]
theorem truth_eq_flag (p : Prop) [Decidable p] : truth p = flag (decide p) := by
  unfold truth flag wrap; by_cases p <;> simp [*]

theorem wrap_add (a b : Cell) : wrap (a.toInt + b.toInt) = a + b := by
  simp [wrap, BitVec.ofInt_add]
theorem wrap_sub (a b : Cell) : wrap (a.toInt - b.toInt) = a - b := by
  apply BitVec.eq_of_toInt_eq; simp [wrap, BitVec.toInt_sub, BitVec.toInt_ofInt]
theorem wrap_mul (a b : Cell) : wrap (a.toInt * b.toInt) = a * b := by
  simp [wrap, BitVec.ofInt_mul]
theorem wrap_neg (a : Cell) : wrap (-a.toInt) = -a := by
  simp [wrap, BitVec.ofInt_neg]

/-- A word that only changes the data stack by `f`. -/
theorem hasEffect_modS {c : Ctx} {name : String} {eff : Effect} {p : Prim} (hp : primOf name = some p)
    {f : Stack Cell → Stack Cell} (ha : action c p = modS f)
    (h : ∀ st xs ys, Rep st xs → eff xs = some ys → ys.length ≤ 255 → To st xs (f st) ys) :
    HasEffect c name eff := by
  refine ⟨p, hp, fun s xs ys hr he hl => ⟨f s.task.s, ?_, h _ _ _ hr he hl⟩⟩
  rw [ha]; simp [modS, withData]

theorem hasEffect_pop1Push {c : Ctx} {name : String} {p : Prim} (hp : primOf name = some p)
    {f g : Cell → Cell} (ha : action c p = pop1Push f) (hfg : ∀ a, g a = f a) :
    HasEffect c name (unary g) := by
  refine ⟨p, hp, fun s xs ys hr he hl => ?_⟩
  match xs, hr, he with
  | a :: l, hr, he =>
    simp only [unary, Option.some.injEq] at he
    subst he
    refine ⟨(s.task.s.pop.2.push (f a)), ?_, by rw [hfg]; exact hr.toPopPush _⟩
    rw [ha]; simp [pop1Push, withData, hr.pop_fst]

theorem hasEffect_pop2Push {c : Ctx} {name : String} {p : Prim} (hp : primOf name = some p)
    {f g : Cell → Cell → Cell} (ha : action c p = pop2Push f) (hfg : ∀ a b, g a b = f a b) :
    HasEffect c name (binary g) := by
  refine ⟨p, hp, fun s xs ys hr he hl => ?_⟩
  match xs, hr, he with
  | b :: a :: l, hr, he =>
    simp only [binary, Option.some.injEq] at he
    subst he
    refine ⟨(s.task.s.pop2.2.push (f a b)), ?_, by rw [hfg]; exact hr.toPop2Push _⟩
    rw [ha]; simp [pop2Push, withData, hr.pop2_fst]

theorem hasEffect_binop {c : Ctx} {name : String} {p : Prim} (hp : primOf name = some p)
    {f g : Cell → Cell → Cell} (ha : action c p = modS fun st => st.binop f)
    (hfg : ∀ a b, g a b = f a b) : HasEffect c name (binary g) := by
  refine hasEffect_modS hp ha fun st xs ys hr he hl => ?_
  match xs, hr, he with
  | b :: a :: l, hr, he =>
    simp only [binary, Option.some.injEq] at he
    subst he
    rw [hfg]; exact hr.toBinop f

theorem hasEffect_unop {c : Ctx} {name : String} {p : Prim} (hp : primOf name = some p)
    {f g : Cell → Cell} (ha : action c p = modS fun st => st.unop f)
    (hfg : ∀ a, g a = f a) : HasEffect c name (unary g) := by
  refine hasEffect_modS hp ha fun st xs ys hr he hl => ?_
  match xs, hr, he with
  | a :: l, hr, he =>
    simp only [unary, Option.some.injEq] at he
    subst he
    rw [hfg]; exact hr.toUnop f

variable (c : Ctx)

theorem eff_true (name : String) (v : Cell) (p : Prim) (hp : primOf name = some p)
    (ha : action c p = sPush v) : HasEffect c name (fun l => some (v :: l)) := by
  refine ⟨p, hp, fun s xs ys hr he hl => ⟨s.task.s.push v, ?_, ?_⟩⟩
  · rw [ha]; simp [withData]
  · simp only [Option.some.injEq] at he
    subst he
    exact hr.toPush (by simp at hl; omega) v

theorem eff_depth : HasEffect c "depth" (fun l => some (wrap l.length :: l)) := by
  refine ⟨_, rfl, fun s xs ys hr he hl => ⟨s.task.s.push (wrap xs.length), ?_, ?_⟩⟩
  · have : s.task.s.len.setWidth 64 = wrap xs.length := by
      rw [← hr.1]
      simp [wrap]
    simp [action, coreAction, depth, withData, this]
  · simp only [Option.some.injEq] at he
    subst he
    exact hr.toPush (by simp at hl; omega) _

theorem eff_within : HasEffect c "within" (fun
    | hi :: lo :: x :: l => some (truth (lo.toInt ≤ x.toInt ∧ x.toInt < hi.toInt) :: l)
    | _ => none) := by
  refine ⟨_, rfl, fun s xs ys hr he hl => ?_⟩
  match xs, hr, he with
  | hi :: lo :: x :: l, hr, he =>
    simp only [Option.some.injEq] at he
    subst he
    refine ⟨s.task.s.pop3.2.push (truth (lo.toInt ≤ x.toInt ∧ x.toInt < hi.toInt)), ?_,
      hr.toPop3Push _⟩
    simp [action, coreAction, within, withData, hr.pop3_fst, truth_eq_flag]

/-- All words of the table. -/
theorem all_effects : ∀ e ∈ effects, HasEffect c e.1 e.2 := by
  simp only [effects, List.forall_mem_cons, List.not_mem_nil, false_imp_iff, implies_true, and_true]
  refine ⟨?_, ?_, ?_, ?_, ?_, ?_, ?_, ?_, ?_, ?_, ?_, ?_, ?_, ?_, ?_, ?_, ?_, ?_, ?_, ?_, ?_, ?_, ?_,
    ?_, ?_, ?_, ?_, ?_, ?_, ?_, ?_, ?_, ?_, ?_, ?_, ?_, ?_, ?_, ?_⟩
  · -- noop
    refine ⟨_, rfl, fun s xs ys hr he hl => ⟨s.task.s, ?_, ?_⟩⟩
    · show _ = Except.ok ((), s.setTask s.task)
      simp [action, coreAction]
    simp only [Option.some.injEq] at he; subst he; exact To.refl hr
  · -- dup
    refine hasEffect_modS rfl rfl fun st xs ys hr he hl => ?_
    match xs, hr, he with
    | a :: l, hr, he =>
      simp only [Option.some.injEq] at he; subst he; exact hr.toDup (by simp at hl; omega)
  · refine hasEffect_modS rfl rfl fun st xs ys hr he hl => ?_
    match xs, hr, he with
    | a :: l, hr, he =>
      simp only [Option.some.injEq] at he; subst he; exact hr.toDrop
  · refine hasEffect_modS rfl rfl fun st xs ys hr he hl => ?_
    match xs, hr, he with
    | b :: a :: l, hr, he =>
      simp only [Option.some.injEq] at he; subst he; exact hr.toSwap
  · refine hasEffect_modS rfl rfl fun st xs ys hr he hl => ?_
    match xs, hr, he with
    | b :: a :: l, hr, he =>
      simp only [Option.some.injEq] at he; subst he; exact hr.toOver (by simp at hl; omega)
  · refine hasEffect_modS rfl rfl fun st xs ys hr he hl => ?_
    match xs, hr, he with
    | b :: a :: l, hr, he =>
      simp only [Option.some.injEq] at he; subst he; exact hr.toNip
  · refine hasEffect_modS rfl rfl fun st xs ys hr he hl => ?_
    match xs, hr, he with
    | d :: b :: a :: l, hr, he =>
      simp only [Option.some.injEq] at he; subst he; exact hr.toRot
  · refine hasEffect_modS rfl rfl fun st xs ys hr he hl => ?_
    match xs, hr, he with
    | d :: b :: a :: l, hr, he =>
      simp only [Option.some.injEq] at he; subst he; exact hr.toMinusRot
  · refine hasEffect_modS rfl rfl fun st xs ys hr he hl => ?_
    match xs, hr, he with
    | n :: l, hr, he =>
      simp only [Option.map_eq_some_iff] at he
      obtain ⟨v, hv, he⟩ := he
      subst he; exact hr.toPick hv
  · refine hasEffect_modS rfl rfl fun st xs ys hr he hl => ?_
    match xs, hr, he with
    | b :: a :: l, hr, he =>
      simp only [Option.some.injEq] at he; subst he; exact hr.toTwoDup (by simp at hl; omega)
  · refine hasEffect_modS rfl rfl fun st xs ys hr he hl => ?_
    match xs, hr, he with
    | b :: a :: l, hr, he =>
      simp only [Option.some.injEq] at he; subst he; exact hr.toTwoDrop
  · refine hasEffect_modS rfl rfl fun st xs ys hr he hl => ?_
    match xs, hr, he with
    | d :: e :: b :: a :: l, hr, he =>
      simp only [Option.some.injEq] at he; subst he; exact hr.toTwoSwap
  · refine hasEffect_modS rfl rfl fun st xs ys hr he hl => ?_
    match xs, hr, he with
    | d :: e :: b :: a :: l, hr, he =>
      simp only [Option.some.injEq] at he; subst he; exact hr.toTwoOver (by simp at hl; omega)
  · exact eff_depth c
  · exact eff_true c _ _ _ rfl rfl
  · exact eff_true c _ _ _ rfl rfl
  · exact hasEffect_unop rfl rfl fun a => by
      rw [show (a.toInt + 1) = a.toInt + (1 : Cell).toInt by rfl, wrap_add]
  · exact hasEffect_unop rfl rfl fun a => by
      rw [show (a.toInt - 1) = a.toInt - (1 : Cell).toInt by rfl, wrap_sub]
  · exact hasEffect_binop rfl rfl wrap_add
  · exact hasEffect_binop rfl rfl wrap_sub
  · exact hasEffect_binop rfl rfl wrap_mul
  · exact hasEffect_pop1Push rfl rfl fun a => by
      unfold cellAbs
      split
      · rw [← wrap_neg]; congr 1; omega
      · conv => rhs; rw [← wrap_toInt a]
        congr 1; omega
  · exact hasEffect_pop1Push rfl rfl wrap_neg
  · exact hasEffect_pop2Push (f := fun n t => flag (decide (t = n))) rfl rfl fun a b => by
      rw [truth_eq_flag]; simp [eq_comm]
  · exact hasEffect_pop2Push rfl rfl fun a b => by rw [truth_eq_flag]
  · exact hasEffect_pop2Push rfl rfl fun a b => by rw [truth_eq_flag]
  · exact hasEffect_pop2Push rfl rfl fun a b => by rw [truth_eq_flag]
  · exact hasEffect_pop1Push rfl rfl fun a => by
      rw [truth_eq_flag]; congr 1; simp [← BitVec.toInt_inj]
  · exact hasEffect_pop1Push rfl rfl fun a => by
      rw [truth_eq_flag]; congr 1; simp [← BitVec.toInt_inj]
  · exact hasEffect_pop1Push rfl rfl fun a => by
      rw [truth_eq_flag]; congr 1; simp [← BitVec.toInt_inj]
  · exact hasEffect_pop1Push rfl rfl fun a => by rw [truth_eq_flag]
  · exact hasEffect_pop1Push rfl rfl fun a => by rw [truth_eq_flag]
  · exact eff_within c
  · exact hasEffect_pop1Push rfl rfl fun a => by
      rw [BitVec.not_eq_neg_add, show -1 - a.toInt = (-1#64).toInt - a.toInt by rfl, wrap_sub]
      bv_omega
  · exact hasEffect_pop2Push (f := fun n t => t &&& n) rfl rfl fun a b => by
      apply BitVec.eq_of_toNat_eq
      rw [BitVec.toNat_and, BitVec.toNat_ofNat, Nat.and_comm]
      exact Nat.mod_eq_of_lt (Nat.and_lt_two_pow _ a.isLt)
  · exact hasEffect_pop2Push (f := fun n t => t ||| n) rfl rfl fun a b => by
      apply BitVec.eq_of_toNat_eq
      rw [BitVec.toNat_or, BitVec.toNat_ofNat, Nat.or_comm]
      exact Nat.mod_eq_of_lt (Nat.or_lt_two_pow b.isLt a.isLt)
  · exact hasEffect_pop2Push (f := fun n t => t ^^^ n) rfl rfl fun a b => by
      apply BitVec.eq_of_toNat_eq
      rw [BitVec.toNat_xor, BitVec.toNat_ofNat, Nat.xor_comm]
      exact Nat.mod_eq_of_lt (Nat.xor_lt_two_pow b.isLt a.isLt)
  · exact hasEffect_pop2Push rfl rfl fun a b => by
      apply BitVec.eq_of_toNat_eq; simp [shl, Nat.shiftLeft_eq]
  · exact hasEffect_pop2Push rfl rfl fun a b => by
      apply BitVec.eq_of_toNat_eq
      simp only [shr, BitVec.toNat_ofNat, BitVec.toNat_ushiftRight, Nat.shiftRight_eq_div_pow]
      exact Nat.mod_eq_of_lt (Nat.lt_of_le_of_lt (Nat.div_le_self _ _) a.isLt)

end Verif
