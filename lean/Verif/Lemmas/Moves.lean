import Verif.Spec.Moves
import Verif.Lemmas.Effects

/-!
# The return-stack, float and unit words have their documented effects
-/

namespace Verif
open Spec Stack

/-- The word named `name` has effect `eff` on the three stacks and touches nothing else. -/
def HasEffect3 (c : Ctx) (name : String) (eff : Effect3) : Prop :=
  ∃ p, primOf name = some p ∧ ∀ (s : VM) (d r : List Cell) (l : List F64) (out : Three),
    Rep s.task.s d → Rep s.task.r r → Rep s.task.f l → eff ⟨d, r, l⟩ = some out → out.Fits →
      ∃ d' r' f', action c p s = .ok ((), withThree s d' r' f') ∧ Rep d' out.data ∧
        Rep r' out.ret ∧ Rep f' out.flt

variable {c : Ctx} {name : String} {p : Prim}

theorem hasEffect3_f1 (hp : primOf name = some p) {f g : F64 → F64} (ha : action c p = f1 f)
    (hfg : ∀ a, g a = f a) : HasEffect3 c name (funary g) := by
  refine ⟨p, hp, fun s d r l out hd hr hl he hf => ?_⟩
  match l, hl, he with
  | a :: l, hl, he =>
    simp only [funary, Option.some.injEq] at he
    subst he
    refine ⟨s.task.s, s.task.r, s.task.f.pop.2.push (f a), ?_, hd, hr, ?_⟩
    · rw [ha]; simp [f1, withThree, hl.pop_fst]
    · dsimp only; rw [hfg]; exact hl.pop_snd.push (by have := hf.2.2; simp at this; omega) _

theorem hasEffect3_f2 (hp : primOf name = some p) {f g : F64 → F64 → F64}
    (ha : action c p = f2 f) (hfg : ∀ a b, g a b = f a b) : HasEffect3 c name (fbinary g) := by
  refine ⟨p, hp, fun s d r l out hd hr hl he hf => ?_⟩
  match l, hl, he with
  | b :: a :: l, hl, he =>
    simp only [fbinary, Option.some.injEq] at he
    subst he
    refine ⟨s.task.s, s.task.r, s.task.f.pop.2.pop.2.push (f a b), ?_, hd, hr, ?_⟩
    · rw [ha]; simp [f2, withThree, hl.pop_fst, hl.pop_snd.pop_fst]
    · dsimp only; rw [hfg]
      exact hl.pop_snd.pop_snd.push (by have := hf.2.2; simp at this; omega) _

theorem hasEffect3_minmax (hp : primOf name = some p) {f : F64 → F64 → F64}
    (ha : action c p = fminmax f) : HasEffect3 c name (fbinary fun a b => f b a) := by
  refine ⟨p, hp, fun s d r l out hd hr hl he hf => ?_⟩
  match l, hl, he with
  | b :: a :: l, hl, he =>
    simp only [fbinary, Option.some.injEq] at he
    subst he
    refine ⟨s.task.s, s.task.r, s.task.f.pop2.2.push (f b a), ?_, hd, hr, ?_⟩
    · rw [ha]; simp [fminmax, withThree, hl.pop2_fst]
    · exact hl.pop2_snd.push (by have := hf.2.2; simp at this; omega) _

theorem hasEffect3_test (hp : primOf name = some p) {f : F64 → Bool}
    (ha : action c p = fTest f) : HasEffect3 c name (ftest f) := by
  refine ⟨p, hp, fun s d r l out hd hr hl he hf => ?_⟩
  match l, hl, he with
  | a :: l, hl, he =>
    simp only [ftest, Option.some.injEq] at he
    subst he
    refine ⟨s.task.s.push (truth (f a = true)), s.task.r, s.task.f.pop.2, ?_, ?_, hr, hl.pop_snd⟩
    · rw [ha]; simp [fTest, withThree, hl.pop_fst, truth_eq_flag]
    · exact hd.push (by have := hf.1; simp at this; omega) _

/-- Picking from the float stack. -/
theorem Stack.Rep.fpick {st : Stack F64} {xs : List F64} {n : Cell} {v : F64} (h : Rep st xs)
    (hv : xs[n.toNat]? = some v) : st.inner (st.len - (n.setWidth 8 + 1)) = v := by
  have h1 := h.1
  have hl := st.len.isLt
  obtain ⟨hk, e⟩ := List.getElem?_eq_some_iff.1 hv
  rw [← e]
  refine h.read (k := n.toNat) hk ?_
  have e1 : (BitVec.setWidth 8 n).toNat = n.toNat := by
    simp only [BitVec.toNat_setWidth]; omega
  bv_omega

/-- The bounds that go with `Three.Fits`. -/
local macro "fits " h:ident : tactic =>
  `(tactic| (have hx1 := ($h).1; have hx2 := ($h).2.1; have hx3 := ($h).2.2
             simp at hx1 hx2 hx3; omega))

theorem returnEffects_ok : ∀ e ∈ returnEffects, HasEffect3 c e.1 e.2 := by
  simp only [returnEffects, List.forall_mem_cons, List.not_mem_nil, false_imp_iff, implies_true,
    and_true]
  refine ⟨?_, ?_, ?_, ?_, ?_, ?_, ?_⟩
  · refine ⟨_, rfl, fun s d r l out hd hr hl he hf => ?_⟩
    match d, hd, he with
    | a :: d, hd, he =>
      simp only [Option.some.injEq] at he
      subst he
      have e := hd.top; subst e
      exact ⟨_, _, _, rfl, hd.pop_snd, hr.push (by fits hf) _, hl⟩
  · refine ⟨_, rfl, fun s d r l out hd hr hl he hf => ?_⟩
    match r, hr, he with
    | a :: r, hr, he =>
      simp only [Option.some.injEq] at he
      subst he
      have e := hr.top; subst e
      exact ⟨_, _, _, rfl, hd.push (by fits hf) _, hr.pop_snd, hl⟩
  · refine ⟨_, rfl, fun s d r l out hd hr hl he hf => ?_⟩
    match r, hr, he with
    | a :: r, hr, he =>
      simp only [Option.some.injEq] at he
      subst he
      have e := hr.top; subst e
      exact ⟨_, _, _, rfl, hd.push (by fits hf) _, hr, hl⟩
  · refine ⟨_, rfl, fun s d r l out hd hr hl he hf => ?_⟩
    match d, hd, he with
    | b :: a :: d, hd, he =>
      simp only [Option.some.injEq] at he
      subst he
      have e := hd.top; subst e
      have e := hd.snd; subst e
      exact ⟨_, _, _, rfl, hd.drop2, hr.push2 (by fits hf) _ _, hl⟩
  · refine ⟨_, rfl, fun s d r l out hd hr hl he hf => ?_⟩
    match r, hr, he with
    | b :: a :: r, hr, he =>
      simp only [Option.some.injEq] at he
      subst he
      have e := hr.top; subst e
      have e := hr.snd; subst e
      exact ⟨_, _, _, rfl, hd.push2 (by fits hf) _ _, hr.drop2, hl⟩
  · refine ⟨_, rfl, fun s d r l out hd hr hl he hf => ?_⟩
    match r, hr, he with
    | b :: a :: r, hr, he =>
      simp only [Option.some.injEq] at he
      subst he
      have e := hr.top; subst e
      have e := hr.snd; subst e
      exact ⟨_, _, _, rfl, hd.push2 (by fits hf) _ _, hr, hl⟩
  · refine ⟨_, rfl, fun s d r l out hd hr hl he hf => ?_⟩
    match r, hr, he with
    | _ :: _ :: _ :: r, hr, he =>
      simp only [Option.some.injEq] at he
      subst he
      exact ⟨_, _, _, rfl, hd, hr.pop3_snd, hl⟩

theorem floatMoves_ok : ∀ e ∈ floatMoves, HasEffect3 c e.1 e.2 := by
  simp only [floatMoves, List.forall_mem_cons, List.not_mem_nil, false_imp_iff, implies_true,
    and_true]
  refine ⟨?_, ?_, ?_, ?_, ?_, ?_, ?_⟩
  · refine ⟨_, rfl, fun s d r l out hd hr hl he hf => ?_⟩
    match l, hl, he with
    | _ :: l, hl, he =>
      simp only [Option.some.injEq] at he
      subst he
      exact ⟨_, _, _, rfl, hd, hr, hl.pop_snd⟩
  · refine ⟨_, rfl, fun s d r l out hd hr hl he hf => ?_⟩
    match l, hl, he with
    | a :: l, hl, he =>
      simp only [Option.some.injEq] at he
      subst he
      refine ⟨_, _, s.task.f.pop.2.push2 a a, ?_, hd, hr, hl.pop_snd.push2 (by fits hf) _ _⟩
      simp [action, floatAction, fdup, withThree, hl.pop_fst]
  · refine ⟨_, rfl, fun s d r l out hd hr hl he hf => ?_⟩
    match l, hl, he with
    | b :: a :: l, hl, he =>
      simp only [Option.some.injEq] at he
      subst he
      refine ⟨_, _, s.task.f.pop.2.pop.2.push2 b a, ?_, hd, hr,
        hl.pop_snd.pop_snd.push2 (by fits hf) _ _⟩
      simp [action, floatAction, fswap, withThree, hl.pop_fst, hl.pop_snd.pop_fst]
  · refine ⟨_, rfl, fun s d r l out hd hr hl he hf => ?_⟩
    match l, hl, he with
    | b :: a :: l, hl, he =>
      simp only [Option.some.injEq] at he
      subst he
      refine ⟨_, _, s.task.f.pop.2.pop.2.push b, ?_, hd, hr,
        hl.pop_snd.pop_snd.push (by fits hf) _⟩
      simp [action, floatAction, fnip, withThree, hl.pop_fst]
  · refine ⟨_, rfl, fun s d r l out hd hr hl he hf => ?_⟩
    match l, hl, he with
    | b :: a :: l, hl, he =>
      simp only [Option.some.injEq] at he
      subst he
      refine ⟨_, _, s.task.f.pop.2.pop.2.push3 a b a, ?_, hd, hr,
        hl.pop_snd.pop_snd.push3 (by fits hf) _ _ _⟩
      simp [action, floatAction, fover, withThree, hl.pop_fst, hl.pop_snd.pop_fst]
  · refine ⟨_, rfl, fun s d r l out hd hr hl he hf => ?_⟩
    match l, hl, he with
    | x :: b :: a :: l, hl, he =>
      simp only [Option.some.injEq] at he
      subst he
      refine ⟨_, _, s.task.f.pop.2.pop.2.pop.2.push3 b x a, ?_, hd, hr,
        hl.pop_snd.pop_snd.pop_snd.push3 (by fits hf) _ _ _⟩
      simp [action, floatAction, frot, withThree, hl.pop_fst, hl.pop_snd.pop_fst,
        hl.pop_snd.pop_snd.pop_fst]
  · refine ⟨_, rfl, fun s d r l out hd hr hl he hf => ?_⟩
    match d, hd, he with
    | n :: d, hd, he =>
      simp only [Option.map_eq_some_iff] at he
      obtain ⟨v, hv, he⟩ := he
      subst he
      refine ⟨s.task.s.pop.2, _, s.task.f.push v, ?_, hd.pop_snd, hr, hl.push (by fits hf) _⟩
      have e : s.task.f.inner (s.task.f.len - (s.task.s.pop.1.setWidth 8 + 1)) = v := by
        rw [hd.pop_fst]; exact hl.fpick hv
      rw [← e]
      simp [action, floatAction, fpick, withThree]

theorem floatEffects_ok : ∀ e ∈ floatEffects c.cfg.fops, HasEffect3 c e.1 e.2 := by
  simp only [floatEffects, List.forall_mem_cons, List.not_mem_nil, false_imp_iff, implies_true,
    and_true]
  refine ⟨?_, ?_, ?_, ?_, ?_, ?_, ?_, ?_, ?_, ?_, ?_, ?_, ?_, ?_, ?_, ?_, ?_, ?_, ?_, ?_, ?_, ?_, ?_,
    ?_, ?_, ?_, ?_⟩
  iterate 12 exact hasEffect3_f1 rfl rfl fun _ => rfl
  iterate 6 exact hasEffect3_f2 rfl rfl fun _ _ => rfl
  iterate 2 exact hasEffect3_minmax rfl rfl
  · refine ⟨_, rfl, fun s d r l out hd hr hl he hf => ?_⟩
    match l, hl, he with
    | a :: l, hl, he =>
      simp only [Option.some.injEq] at he
      subst he
      refine ⟨_, _, s.task.f.pop.2.push2 (c.cfg.fops.sin a) (c.cfg.fops.cos a), ?_, hd, hr,
        hl.pop_snd.push2 (by fits hf) _ _⟩
      simp [action, floatAction, fsincos, withThree, hl.pop_fst]
  · refine ⟨_, rfl, fun s d r l out hd hr hl he hf => ?_⟩
    match d, hd, he with
    | a :: d, hd, he =>
      simp only [Option.some.injEq] at he
      subst he
      refine ⟨s.task.s.pop.2, _, s.task.f.push (c.cfg.fops.ofInt a.toInt), ?_, hd.pop_snd, hr,
        hl.push (by fits hf) _⟩
      simp [action, floatAction, sToF, withThree, hd.pop_fst]
  · refine ⟨_, rfl, fun s d r l out hd hr hl he hf => ?_⟩
    match l, hl, he with
    | a :: l, hl, he =>
      simp only [Option.some.injEq] at he
      subst he
      refine ⟨s.task.s.push (c.cfg.fops.toCell a), _, s.task.f.pop.2, ?_, hd.push (by fits hf) _,
        hr, hl.pop_snd⟩
      simp [action, floatAction, fToS, withThree, hl.pop_fst]
  iterate 2 exact hasEffect3_test rfl rfl
  · refine ⟨_, rfl, fun s d r l out hd hr hl he hf => ?_⟩
    match l, hl, he with
    | b :: a :: l, hl, he =>
      simp only [Option.some.injEq] at he
      subst he
      refine ⟨s.task.s.push (truth (c.cfg.fops.lt a b = true)), _, s.task.f.pop.2.pop.2, ?_,
        hd.push (by fits hf) _, hr, hl.pop_snd.pop_snd⟩
      simp [action, floatAction, fLess, withThree, hl.pop_fst, hl.pop_snd.pop_fst, truth_eq_flag]
  · refine ⟨_, rfl, fun s d r l out hd hr hl he hf => ?_⟩
    match l, hl, he with
    | x3 :: x2 :: x1 :: l, hl, he =>
      simp only [Option.some.injEq] at he
      subst he
      refine ⟨s.task.s.push (truth (near c.cfg.fops x1 x2 x3)), _, s.task.f.pop3.2, ?_,
        hd.push (by fits hf) _, hr, hl.pop3_snd⟩
      have e : decide (near c.cfg.fops x1 x2 x3) = proximate c.cfg.fops x1 x2 x3 := by
        simp only [near, proximate]
        split
        · simp
        · split <;> simp
      simp [action, floatAction, fproximate, withThree, hl.pop3_fst, truth_eq_flag, e]

theorem unitEffects_ok : ∀ e ∈ unitEffects c.cfg.fops, HasEffect3 c e.1 e.2 := by
  simp only [unitEffects, List.forall_mem_cons, List.not_mem_nil, false_imp_iff, implies_true,
    and_true]
  refine ⟨?_, ?_, ?_, ?_, ?_, ?_, ?_, ?_, ?_, ?_, ?_, ?_, ?_, ?_, ?_, ?_⟩
  all_goals exact hasEffect3_f1 rfl rfl fun _ => rfl

theorem moves_ok : ∀ e ∈ moves c.cfg.fops, HasEffect3 c e.1 e.2 := by
  intro e he
  simp only [moves, List.mem_append] at he
  rcases he with ((h | h) | h) | h
  · exact returnEffects_ok e h
  · exact floatMoves_ok e h
  · exact floatEffects_ok e h
  · exact unitEffects_ok e h

end Verif
