import Verif.Lemmas.FootprintTable
import Verif.Spec.Reach

/-!
# Executions are chains of changes
-/

namespace Verif
open Spec
namespace Spec.Does

theorem footprint_wordKinds (p : Prim) : ∀ k, k ∈ footprint p → k ∈ wordKinds := by
  have h : ∀ k : Kind, k ≠ .refs → k ≠ .clock → k ∈ wordKinds := by intro k hk hc; cases k <;> first | decide | exact absurd rfl hk | exact absurd rfl hc
  intro k hk
  have h' : (footprint p).contains .refs = false ∧ (footprint p).contains .clock = false := by
    cases p with
    | core p => cases p <;> decide
    | out p => cases p <;> decide
    | tool p => cases p <;> decide
    | env p => cases p <;> decide
    | flt p => cases p <;> decide
    | unit p => cases p <;> decide
    | file p => cases p <;> decide
    | load p => cases p <;> decide
    | receive => decide
  refine h k (fun e => ?_) (fun e => ?_)
  · subst e
    rw [List.contains_iff_mem.2 hk] at h'
    cases h'.1
  · subst e
    rw [List.contains_iff_mem.2 hk] at h'
    cases h'.2

theorem wordKinds_abort : ∀ k, k ∈ abortKinds → k ∈ wordKinds := by decide

section
variable {K : List Kind} {A : Inv K}

/-- On a machine satisfying the condition, every word is confined to `K`. -/
def Confined (A : Inv K) : Prop :=
  ∀ s, A.holds s → ∀ w, w ∈ s.wl.words → ∀ k, k ∈ footprint w.action → k ∈ K

theorem confined_able (K : List Kind) : Confined (Inv.able K) := fun _ hs w hw => hs.2 w hw

theorem confined_any {K : List Kind} (h : ∀ p : Prim, ∀ k, k ∈ footprint p → k ∈ K) :
    Confined (Inv.any K) := fun _ _ w _ => h w.action

theorem runHandler {c : Ctx} (h : ∀ i, Does A (c.ex i)) : Does A (Spec.runHandler c) :=
  fun s => h s.handler s

theorem execWord (cfg : Cfg) (hK : Confined A) (hwp : .wp ∈ K) (hab : ∀ k, k ∈ abortKinds → k ∈ K)
    (depth : Nat) : ∀ i, Does A (Verif.execWord cfg depth i) := by
  induction depth with
  | zero => intro i; exact fault _
  | succ depth ih =>
    intro i
    unfold Verif.execWord
    refine bind (modWp hwp _) fun _ => ?_
    intro s a s' hi e
    rw [M.bind_apply, getWl_apply] at e
    dsimp only at e
    cases hw : s.wl.words[i]? with
    | none =>
      rw [hw] at e
      have hex : Does A (Spec.runHandler ⟨cfg, Verif.execWord cfg depth⟩) := runHandler ih
      have hsub := hab
      exact (by does : Does A (Verif.abortWith ⟨cfg, Verif.execWord cfg depth⟩ _)) _ _ _ hi e
    | some w =>
      rw [hw] at e
      exact action w.action (fun _ => runHandler ih) (fun _ => ih)
        (hK s hi.2 w (List.mem_of_getElem? hw)) _ _ _ hi e

/-- What the interpreter itself changes when it takes a line of text. -/
theorem ctx (cfg : Cfg) (hK : Confined A) (hi : ∀ k, k ∈ interpreterKinds → k ∈ K) (depth : Nat) :
    ∀ i, Does A ((Verif.ctx cfg depth).ex i) :=
  execWord cfg hK (hi _ (by decide)) (fun k hk => hi k (by revert hk; revert k; decide)) depth

variable (cfg : Cfg) (hK : Confined A) (hin : ∀ k, k ∈ interpreterKinds → k ∈ K) (depth : Nat)
include hK hin

theorem step : Does A (Verif.step cfg depth) := by
  unfold Verif.step
  have := ctx cfg hK hin depth
  refine bind getSt fun _ => bind (dsRd _) fun _ => ?_
  split
  · exact bind (dsRd _) fun _ => bind (liftE _) fun _ => bind (setIp (hin _ (by decide)) _) fun _ =>
      bind (this _) fun _ => pure _
  · exact pure _

theorem run (fuel : Nat) : Does A (Verif.run cfg depth fuel) := by
  induction fuel with
  | zero => exact fault _
  | succ n ih =>
    unfold Verif.run
    refine bind (step cfg hK hin depth) fun b => ?_
    split
    · exact ih
    · exact pure _

theorem evalToken : Does A (Verif.evalToken (Verif.ctx cfg depth)) := by
  unfold Verif.evalToken
  refine bind getSt fun _ => ?_
  split
  · exact core_compileToken (fun _ => runHandler (ctx cfg hK hin depth)) (ctx cfg hK hin depth)
      (fun k hk => hin k (by revert hk; revert k; decide))
  · exact core_interpretToken (fun _ => runHandler (ctx cfg hK hin depth)) (ctx cfg hK hin depth)
      (fun k hk => hin k (by revert hk; revert k; decide))

theorem checkStacks : Does A (Verif.checkStacks (Verif.ctx cfg depth)) :=
  core_checkStacks (fun _ => runHandler (ctx cfg hK hin depth))
    (fun k hk => hin k (by revert hk; revert k; decide))

theorem evaluateInput (fuel : Nat) : Does A (Verif.evaluateInput cfg depth fuel) := by
  induction fuel with
  | zero => exact fault _
  | succ n ih =>
    unfold Verif.evaluateInput
    refine bind (parseWord (hin _ (by decide)) (hin _ (by decide))) fun _ => bind getVM fun _ => ?_
    split
    · exact pure _
    refine bind (evalToken cfg hK hin depth) fun _ => bind getError fun _ => ?_
    split
    · exact pure _
    refine bind (run cfg hK hin depth n) fun _ => bind (checkStacks cfg hK hin depth) fun _ =>
      bind getError fun _ => ?_
    split
    · exact pure _
    · exact ih

omit hK in
theorem pushSource (text : List Char) : Does A (Verif.pushSource text) :=
  exchange (hin _ (by decide)) fun b => b ++ text

theorem loadStr (fuel : Nat) (text : List Char) :
    Does A (Verif.loadStr cfg depth fuel text) := by
  have : Verif.loadStr cfg depth fuel text =
      (Verif.setSource text >>= fun _ => Verif.evaluateInput cfg depth fuel) := by
    unfold Verif.loadStr Verif.setSource
    simp only [M.bind_assoc]
  rw [this]
  exact bind (setSource (hin _ (by decide)) (hin _ (by decide)) text) fun _ =>
    evaluateInput cfg hK hin depth fuel
end

end Spec.Does

/-- What one call does is a chain of changes. -/
theorem Spec.Call.does {cfg : Cfg} {K : List Kind} {A : Inv K} (hK : Does.Confined A)
    (hin : ∀ k, k ∈ interpreterKinds → k ∈ K) {s t : VM} (h : Call cfg s t) (hi : Fit A s) :
    Changes K s t := by
  cases h with
  | word e => exact Does.ctx _ hK hin _ _ _ _ _ hi e
  | step e => exact Does.step _ hK hin _ _ _ _ hi e
  | run e => exact Does.run _ hK hin _ _ _ _ _ hi e
  | token e => exact Does.evalToken _ hK hin _ _ _ _ hi e
  | next e => exact Does.parseWord (hin _ (by decide)) (hin _ (by decide)) _ _ _ hi e
  | check e => exact Does.checkStacks _ hK hin _ _ _ _ hi e
  | line e => exact Does.evaluateInput _ hK hin _ _ _ _ _ hi e
  | source e => exact Does.setSource (hin _ (by decide)) (hin _ (by decide)) _ _ _ _ hi e
  | more e => exact Does.pushSource hin _ _ _ _ hi e
  | script e => exact Does.loadStr _ hK hin _ _ _ _ _ _ hi e
  | load e => exact Does.loadLine (hin _ (by decide)) (hin _ (by decide)) _ _ _ _ _ hi e
  | raise he e =>
    exact Does.abortWith (hin _ (by decide)) (Does.runHandler (Does.ctx _ hK hin _)) _ he _ _ _ hi e
  | reset e =>
    exact Does.reset (hin _ (by decide)) (hin _ (by decide)) (hin _ (by decide)) (hin _ (by decide))
      (hin _ (by decide)) (hin _ (by decide)) (hin _ (by decide)) _ _ _ hi e
  | flush e => exact Does.flushOutput (hin _ (by decide)) _ _ _ hi e
  | clock => exact .one (hin .clock (by decide)) ⟨_, rfl⟩

theorem Spec.Reach.does {cfg : Cfg} {K : List Kind} {A : Inv K} (hK : Does.Confined A)
    (hin : ∀ k, k ∈ interpreterKinds → k ∈ K) {s t : VM} (h : Reach cfg s t) (hi : Fit A s) :
    Changes K s t := by
  induction h with
  | refl => exact .refl _
  | tail _ hc ih => exact ih.trans (hc.does hK hin (ih.fit hi))

/-- An execution is a chain of changes. -/
theorem Spec.Reach.changes {cfg : Cfg} {s t : VM} (h : Reach cfg s t) (hi : InSpace s) :
    Changes runKinds s t :=
  h.does (Does.confined_any fun p k hk => List.mem_cons_of_mem _ (Does.footprint_wordKinds p k hk))
    (by decide) ⟨hi, trivial⟩

/-- What every change preserves, every execution preserves. -/
theorem Spec.Changes.keep {K : List Kind} {P : VM → Prop}
    (hP : ∀ k s t, k ∈ K → Change k s t → P s → P t) {s t : VM} (h : Changes K s t) (hs : P s) : P t := by
  induction h with
  | refl => exact hs
  | tail _ hk hc ih => exact hP _ _ _ hk hc ih

end Verif
