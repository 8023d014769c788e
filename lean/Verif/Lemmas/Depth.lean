import Verif.Model.Exec

/-!
# The bound on native recursion is only a bound

The model gives `execWord` a number: how deep `execute`, immediate words and `abort_with` may still
call each other (src/core.rs 763, 3195). This file shows that a larger number changes nothing but
whether the native stack overflows: a run which does not overflow it gives the same result at any
larger depth. The same holds of the number of steps given to the loops of the model.
-/

namespace Verif

variable {α β : Type}

/-- `m'` does what `m` does, unless `m` runs into the fault `f`. -/
def Within (f : Fault) (m m' : M α) : Prop := ∀ s, m s = .error f ∨ m' s = m s

namespace Within

variable {f : Fault}

theorem refl (m : M α) : Within f m m := fun _ => .inr rfl

theorem fault (m : M α) : Within f (Verif.fault f) m := fun _ => .inl rfl

theorem trans {m m' m'' : M α} (h : Within f m m') (h' : Within f m' m'') : Within f m m'' := by
  intro s
  rcases h s with e | e
  · exact .inl e
  · rcases h' s with e' | e'
    · exact .inl (e ▸ e')
    · exact .inr (e'.trans e)

theorem bind {m m' : M α} {k k' : α → M β} (h : Within f m m') (hk : ∀ a, Within f (k a) (k' a)) :
    Within f (m >>= k) (m' >>= k') := by
  intro s
  show M.bind m k s = _ ∨ M.bind m' k' s = M.bind m k s
  unfold M.bind
  rcases h s with e | e
  · left; rw [e]
  · rw [e]
    rcases m s with x | ⟨a, u⟩
    · exact .inr rfl
    · exact hk a u

theorem ite {p : Prop} [Decidable p] {m m' k k' : M α} (h : Within f m m') (h' : Within f k k') :
    Within f (if p then m else k) (if p then m' else k') := by
  split <;> assumption

/-- What ends well, or with another fault, ends the same way. -/
theorem eq {m m' : M α} (h : Within f m m') {s : VM} {r : Except Fault (α × VM)} (e : m s = r) (hr : r ≠ .error f) :
    m' s = r := by
  rcases h s with e' | e'
  · exact absurd (e.symm.trans e') hr
  · exact e'.trans e

theorem ok {m m' : M α} (h : Within f m m') {s u : VM} {a : α} (e : m s = .ok (a, u)) : m' s = .ok (a, u) :=
  h.eq e nofun

end Within

/-- Closes the goals about functions which only pass their environment on. -/
syntax "depth_leaf" : tactic
macro_rules | `(tactic| depth_leaf) => `(tactic| with_reducible exact Within.refl _)

/-- Follows the shape of a function of the model. -/
macro "depth" : tactic => `(tactic| repeat' first
  | assumption
  | depth_leaf
  | with_reducible refine Within.bind ?_ fun _ => ?_
  | with_reducible apply Within.ite
  | split
  | exact Within.refl _)

section Words

variable {cfg : Cfg} {ex ex' : Nat → M Unit}


theorem Within.abortWith (h : ∀ i, Within .nativeOverflow (ex i) (ex' i)) (e : Exn) :
    Within .nativeOverflow (Verif.abortWith ⟨cfg, ex⟩ e) (Verif.abortWith ⟨cfg, ex'⟩ e) := by
  unfold Verif.abortWith
  refine .bind (.refl _) fun _ => .bind (.refl _) fun _ => .bind (.refl _) fun _ => .bind (.refl _) fun s => h _

macro_rules | `(tactic| depth_leaf) => `(tactic| with_reducible apply Within.abortWith)

theorem Within.leave (h : ∀ i, Within .nativeOverflow (ex i) (ex' i)) :
    Within .nativeOverflow (Verif.leave ⟨cfg, ex⟩) (Verif.leave ⟨cfg, ex'⟩) := by
  unfold Verif.leave
  depth

macro_rules | `(tactic| depth_leaf) => `(tactic| with_reducible apply Within.leave)

theorem Within.compileLeave (h : ∀ i, Within .nativeOverflow (ex i) (ex' i)) (i : Nat) :
    Within .nativeOverflow (Verif.compileLeave ⟨cfg, ex⟩ i) (Verif.compileLeave ⟨cfg, ex'⟩ i) := by
  unfold Verif.compileLeave
  depth

macro_rules | `(tactic| depth_leaf) => `(tactic| with_reducible apply Within.compileLeave)

theorem Within.compSemRun (h : ∀ i, Within .nativeOverflow (ex i) (ex' i)) (cs : CompSem) (i : Nat) :
    Within .nativeOverflow (Verif.compSemRun ⟨cfg, ex⟩ cs i) (Verif.compSemRun ⟨cfg, ex'⟩ cs i) := by
  unfold Verif.compSemRun
  depth

macro_rules | `(tactic| depth_leaf) => `(tactic| with_reducible apply Within.compSemRun)

theorem Within.pChar (h : ∀ i, Within .nativeOverflow (ex i) (ex' i)) :
    Within .nativeOverflow (Verif.pChar ⟨cfg, ex⟩) (Verif.pChar ⟨cfg, ex'⟩) := by
  unfold Verif.pChar
  depth

macro_rules | `(tactic| depth_leaf) => `(tactic| with_reducible apply Within.pChar)

theorem Within.bracketChar (h : ∀ i, Within .nativeOverflow (ex i) (ex' i)) :
    Within .nativeOverflow (Verif.bracketChar ⟨cfg, ex⟩) (Verif.bracketChar ⟨cfg, ex'⟩) := by
  unfold Verif.bracketChar
  depth

macro_rules | `(tactic| depth_leaf) => `(tactic| with_reducible apply Within.bracketChar)

theorem Within.postpone (h : ∀ i, Within .nativeOverflow (ex i) (ex' i)) :
    Within .nativeOverflow (Verif.postpone ⟨cfg, ex⟩) (Verif.postpone ⟨cfg, ex'⟩) := by
  unfold Verif.postpone
  depth

macro_rules | `(tactic| depth_leaf) => `(tactic| with_reducible apply Within.postpone)

theorem Within.postponeRt (h : ∀ i, Within .nativeOverflow (ex i) (ex' i)) :
    Within .nativeOverflow (Verif.postponeRt ⟨cfg, ex⟩) (Verif.postponeRt ⟨cfg, ex'⟩) := by
  unfold Verif.postponeRt
  depth

macro_rules | `(tactic| depth_leaf) => `(tactic| with_reducible apply Within.postponeRt)

theorem Within.evaluateNumber (h : ∀ i, Within .nativeOverflow (ex i) (ex' i)) (tok : List Char) :
    Within .nativeOverflow (Verif.evaluateNumber ⟨cfg, ex⟩ tok) (Verif.evaluateNumber ⟨cfg, ex'⟩ tok) := by
  unfold Verif.evaluateNumber
  depth

macro_rules | `(tactic| depth_leaf) => `(tactic| with_reducible apply Within.evaluateNumber)

theorem Within.compileToken (h : ∀ i, Within .nativeOverflow (ex i) (ex' i)) :
    Within .nativeOverflow (Verif.compileToken ⟨cfg, ex⟩) (Verif.compileToken ⟨cfg, ex'⟩) := by
  unfold Verif.compileToken
  depth
  exact h _

macro_rules | `(tactic| depth_leaf) => `(tactic| with_reducible apply Within.compileToken)

theorem Within.interpretToken (h : ∀ i, Within .nativeOverflow (ex i) (ex' i)) :
    Within .nativeOverflow (Verif.interpretToken ⟨cfg, ex⟩) (Verif.interpretToken ⟨cfg, ex'⟩) := by
  unfold Verif.interpretToken
  depth
  exact h _

macro_rules | `(tactic| depth_leaf) => `(tactic| with_reducible apply Within.interpretToken)

theorem Within.storeToken (h : ∀ i, Within .nativeOverflow (ex i) (ex' i)) :
    Within .nativeOverflow (Verif.storeToken ⟨cfg, ex⟩) (Verif.storeToken ⟨cfg, ex'⟩) := by
  unfold Verif.storeToken
  depth

macro_rules | `(tactic| depth_leaf) => `(tactic| with_reducible apply Within.storeToken)

theorem Within.define (h : ∀ i, Within .nativeOverflow (ex i) (ex' i)) (action : Prim) :
    Within .nativeOverflow (Verif.define ⟨cfg, ex⟩ action) (Verif.define ⟨cfg, ex'⟩ action) := by
  unfold Verif.define
  depth

macro_rules | `(tactic| depth_leaf) => `(tactic| with_reducible apply Within.define)

theorem Within.colon (h : ∀ i, Within .nativeOverflow (ex i) (ex' i)) :
    Within .nativeOverflow (Verif.colon ⟨cfg, ex⟩) (Verif.colon ⟨cfg, ex'⟩) := by
  unfold Verif.colon
  depth

macro_rules | `(tactic| depth_leaf) => `(tactic| with_reducible apply Within.colon)

theorem Within.semicolonBody (h : ∀ i, Within .nativeOverflow (ex i) (ex' i)) :
    Within .nativeOverflow (Verif.semicolonBody ⟨cfg, ex⟩) (Verif.semicolonBody ⟨cfg, ex'⟩) := by
  unfold Verif.semicolonBody
  depth

macro_rules | `(tactic| depth_leaf) => `(tactic| with_reducible apply Within.semicolonBody)

theorem Within.semicolon (h : ∀ i, Within .nativeOverflow (ex i) (ex' i)) :
    Within .nativeOverflow (Verif.semicolon ⟨cfg, ex⟩) (Verif.semicolon ⟨cfg, ex'⟩) := by
  unfold Verif.semicolon
  depth

macro_rules | `(tactic| depth_leaf) => `(tactic| with_reducible apply Within.semicolon)

theorem Within.create (h : ∀ i, Within .nativeOverflow (ex i) (ex' i)) :
    Within .nativeOverflow (Verif.create ⟨cfg, ex⟩) (Verif.create ⟨cfg, ex'⟩) := by
  unfold Verif.create
  depth

macro_rules | `(tactic| depth_leaf) => `(tactic| with_reducible apply Within.create)

theorem Within.constant (h : ∀ i, Within .nativeOverflow (ex i) (ex' i)) :
    Within .nativeOverflow (Verif.constant ⟨cfg, ex⟩) (Verif.constant ⟨cfg, ex'⟩) := by
  unfold Verif.constant
  depth

macro_rules | `(tactic| depth_leaf) => `(tactic| with_reducible apply Within.constant)

theorem markerLoop_ctx (l : List (Fin 64)) : markerLoop ⟨cfg, ex⟩ l = markerLoop ⟨cfg, ex'⟩ l := by
  induction l with
  | nil => rfl
  | cons i l ih => unfold markerLoop; rw [ih]; rfl

macro_rules | `(tactic| depth_leaf) => `(tactic| (rw [markerLoop_ctx]; with_reducible exact Within.refl _))

theorem Within.marker (h : ∀ i, Within .nativeOverflow (ex i) (ex' i)) :
    Within .nativeOverflow (Verif.marker ⟨cfg, ex⟩) (Verif.marker ⟨cfg, ex'⟩) := by
  unfold Verif.marker
  depth

macro_rules | `(tactic| depth_leaf) => `(tactic| with_reducible apply Within.marker)

theorem Within.tick (h : ∀ i, Within .nativeOverflow (ex i) (ex' i)) :
    Within .nativeOverflow (Verif.tick ⟨cfg, ex⟩) (Verif.tick ⟨cfg, ex'⟩) := by
  unfold Verif.tick
  depth

macro_rules | `(tactic| depth_leaf) => `(tactic| with_reducible apply Within.tick)

theorem Within.bracketTick (h : ∀ i, Within .nativeOverflow (ex i) (ex' i)) :
    Within .nativeOverflow (Verif.bracketTick ⟨cfg, ex⟩) (Verif.bracketTick ⟨cfg, ex'⟩) := by
  unfold Verif.bracketTick
  depth

macro_rules | `(tactic| depth_leaf) => `(tactic| with_reducible apply Within.bracketTick)

theorem Within.toBody (h : ∀ i, Within .nativeOverflow (ex i) (ex' i)) :
    Within .nativeOverflow (Verif.toBody ⟨cfg, ex⟩) (Verif.toBody ⟨cfg, ex'⟩) := by
  unfold Verif.toBody
  depth

macro_rules | `(tactic| depth_leaf) => `(tactic| with_reducible apply Within.toBody)

theorem Within.toName (h : ∀ i, Within .nativeOverflow (ex i) (ex' i)) :
    Within .nativeOverflow (Verif.toName ⟨cfg, ex⟩) (Verif.toName ⟨cfg, ex'⟩) := by
  unfold Verif.toName
  depth

macro_rules | `(tactic| depth_leaf) => `(tactic| with_reducible apply Within.toName)

theorem Within.execute (h : ∀ i, Within .nativeOverflow (ex i) (ex' i)) :
    Within .nativeOverflow (Verif.execute ⟨cfg, ex⟩) (Verif.execute ⟨cfg, ex'⟩) := by
  unfold Verif.execute
  depth
  exact h _

macro_rules | `(tactic| depth_leaf) => `(tactic| with_reducible apply Within.execute)

theorem Within.divOp (h : ∀ i, Within .nativeOverflow (ex i) (ex' i)) (f : Cell → Cell → Cell) :
    Within .nativeOverflow (Verif.divOp ⟨cfg, ex⟩ f) (Verif.divOp ⟨cfg, ex'⟩ f) := by
  unfold Verif.divOp
  depth

macro_rules | `(tactic| depth_leaf) => `(tactic| with_reducible apply Within.divOp)

theorem Within.slashMod (h : ∀ i, Within .nativeOverflow (ex i) (ex' i)) :
    Within .nativeOverflow (Verif.slashMod ⟨cfg, ex⟩) (Verif.slashMod ⟨cfg, ex'⟩) := by
  unfold Verif.slashMod
  depth

macro_rules | `(tactic| depth_leaf) => `(tactic| with_reducible apply Within.slashMod)

theorem Within.fetch (h : ∀ i, Within .nativeOverflow (ex i) (ex' i)) :
    Within .nativeOverflow (Verif.fetch ⟨cfg, ex⟩) (Verif.fetch ⟨cfg, ex'⟩) := by
  unfold Verif.fetch
  depth

macro_rules | `(tactic| depth_leaf) => `(tactic| with_reducible apply Within.fetch)

theorem Within.store (h : ∀ i, Within .nativeOverflow (ex i) (ex' i)) :
    Within .nativeOverflow (Verif.store ⟨cfg, ex⟩) (Verif.store ⟨cfg, ex'⟩) := by
  unfold Verif.store
  depth

macro_rules | `(tactic| depth_leaf) => `(tactic| with_reducible apply Within.store)

theorem Within.cFetch (h : ∀ i, Within .nativeOverflow (ex i) (ex' i)) :
    Within .nativeOverflow (Verif.cFetch ⟨cfg, ex⟩) (Verif.cFetch ⟨cfg, ex'⟩) := by
  unfold Verif.cFetch
  depth

macro_rules | `(tactic| depth_leaf) => `(tactic| with_reducible apply Within.cFetch)

theorem Within.cStore (h : ∀ i, Within .nativeOverflow (ex i) (ex' i)) :
    Within .nativeOverflow (Verif.cStore ⟨cfg, ex⟩) (Verif.cStore ⟨cfg, ex'⟩) := by
  unfold Verif.cStore
  depth

macro_rules | `(tactic| depth_leaf) => `(tactic| with_reducible apply Within.cStore)

theorem Within.pMove (h : ∀ i, Within .nativeOverflow (ex i) (ex' i)) :
    Within .nativeOverflow (Verif.pMove ⟨cfg, ex⟩) (Verif.pMove ⟨cfg, ex'⟩) := by
  unfold Verif.pMove
  depth

macro_rules | `(tactic| depth_leaf) => `(tactic| with_reducible apply Within.pMove)

theorem Within.cGuard (h : ∀ i, Within .nativeOverflow (ex i) (ex' i)) {k k' : M Unit} (hk : Within .nativeOverflow k k') :
    Within .nativeOverflow (Verif.cGuard ⟨cfg, ex⟩ k) (Verif.cGuard ⟨cfg, ex'⟩ k') := by
  unfold Verif.cGuard
  depth

macro_rules | `(tactic| depth_leaf) => `(tactic| with_reducible apply Within.cGuard)

theorem Within.immElse (h : ∀ i, Within .nativeOverflow (ex i) (ex' i)) :
    Within .nativeOverflow (Verif.immElse ⟨cfg, ex⟩) (Verif.immElse ⟨cfg, ex'⟩) := by
  unfold Verif.immElse
  depth

macro_rules | `(tactic| depth_leaf) => `(tactic| with_reducible apply Within.immElse)

theorem Within.immThen (h : ∀ i, Within .nativeOverflow (ex i) (ex' i)) :
    Within .nativeOverflow (Verif.immThen ⟨cfg, ex⟩) (Verif.immThen ⟨cfg, ex'⟩) := by
  unfold Verif.immThen
  depth

macro_rules | `(tactic| depth_leaf) => `(tactic| with_reducible apply Within.immThen)

theorem Within.immOfTail (h : ∀ i, Within .nativeOverflow (ex i) (ex' i)) :
    Within .nativeOverflow (Verif.immOfTail ⟨cfg, ex⟩) (Verif.immOfTail ⟨cfg, ex'⟩) := by
  unfold Verif.immOfTail
  depth

macro_rules | `(tactic| depth_leaf) => `(tactic| with_reducible apply Within.immOfTail)

theorem Within.immOf (h : ∀ i, Within .nativeOverflow (ex i) (ex' i)) :
    Within .nativeOverflow (Verif.immOf ⟨cfg, ex⟩) (Verif.immOf ⟨cfg, ex'⟩) := by
  unfold Verif.immOf
  depth

macro_rules | `(tactic| depth_leaf) => `(tactic| with_reducible apply Within.immOf)

theorem Within.immEndof (h : ∀ i, Within .nativeOverflow (ex i) (ex' i)) :
    Within .nativeOverflow (Verif.immEndof ⟨cfg, ex⟩) (Verif.immEndof ⟨cfg, ex'⟩) := by
  unfold Verif.immEndof
  depth

macro_rules | `(tactic| depth_leaf) => `(tactic| with_reducible apply Within.immEndof)

theorem Within.endcaseLoop (h : ∀ i, Within .nativeOverflow (ex i) (ex' i)) (n : Nat) :
    Within .nativeOverflow (Verif.endcaseLoop ⟨cfg, ex⟩ n) (Verif.endcaseLoop ⟨cfg, ex'⟩ n) := by
  induction n with
  | zero => exact Within.refl _
  | succ n ih => unfold Verif.endcaseLoop; depth

macro_rules | `(tactic| depth_leaf) => `(tactic| with_reducible apply Within.endcaseLoop)

theorem Within.immEndcase (h : ∀ i, Within .nativeOverflow (ex i) (ex' i)) :
    Within .nativeOverflow (Verif.immEndcase ⟨cfg, ex⟩) (Verif.immEndcase ⟨cfg, ex'⟩) := by
  unfold Verif.immEndcase
  depth

macro_rules | `(tactic| depth_leaf) => `(tactic| with_reducible apply Within.immEndcase)

theorem Within.immRepeat (h : ∀ i, Within .nativeOverflow (ex i) (ex' i)) :
    Within .nativeOverflow (Verif.immRepeat ⟨cfg, ex⟩) (Verif.immRepeat ⟨cfg, ex'⟩) := by
  intro s
  have key : ∀ p : Control × Control, Within .nativeOverflow
      (match p with
        | (.begin_ b, .while_ w) => Verif.cGuard ⟨cfg, ex⟩ do
            let here ← compileBranch ⟨cfg, ex⟩ b
            patch ⟨cfg, ex⟩ here w
        | _ => Verif.abortWith ⟨cfg, ex⟩ .controlStructureMismatch)
      (match p with
        | (.begin_ b, .while_ w) => Verif.cGuard ⟨cfg, ex'⟩ do
            let here ← compileBranch ⟨cfg, ex'⟩ b
            patch ⟨cfg, ex'⟩ here w
        | _ => Verif.abortWith ⟨cfg, ex'⟩ .controlStructureMismatch) := by
    intro p
    split <;> depth
  exact key _ _

macro_rules | `(tactic| depth_leaf) => `(tactic| with_reducible apply Within.immRepeat)

theorem Within.immUntil (h : ∀ i, Within .nativeOverflow (ex i) (ex' i)) :
    Within .nativeOverflow (Verif.immUntil ⟨cfg, ex⟩) (Verif.immUntil ⟨cfg, ex'⟩) := by
  unfold Verif.immUntil
  depth

macro_rules | `(tactic| depth_leaf) => `(tactic| with_reducible apply Within.immUntil)

theorem Within.immAgain (h : ∀ i, Within .nativeOverflow (ex i) (ex' i)) :
    Within .nativeOverflow (Verif.immAgain ⟨cfg, ex⟩) (Verif.immAgain ⟨cfg, ex'⟩) := by
  unfold Verif.immAgain
  depth

macro_rules | `(tactic| depth_leaf) => `(tactic| with_reducible apply Within.immAgain)

theorem Within.immLabel (h : ∀ i, Within .nativeOverflow (ex i) (ex' i)) :
    Within .nativeOverflow (Verif.immLabel ⟨cfg, ex⟩) (Verif.immLabel ⟨cfg, ex'⟩) := by
  unfold Verif.immLabel
  depth

macro_rules | `(tactic| depth_leaf) => `(tactic| with_reducible apply Within.immLabel)

theorem Within.immGoto (h : ∀ i, Within .nativeOverflow (ex i) (ex' i)) :
    Within .nativeOverflow (Verif.immGoto ⟨cfg, ex⟩) (Verif.immGoto ⟨cfg, ex'⟩) := by
  unfold Verif.immGoto
  depth

macro_rules | `(tactic| depth_leaf) => `(tactic| with_reducible apply Within.immGoto)

theorem Within.immCall (h : ∀ i, Within .nativeOverflow (ex i) (ex' i)) :
    Within .nativeOverflow (Verif.immCall ⟨cfg, ex⟩) (Verif.immCall ⟨cfg, ex'⟩) := by
  unfold Verif.immCall
  depth

macro_rules | `(tactic| depth_leaf) => `(tactic| with_reducible apply Within.immCall)

theorem Within.immLoopWith (h : ∀ i, Within .nativeOverflow (ex i) (ex' i)) (sel : Refs → Nat) :
    Within .nativeOverflow (Verif.immLoopWith ⟨cfg, ex⟩ sel) (Verif.immLoopWith ⟨cfg, ex'⟩ sel) := by
  unfold Verif.immLoopWith
  depth

macro_rules | `(tactic| depth_leaf) => `(tactic| with_reducible apply Within.immLoopWith)

theorem Within.immLoop (h : ∀ i, Within .nativeOverflow (ex i) (ex' i)) :
    Within .nativeOverflow (Verif.immLoop ⟨cfg, ex⟩) (Verif.immLoop ⟨cfg, ex'⟩) := by
  unfold Verif.immLoop
  depth

macro_rules | `(tactic| depth_leaf) => `(tactic| with_reducible apply Within.immLoop)

theorem Within.immPlusLoop (h : ∀ i, Within .nativeOverflow (ex i) (ex' i)) :
    Within .nativeOverflow (Verif.immPlusLoop ⟨cfg, ex⟩) (Verif.immPlusLoop ⟨cfg, ex'⟩) := by
  unfold Verif.immPlusLoop
  depth

macro_rules | `(tactic| depth_leaf) => `(tactic| with_reducible apply Within.immPlusLoop)

theorem Within.checkStacks (h : ∀ i, Within .nativeOverflow (ex i) (ex' i)) :
    Within .nativeOverflow (Verif.checkStacks ⟨cfg, ex⟩) (Verif.checkStacks ⟨cfg, ex'⟩) := by
  unfold Verif.checkStacks
  depth

macro_rules | `(tactic| depth_leaf) => `(tactic| with_reducible apply Within.checkStacks)

theorem Within.setSourceId (h : ∀ i, Within .nativeOverflow (ex i) (ex' i)) (id : Cell) :
    Within .nativeOverflow (Verif.setSourceId ⟨cfg, ex⟩ id) (Verif.setSourceId ⟨cfg, ex'⟩ id) := by
  unfold Verif.setSourceId
  depth

macro_rules | `(tactic| depth_leaf) => `(tactic| with_reducible apply Within.setSourceId)

theorem Within.pSetSourceId (h : ∀ i, Within .nativeOverflow (ex i) (ex' i)) :
    Within .nativeOverflow (Verif.pSetSourceId ⟨cfg, ex⟩) (Verif.pSetSourceId ⟨cfg, ex'⟩) := by
  unfold Verif.pSetSourceId
  depth

macro_rules | `(tactic| depth_leaf) => `(tactic| with_reducible apply Within.pSetSourceId)

theorem Within.reset (h : ∀ i, Within .nativeOverflow (ex i) (ex' i)) :
    Within .nativeOverflow (Verif.reset ⟨cfg, ex⟩) (Verif.reset ⟨cfg, ex'⟩) := by
  unfold Verif.reset
  depth

macro_rules | `(tactic| depth_leaf) => `(tactic| with_reducible apply Within.reset)

theorem Within.activate (h : ∀ i, Within .nativeOverflow (ex i) (ex' i)) :
    Within .nativeOverflow (Verif.activate ⟨cfg, ex⟩) (Verif.activate ⟨cfg, ex'⟩) := by
  unfold Verif.activate
  depth

macro_rules | `(tactic| depth_leaf) => `(tactic| with_reducible apply Within.activate)

theorem Within.setAwakeWord (h : ∀ i, Within .nativeOverflow (ex i) (ex' i)) (v : Bool) :
    Within .nativeOverflow (Verif.setAwakeWord ⟨cfg, ex⟩ v) (Verif.setAwakeWord ⟨cfg, ex'⟩ v) := by
  unfold Verif.setAwakeWord
  depth

macro_rules | `(tactic| depth_leaf) => `(tactic| with_reducible apply Within.setAwakeWord)

theorem Within.pType (h : ∀ i, Within .nativeOverflow (ex i) (ex' i)) :
    Within .nativeOverflow (Verif.pType ⟨cfg, ex⟩) (Verif.pType ⟨cfg, ex'⟩) := by
  unfold Verif.pType
  depth

macro_rules | `(tactic| depth_leaf) => `(tactic| with_reducible apply Within.pType)

theorem Within.sQuote (h : ∀ i, Within .nativeOverflow (ex i) (ex' i)) :
    Within .nativeOverflow (Verif.sQuote ⟨cfg, ex⟩) (Verif.sQuote ⟨cfg, ex'⟩) := by
  unfold Verif.sQuote
  depth

macro_rules | `(tactic| depth_leaf) => `(tactic| with_reducible apply Within.sQuote)

theorem Within.dotQuote (h : ∀ i, Within .nativeOverflow (ex i) (ex' i)) :
    Within .nativeOverflow (Verif.dotQuote ⟨cfg, ex⟩) (Verif.dotQuote ⟨cfg, ex'⟩) := by
  unfold Verif.dotQuote
  depth

macro_rules | `(tactic| depth_leaf) => `(tactic| with_reducible apply Within.dotQuote)

theorem Within.dotR (h : ∀ i, Within .nativeOverflow (ex i) (ex' i)) :
    Within .nativeOverflow (Verif.dotR ⟨cfg, ex⟩) (Verif.dotR ⟨cfg, ex'⟩) := by
  unfold Verif.dotR
  depth

macro_rules | `(tactic| depth_leaf) => `(tactic| with_reducible apply Within.dotR)

theorem Within.fconstant (h : ∀ i, Within .nativeOverflow (ex i) (ex' i)) :
    Within .nativeOverflow (Verif.fconstant ⟨cfg, ex⟩) (Verif.fconstant ⟨cfg, ex'⟩) := by
  unfold Verif.fconstant
  depth

macro_rules | `(tactic| depth_leaf) => `(tactic| with_reducible apply Within.fconstant)

theorem Within.ffetch (h : ∀ i, Within .nativeOverflow (ex i) (ex' i)) :
    Within .nativeOverflow (Verif.ffetch ⟨cfg, ex⟩) (Verif.ffetch ⟨cfg, ex'⟩) := by
  unfold Verif.ffetch
  depth

macro_rules | `(tactic| depth_leaf) => `(tactic| with_reducible apply Within.ffetch)

theorem Within.fstore (h : ∀ i, Within .nativeOverflow (ex i) (ex' i)) :
    Within .nativeOverflow (Verif.fstore ⟨cfg, ex⟩) (Verif.fstore ⟨cfg, ex'⟩) := by
  unfold Verif.fstore
  depth

macro_rules | `(tactic| depth_leaf) => `(tactic| with_reducible apply Within.fstore)

theorem Within.openSource (h : ∀ i, Within .nativeOverflow (ex i) (ex' i)) :
    Within .nativeOverflow (Verif.openSource ⟨cfg, ex⟩) (Verif.openSource ⟨cfg, ex'⟩) := by
  unfold Verif.openSource
  depth

macro_rules | `(tactic| depth_leaf) => `(tactic| with_reducible apply Within.openSource)

theorem Within.closeSource (h : ∀ i, Within .nativeOverflow (ex i) (ex' i)) :
    Within .nativeOverflow (Verif.closeSource ⟨cfg, ex⟩) (Verif.closeSource ⟨cfg, ex'⟩) := by
  unfold Verif.closeSource
  depth

macro_rules | `(tactic| depth_leaf) => `(tactic| with_reducible apply Within.closeSource)

theorem Within.dotSourcePath (h : ∀ i, Within .nativeOverflow (ex i) (ex' i)) :
    Within .nativeOverflow (Verif.dotSourcePath ⟨cfg, ex⟩) (Verif.dotSourcePath ⟨cfg, ex'⟩) := by
  unfold Verif.dotSourcePath
  depth

macro_rules | `(tactic| depth_leaf) => `(tactic| with_reducible apply Within.dotSourcePath)

theorem Within.dotSourceLine (h : ∀ i, Within .nativeOverflow (ex i) (ex' i)) :
    Within .nativeOverflow (Verif.dotSourceLine ⟨cfg, ex⟩) (Verif.dotSourceLine ⟨cfg, ex'⟩) := by
  unfold Verif.dotSourceLine
  depth

macro_rules | `(tactic| depth_leaf) => `(tactic| with_reducible apply Within.dotSourceLine)

theorem Within.pLoadLine (h : ∀ i, Within .nativeOverflow (ex i) (ex' i)) :
    Within .nativeOverflow (Verif.pLoadLine ⟨cfg, ex⟩) (Verif.pLoadLine ⟨cfg, ex'⟩) := by
  unfold Verif.pLoadLine
  depth

macro_rules | `(tactic| depth_leaf) => `(tactic| with_reducible apply Within.pLoadLine)

theorem unmarkLoop_ctx (n dfa : Nat) (i : Fin 64) : unmarkLoop ⟨cfg, ex⟩ n dfa i = unmarkLoop ⟨cfg, ex'⟩ n dfa i := by
  induction n generalizing dfa i with
  | zero => rfl
  | succ n ih => unfold unmarkLoop; simp only [ih]

macro_rules | `(tactic| depth_leaf) => `(tactic| (rw [unmarkLoop_ctx]; with_reducible exact Within.refl _))

set_option maxRecDepth 8000 in
theorem Within.coreAction (h : ∀ i, Within .nativeOverflow (ex i) (ex' i)) (p : CorePrim) :
    Within .nativeOverflow (Verif.coreAction ⟨cfg, ex⟩ p) (Verif.coreAction ⟨cfg, ex'⟩ p) := by
  cases p <;> (dsimp only [Verif.coreAction]; depth)


theorem Within.outAction (h : ∀ i, Within .nativeOverflow (ex i) (ex' i)) (p : OutPrim) :
    Within .nativeOverflow (Verif.outAction ⟨cfg, ex⟩ p) (Verif.outAction ⟨cfg, ex'⟩ p) := by
  cases p <;> (dsimp only [Verif.outAction]; depth)


theorem Within.toolAction (_ : ∀ i, Within .nativeOverflow (ex i) (ex' i)) (p : ToolPrim) :
    Within .nativeOverflow (Verif.toolAction ⟨cfg, ex⟩ p) (Verif.toolAction ⟨cfg, ex'⟩ p) := by
  cases p <;> (dsimp only [Verif.toolAction]; depth)


theorem Within.floatAction (h : ∀ i, Within .nativeOverflow (ex i) (ex' i)) (p : FloatPrim) :
    Within .nativeOverflow (Verif.floatAction ⟨cfg, ex⟩ p) (Verif.floatAction ⟨cfg, ex'⟩ p) := by
  cases p <;> (dsimp only [Verif.floatAction]; depth)


theorem Within.unitAction (_ : ∀ i, Within .nativeOverflow (ex i) (ex' i)) (p : UnitPrim) :
    Within .nativeOverflow (Verif.unitAction ⟨cfg, ex⟩ p) (Verif.unitAction ⟨cfg, ex'⟩ p) := by
  cases p <;> (dsimp only [Verif.unitAction]; depth)


theorem Within.fileAction (_ : ∀ i, Within .nativeOverflow (ex i) (ex' i)) (p : FilePrim) :
    Within .nativeOverflow (Verif.fileAction ⟨cfg, ex⟩ p) (Verif.fileAction ⟨cfg, ex'⟩ p) := by
  cases p <;> (dsimp only [Verif.fileAction]; depth)


theorem Within.loadAction (h : ∀ i, Within .nativeOverflow (ex i) (ex' i)) (p : LoadPrim) :
    Within .nativeOverflow (Verif.loadAction ⟨cfg, ex⟩ p) (Verif.loadAction ⟨cfg, ex'⟩ p) := by
  cases p <;> (dsimp only [Verif.loadAction]; depth)

theorem Within.action (h : ∀ i, Within .nativeOverflow (ex i) (ex' i)) (p : Prim) :
    Within .nativeOverflow (Verif.action ⟨cfg, ex⟩ p) (Verif.action ⟨cfg, ex'⟩ p) := by
  cases p with
  | core p => exact Within.coreAction h p
  | out p => exact Within.outAction h p
  | tool p => exact Within.toolAction h p
  | env p => exact Within.refl _
  | flt p => exact Within.floatAction h p
  | unit p => exact Within.unitAction h p
  | file p => exact Within.fileAction h p
  | load p => exact Within.loadAction h p
  | receive => exact Within.refl _


end Words

section Depth

variable (cfg : Cfg)

/-- One more level of native recursion changes nothing but an overflow of the native stack. -/
theorem execWord_succ (n i : Nat) : Within .nativeOverflow (execWord cfg n i) (execWord cfg (n + 1) i) := by
  induction n generalizing i with
  | zero => exact Within.fault _
  | succ n ih =>
    show Within _ (execWord cfg (n + 1) i) (execWord cfg (n + 1 + 1) i)
    rw [execWord.eq_def, execWord.eq_def cfg (n + 1 + 1)]
    dsimp only
    refine .bind (.refl _) fun _ => .bind (.refl _) fun wl => ?_
    split
    · exact Within.action ih _
    · exact Within.abortWith ih _

variable {cfg} {m n : Nat}

theorem execWord_le (h : m ≤ n) (i : Nat) : Within .nativeOverflow (execWord cfg m i) (execWord cfg n i) := by
  induction h with
  | refl => exact .refl _
  | step _ ih => exact ih.trans (execWord_succ cfg _ i)

theorem abortWith_le (h : m ≤ n) (e : Exn) : Within .nativeOverflow (abortWith (ctx cfg m) e) (abortWith (ctx cfg n) e) :=
  Within.abortWith (execWord_le h) e

theorem action_le (h : m ≤ n) (p : Prim) : Within .nativeOverflow (action (ctx cfg m) p) (action (ctx cfg n) p) :=
  Within.action (execWord_le h) p

theorem step_le (h : m ≤ n) : Within .nativeOverflow (step cfg m) (step cfg n) := by
  have := execWord_le (cfg := cfg) h
  unfold step
  depth
  exact this _

theorem run_le (h : m ≤ n) (fuel : Nat) : Within .nativeOverflow (run cfg m fuel) (run cfg n fuel) := by
  have := step_le (cfg := cfg) h
  induction fuel with
  | zero => exact .refl _
  | succ fuel ih => unfold run; depth

theorem evalToken_le (h : m ≤ n) : Within .nativeOverflow (evalToken (ctx cfg m)) (evalToken (ctx cfg n)) := by
  have h' := execWord_le (cfg := cfg) h
  unfold evalToken ctx
  depth

theorem evaluateInput_le (h : m ≤ n) (fuel : Nat) :
    Within .nativeOverflow (evaluateInput cfg m fuel) (evaluateInput cfg n fuel) := by
  have h' := execWord_le (cfg := cfg) h
  induction fuel with
  | zero => exact .refl _
  | succ fuel ih =>
    have e := evalToken_le (cfg := cfg) h
    have r := run_le (cfg := cfg) h fuel
    have c := Within.checkStacks (cfg := cfg) h'
    unfold evaluateInput
    refine .bind (.refl _) fun _ => .bind (.refl _) fun _ => .ite (.refl _) (.bind e fun _ => .bind (.refl _) fun _ =>
      .ite (.refl _) (.bind r fun _ => .bind c fun _ => .bind (.refl _) fun _ => .ite (.refl _) ih))

end Depth

section Fuel

variable (cfg : Cfg) (depth : Nat)

theorem run_succ (fuel : Nat) : Within .outOfFuel (run cfg depth fuel) (run cfg depth (fuel + 1)) := by
  induction fuel with
  | zero => exact Within.fault _
  | succ fuel ih =>
    rw [run.eq_def, run.eq_def cfg depth (fuel + 1 + 1)]
    exact .bind (.refl _) fun _ => .ite ih (.refl _)

theorem evaluateInput_succ (fuel : Nat) :
    Within .outOfFuel (evaluateInput cfg depth fuel) (evaluateInput cfg depth (fuel + 1)) := by
  induction fuel with
  | zero => exact Within.fault _
  | succ fuel ih =>
    rw [evaluateInput.eq_def, evaluateInput.eq_def cfg depth (fuel + 1 + 1)]
    refine .bind (.refl _) fun _ => .bind (.refl _) fun _ => .ite (.refl _) (.bind (.refl _) fun _ =>
      .bind (.refl _) fun _ => .ite (.refl _) (.bind (run_succ cfg depth fuel) fun _ => .bind (.refl _) fun _ =>
      .bind (.refl _) fun _ => .ite (.refl _) ih))

variable {cfg depth} {m n : Nat}

theorem run_longer (h : m ≤ n) : Within .outOfFuel (run cfg depth m) (run cfg depth n) := by
  induction h with
  | refl => exact .refl _
  | step _ ih => exact ih.trans (run_succ cfg depth _)

theorem evaluateInput_longer (h : m ≤ n) :
    Within .outOfFuel (evaluateInput cfg depth m) (evaluateInput cfg depth n) := by
  induction h with
  | refl => exact .refl _
  | step _ ih => exact ih.trans (evaluateInput_succ cfg depth _)

end Fuel

end Verif
