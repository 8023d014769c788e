import Verif.Lemmas.Footprint

/-!
# Every word stays within its footprint: the words one by one

Generated: one lemma per primitive word.
-/

namespace Verif
open Spec
namespace Spec.Does
variable {K : List Kind} {A : Inv K}

section table
set_option linter.unusedVariables false
variable {c : Ctx}

set_option hygiene false in
/-- Membership of a kind in `K`, from the word's footprint. -/
macro "mem!" : term => `(hsub _ (by decide))

set_option hygiene false in
/-- Close a goal left by `does` with one of the lemmas above. -/
macro "does_more" : tactic => `(tactic| first
  | with_reducible refine modLast' mem! _ (fun _ => ⟨rfl, rfl, rfl, rfl, rfl, rfl, rfl, by first | exact .inl rfl | exact .inr definedDoes⟩) ?_
  | with_reducible exact activate hex hab mem! mem! mem!
  | with_reducible exact ipAdd8 mem! _
  | with_reducible exact branch mem!
  | with_reducible exact loopStep mem! mem! _ _ _
  | with_reducible exact compileInteger mem! _ _
  | with_reducible exact compileBranch mem! _ _
  | with_reducible exact compileZeroBranch mem! _ _
  | with_reducible exact patch mem! _ _
  | with_reducible exact modF mem! _
  | with_reducible exact dsAllot mem! _ _
  | with_reducible exact dsMoveUp mem! _ _ _
  | with_reducible exact dsMoveDown mem! _ _ _
  | with_reducible exact putCstr mem! _ _ _
  | with_reducible exact markerLoop mem! _ _
  | with_reducible exact reset mem! mem! mem! mem! mem! mem! mem!
  | with_reducible exact pause mem!
  | with_reducible exact unmark mem! mem! _
  | with_reducible exact setXtime mem! mem! _
  | with_reducible exact clearXtime mem!
  | with_reducible exact flushOutput mem!
  | with_reducible exact flushToErr mem!
  | with_reducible exact dotInput mem!
  | with_reducible exact skip mem! mem! _
  | with_reducible exact openWith mem! mem! _ _ _ (fun _ => hostOpen mem! _ _ _ _)
  | with_reducible exact openWith mem! mem! _ _ _ (fun _ => hostCreate mem! mem! _ _ _)
  | with_reducible exact loadLine mem! mem! _ _
  | with_reducible exact modLabels mem! _ _
  | with_reducible exact modHandler mem! _
  | with_reducible exact popTaskId hab
  | with_reducible exact compSemRun hex hab mem! _ _
  | with_reducible exact evaluateNumber hex hab mem! mem! mem! _
  | with_reducible exact define hex hab mem! mem! mem! mem! mem! _ (by decide)
  | with_reducible exact endcaseLoop hex hab mem! _
  | with_reducible exact immGoto hex hab mem! mem! mem!
  | with_reducible exact immLabel hex hab mem! mem! mem!
  | with_reducible exact immRepeat hex hab mem! mem!
  | with_reducible exact setSourceId hex hab mem! _
  | with_reducible exact sQuote hex hab mem! mem! mem!
  | with_reducible exact openSource hex hab mem! mem!
  | with_reducible exact closeSource hex hab mem!
  | (with_reducible refine cGuard hex hab ?_))

/-- Unfold a definition used inside a word. -/
macro "does_unfold" : tactic => `(tactic| first
  | unfold leftBracket
  | unfold rightBracket
  | unfold compileComma
  | unfold pChar
  | unfold semicolonBody
  | unfold immLoopWith
  | unfold immOfTail)

set_option hygiene false in
/-- The word with definition `f` stays within its footprint. -/
macro "word" f:ident : tactic => `(tactic| (
  (try have hex := hcall (by decide))
  (try have hab : ∀ k, k ∈ abortKinds → k ∈ K := fun k hk => hsub k (by revert k; decide))
  first | with_reducible does_more | (does; done) | (unfold $f; repeat' (first | does_more | does_step | does_unfold))))

theorem core_noop (hcall : raises (.core .noop) = true → Does A (runHandler c))
    (hsub : ∀ k, k ∈ footprint (.core .noop) → k ∈ K) : Does A (Verif.coreAction c .noop) := by
  (try have hex := hcall (by decide))
  unfold Verif.coreAction
  dsimp only
  does

theorem core_exit (hcall : raises (.core .exit) = true → Does A (runHandler c))
    (hsub : ∀ k, k ∈ footprint (.core .exit) → k ∈ K) : Does A (Verif.coreAction c .exit) := by
  show Does A (Verif.exit)
  word Verif.exit

theorem core_lit (hcall : raises (.core .lit) = true → Does A (runHandler c))
    (hsub : ∀ k, k ∈ footprint (.core .lit) → k ∈ K) : Does A (Verif.coreAction c .lit) := by
  show Does A (Verif.lit c)
  word Verif.lit

theorem core_flit (hcall : raises (.core .flit) = true → Does A (runHandler c))
    (hsub : ∀ k, k ∈ footprint (.core .flit) → k ∈ K) : Does A (Verif.coreAction c .flit) := by
  show Does A (Verif.flit c)
  word Verif.flit

theorem core_sQuoteRt (hcall : raises (.core .sQuoteRt) = true → Does A (runHandler c))
    (hsub : ∀ k, k ∈ footprint (.core .sQuoteRt) → k ∈ K) : Does A (Verif.coreAction c .sQuoteRt) := by
  show Does A (Verif.sQuoteRt c)
  word Verif.sQuoteRt

theorem core_branch (hcall : raises (.core .branch) = true → Does A (runHandler c))
    (hsub : ∀ k, k ∈ footprint (.core .branch) → k ∈ K) : Does A (Verif.coreAction c .branch) := by
  show Does A (Verif.branch)
  word Verif.branch

theorem core_zeroBranch (hcall : raises (.core .zeroBranch) = true → Does A (runHandler c))
    (hsub : ∀ k, k ∈ footprint (.core .zeroBranch) → k ∈ K) : Does A (Verif.coreAction c .zeroBranch) := by
  show Does A (Verif.zeroBranch c)
  word Verif.zeroBranch

theorem core_doRt (hcall : raises (.core .doRt) = true → Does A (runHandler c))
    (hsub : ∀ k, k ∈ footprint (.core .doRt) → k ∈ K) : Does A (Verif.coreAction c .doRt) := by
  show Does A (Verif.doRt c)
  word Verif.doRt

theorem core_qdoRt (hcall : raises (.core .qdoRt) = true → Does A (runHandler c))
    (hsub : ∀ k, k ∈ footprint (.core .qdoRt) → k ∈ K) : Does A (Verif.coreAction c .qdoRt) := by
  show Does A (Verif.qdoRt c)
  word Verif.qdoRt

theorem core_loopRt (hcall : raises (.core .loopRt) = true → Does A (runHandler c))
    (hsub : ∀ k, k ∈ footprint (.core .loopRt) → k ∈ K) : Does A (Verif.coreAction c .loopRt) := by
  show Does A (Verif.loopRt c)
  word Verif.loopRt

theorem core_plusLoopRt (hcall : raises (.core .plusLoopRt) = true → Does A (runHandler c))
    (hsub : ∀ k, k ∈ footprint (.core .plusLoopRt) → k ∈ K) : Does A (Verif.coreAction c .plusLoopRt) := by
  show Does A (Verif.plusLoopRt c)
  word Verif.plusLoopRt

theorem core_unloop (hcall : raises (.core .unloop) = true → Does A (runHandler c))
    (hsub : ∀ k, k ∈ footprint (.core .unloop) → k ∈ K) : Does A (Verif.coreAction c .unloop) := by
  show Does A (Verif.unloop)
  word Verif.unloop

theorem core_leave (hcall : raises (.core .leave) = true → Does A (runHandler c))
    (hsub : ∀ k, k ∈ footprint (.core .leave) → k ∈ K) : Does A (Verif.coreAction c .leave) := by
  show Does A (Verif.leave c)
  word Verif.leave

theorem core_i (hcall : raises (.core .i) = true → Does A (runHandler c))
    (hsub : ∀ k, k ∈ footprint (.core .i) → k ∈ K) : Does A (Verif.coreAction c .i) := by
  show Does A (Verif.pI c)
  word Verif.pI

theorem core_j (hcall : raises (.core .j) = true → Does A (runHandler c))
    (hsub : ∀ k, k ∈ footprint (.core .j) → k ∈ K) : Does A (Verif.coreAction c .j) := by
  show Does A (Verif.pJ c)
  word Verif.pJ

theorem core_toR (hcall : raises (.core .toR) = true → Does A (runHandler c))
    (hsub : ∀ k, k ∈ footprint (.core .toR) → k ∈ K) : Does A (Verif.coreAction c .toR) := by
  show Does A (Verif.toR)
  word Verif.toR

theorem core_rFrom (hcall : raises (.core .rFrom) = true → Does A (runHandler c))
    (hsub : ∀ k, k ∈ footprint (.core .rFrom) → k ∈ K) : Does A (Verif.coreAction c .rFrom) := by
  show Does A (Verif.rFrom)
  word Verif.rFrom

theorem core_rFetch (hcall : raises (.core .rFetch) = true → Does A (runHandler c))
    (hsub : ∀ k, k ∈ footprint (.core .rFetch) → k ∈ K) : Does A (Verif.coreAction c .rFetch) := by
  show Does A (Verif.rFetch)
  word Verif.rFetch

theorem core_twoToR (hcall : raises (.core .twoToR) = true → Does A (runHandler c))
    (hsub : ∀ k, k ∈ footprint (.core .twoToR) → k ∈ K) : Does A (Verif.coreAction c .twoToR) := by
  show Does A (Verif.twoToR)
  word Verif.twoToR

theorem core_twoRFrom (hcall : raises (.core .twoRFrom) = true → Does A (runHandler c))
    (hsub : ∀ k, k ∈ footprint (.core .twoRFrom) → k ∈ K) : Does A (Verif.coreAction c .twoRFrom) := by
  show Does A (Verif.twoRFrom)
  word Verif.twoRFrom

theorem core_twoRFetch (hcall : raises (.core .twoRFetch) = true → Does A (runHandler c))
    (hsub : ∀ k, k ∈ footprint (.core .twoRFetch) → k ∈ K) : Does A (Verif.coreAction c .twoRFetch) := by
  show Does A (Verif.twoRFetch)
  word Verif.twoRFetch

theorem core_compileComma (hcall : raises (.core .compileComma) = true → Does A (runHandler c))
    (hsub : ∀ k, k ∈ footprint (.core .compileComma) → k ∈ K) : Does A (Verif.coreAction c .compileComma) := by
  show Does A (Verif.compileComma c)
  word Verif.compileComma

theorem core_postponeRt (hcall : raises (.core .postponeRt) = true → Does A (runHandler c))
    (hsub : ∀ k, k ∈ footprint (.core .postponeRt) → k ∈ K) : Does A (Verif.coreAction c .postponeRt) := by
  show Does A (Verif.postponeRt c)
  word Verif.postponeRt

theorem core_doesRt (hcall : raises (.core .doesRt) = true → Does A (runHandler c))
    (hsub : ∀ k, k ∈ footprint (.core .doesRt) → k ∈ K) : Does A (Verif.coreAction c .doesRt) := by
  show Does A (Verif.doesRt c)
  word Verif.doesRt

theorem core_execute (hcall : raises (.core .execute) = true → Does A (runHandler c))
    (hany : ∀ i, Does A (c.ex i))
    (hsub : ∀ k, k ∈ footprint (.core .execute) → k ∈ K) : Does A (Verif.coreAction c .execute) := by
  show Does A (Verif.execute c)
  word Verif.execute

theorem core_dup (hcall : raises (.core .dup) = true → Does A (runHandler c))
    (hsub : ∀ k, k ∈ footprint (.core .dup) → k ∈ K) : Does A (Verif.coreAction c .dup) := by
  (try have hex := hcall (by decide))
  unfold Verif.coreAction
  dsimp only
  does

theorem core_drop (hcall : raises (.core .drop) = true → Does A (runHandler c))
    (hsub : ∀ k, k ∈ footprint (.core .drop) → k ∈ K) : Does A (Verif.coreAction c .drop) := by
  (try have hex := hcall (by decide))
  unfold Verif.coreAction
  dsimp only
  does

theorem core_swap (hcall : raises (.core .swap) = true → Does A (runHandler c))
    (hsub : ∀ k, k ∈ footprint (.core .swap) → k ∈ K) : Does A (Verif.coreAction c .swap) := by
  (try have hex := hcall (by decide))
  unfold Verif.coreAction
  dsimp only
  does

theorem core_over (hcall : raises (.core .over) = true → Does A (runHandler c))
    (hsub : ∀ k, k ∈ footprint (.core .over) → k ∈ K) : Does A (Verif.coreAction c .over) := by
  (try have hex := hcall (by decide))
  unfold Verif.coreAction
  dsimp only
  does

theorem core_nip (hcall : raises (.core .nip) = true → Does A (runHandler c))
    (hsub : ∀ k, k ∈ footprint (.core .nip) → k ∈ K) : Does A (Verif.coreAction c .nip) := by
  (try have hex := hcall (by decide))
  unfold Verif.coreAction
  dsimp only
  does

theorem core_depth (hcall : raises (.core .depth) = true → Does A (runHandler c))
    (hsub : ∀ k, k ∈ footprint (.core .depth) → k ∈ K) : Does A (Verif.coreAction c .depth) := by
  show Does A (Verif.depth)
  word Verif.depth

theorem core_checkStacks (hcall : raises (.core .checkStacks) = true → Does A (runHandler c))
    (hsub : ∀ k, k ∈ footprint (.core .checkStacks) → k ∈ K) : Does A (Verif.coreAction c .checkStacks) := by
  show Does A (Verif.checkStacks c)
  word Verif.checkStacks

theorem core_zeroLess (hcall : raises (.core .zeroLess) = true → Does A (runHandler c))
    (hsub : ∀ k, k ∈ footprint (.core .zeroLess) → k ∈ K) : Does A (Verif.coreAction c .zeroLess) := by
  unfold Verif.coreAction
  dsimp only
  word Verif.pop1Push

theorem core_equals (hcall : raises (.core .equals) = true → Does A (runHandler c))
    (hsub : ∀ k, k ∈ footprint (.core .equals) → k ∈ K) : Does A (Verif.coreAction c .equals) := by
  unfold Verif.coreAction
  dsimp only
  word Verif.pop2Push

theorem core_lessThan (hcall : raises (.core .lessThan) = true → Does A (runHandler c))
    (hsub : ∀ k, k ∈ footprint (.core .lessThan) → k ∈ K) : Does A (Verif.coreAction c .lessThan) := by
  unfold Verif.coreAction
  dsimp only
  word Verif.pop2Push

theorem core_invert (hcall : raises (.core .invert) = true → Does A (runHandler c))
    (hsub : ∀ k, k ∈ footprint (.core .invert) → k ∈ K) : Does A (Verif.coreAction c .invert) := by
  unfold Verif.coreAction
  dsimp only
  word Verif.pop1Push

theorem core_and (hcall : raises (.core .and) = true → Does A (runHandler c))
    (hsub : ∀ k, k ∈ footprint (.core .and) → k ∈ K) : Does A (Verif.coreAction c .and) := by
  unfold Verif.coreAction
  dsimp only
  word Verif.pop2Push

theorem core_or (hcall : raises (.core .or) = true → Does A (runHandler c))
    (hsub : ∀ k, k ∈ footprint (.core .or) → k ∈ K) : Does A (Verif.coreAction c .or) := by
  unfold Verif.coreAction
  dsimp only
  word Verif.pop2Push

theorem core_xor (hcall : raises (.core .xor) = true → Does A (runHandler c))
    (hsub : ∀ k, k ∈ footprint (.core .xor) → k ∈ K) : Does A (Verif.coreAction c .xor) := by
  unfold Verif.coreAction
  dsimp only
  word Verif.pop2Push

theorem core_lshift (hcall : raises (.core .lshift) = true → Does A (runHandler c))
    (hsub : ∀ k, k ∈ footprint (.core .lshift) → k ∈ K) : Does A (Verif.coreAction c .lshift) := by
  show Does A (Verif.pop2Push shl)
  word Verif.pop2Push

theorem core_rshift (hcall : raises (.core .rshift) = true → Does A (runHandler c))
    (hsub : ∀ k, k ∈ footprint (.core .rshift) → k ∈ K) : Does A (Verif.coreAction c .rshift) := by
  show Does A (Verif.pop2Push shr)
  word Verif.pop2Push

theorem core_onePlus (hcall : raises (.core .onePlus) = true → Does A (runHandler c))
    (hsub : ∀ k, k ∈ footprint (.core .onePlus) → k ∈ K) : Does A (Verif.coreAction c .onePlus) := by
  (try have hex := hcall (by decide))
  unfold Verif.coreAction
  dsimp only
  does

theorem core_oneMinus (hcall : raises (.core .oneMinus) = true → Does A (runHandler c))
    (hsub : ∀ k, k ∈ footprint (.core .oneMinus) → k ∈ K) : Does A (Verif.coreAction c .oneMinus) := by
  (try have hex := hcall (by decide))
  unfold Verif.coreAction
  dsimp only
  does

theorem core_minus (hcall : raises (.core .minus) = true → Does A (runHandler c))
    (hsub : ∀ k, k ∈ footprint (.core .minus) → k ∈ K) : Does A (Verif.coreAction c .minus) := by
  (try have hex := hcall (by decide))
  unfold Verif.coreAction
  dsimp only
  does

theorem core_plus (hcall : raises (.core .plus) = true → Does A (runHandler c))
    (hsub : ∀ k, k ∈ footprint (.core .plus) → k ∈ K) : Does A (Verif.coreAction c .plus) := by
  (try have hex := hcall (by decide))
  unfold Verif.coreAction
  dsimp only
  does

theorem core_star (hcall : raises (.core .star) = true → Does A (runHandler c))
    (hsub : ∀ k, k ∈ footprint (.core .star) → k ∈ K) : Does A (Verif.coreAction c .star) := by
  (try have hex := hcall (by decide))
  unfold Verif.coreAction
  dsimp only
  does

theorem core_slashMod (hcall : raises (.core .slashMod) = true → Does A (runHandler c))
    (hsub : ∀ k, k ∈ footprint (.core .slashMod) → k ∈ K) : Does A (Verif.coreAction c .slashMod) := by
  show Does A (Verif.slashMod c)
  word Verif.slashMod

theorem core_cellPlus (hcall : raises (.core .cellPlus) = true → Does A (runHandler c))
    (hsub : ∀ k, k ∈ footprint (.core .cellPlus) → k ∈ K) : Does A (Verif.coreAction c .cellPlus) := by
  show Does A (Verif.cellPlus c)
  word Verif.cellPlus

theorem core_cells (hcall : raises (.core .cells) = true → Does A (runHandler c))
    (hsub : ∀ k, k ∈ footprint (.core .cells) → k ∈ K) : Does A (Verif.coreAction c .cells) := by
  show Does A (Verif.cells c)
  word Verif.cells

theorem core_fetch (hcall : raises (.core .fetch) = true → Does A (runHandler c))
    (hsub : ∀ k, k ∈ footprint (.core .fetch) → k ∈ K) : Does A (Verif.coreAction c .fetch) := by
  show Does A (Verif.fetch c)
  word Verif.fetch

theorem core_store (hcall : raises (.core .store) = true → Does A (runHandler c))
    (hsub : ∀ k, k ∈ footprint (.core .store) → k ∈ K) : Does A (Verif.coreAction c .store) := by
  show Does A (Verif.store c)
  word Verif.store

theorem core_charPlus (hcall : raises (.core .charPlus) = true → Does A (runHandler c))
    (hsub : ∀ k, k ∈ footprint (.core .charPlus) → k ∈ K) : Does A (Verif.coreAction c .charPlus) := by
  show Does A (Verif.charPlus c)
  word Verif.charPlus

theorem core_here (hcall : raises (.core .here) = true → Does A (runHandler c))
    (hsub : ∀ k, k ∈ footprint (.core .here) → k ∈ K) : Does A (Verif.coreAction c .here) := by
  show Does A (Verif.here)
  word Verif.here

theorem core_allot (hcall : raises (.core .allot) = true → Does A (runHandler c))
    (hsub : ∀ k, k ∈ footprint (.core .allot) → k ∈ K) : Does A (Verif.coreAction c .allot) := by
  show Does A (Verif.allot c)
  word Verif.allot

theorem core_aligned (hcall : raises (.core .aligned) = true → Does A (runHandler c))
    (hsub : ∀ k, k ∈ footprint (.core .aligned) → k ∈ K) : Does A (Verif.coreAction c .aligned) := by
  show Does A (Verif.aligned c)
  word Verif.aligned

theorem core_align (hcall : raises (.core .align) = true → Does A (runHandler c))
    (hsub : ∀ k, k ∈ footprint (.core .align) → k ∈ K) : Does A (Verif.coreAction c .align) := by
  show Does A (Verif.align c)
  word Verif.align

theorem core_cFetch (hcall : raises (.core .cFetch) = true → Does A (runHandler c))
    (hsub : ∀ k, k ∈ footprint (.core .cFetch) → k ∈ K) : Does A (Verif.coreAction c .cFetch) := by
  show Does A (Verif.cFetch c)
  word Verif.cFetch

theorem core_cStore (hcall : raises (.core .cStore) = true → Does A (runHandler c))
    (hsub : ∀ k, k ∈ footprint (.core .cStore) → k ∈ K) : Does A (Verif.coreAction c .cStore) := by
  show Does A (Verif.cStore c)
  word Verif.cStore

theorem core_move (hcall : raises (.core .move) = true → Does A (runHandler c))
    (hsub : ∀ k, k ∈ footprint (.core .move) → k ∈ K) : Does A (Verif.coreAction c .move) := by
  show Does A (Verif.pMove c)
  word Verif.pMove

theorem core_base (hcall : raises (.core .base) = true → Does A (runHandler c))
    (hsub : ∀ k, k ∈ footprint (.core .base) → k ∈ K) : Does A (Verif.coreAction c .base) := by
  show Does A (Verif.pBase)
  word Verif.pBase

theorem core_immediate (hcall : raises (.core .immediate) = true → Does A (runHandler c))
    (hsub : ∀ k, k ∈ footprint (.core .immediate) → k ∈ K) : Does A (Verif.coreAction c .immediate) := by
  show Does A (Verif.immediate)
  word Verif.immediate

theorem core_compileOnly (hcall : raises (.core .compileOnly) = true → Does A (runHandler c))
    (hsub : ∀ k, k ∈ footprint (.core .compileOnly) → k ∈ K) : Does A (Verif.coreAction c .compileOnly) := by
  show Does A (Verif.compileOnly)
  word Verif.compileOnly

theorem core_paren (hcall : raises (.core .paren) = true → Does A (runHandler c))
    (hsub : ∀ k, k ∈ footprint (.core .paren) → k ∈ K) : Does A (Verif.coreAction c .paren) := by
  show Does A (Verif.paren c)
  word Verif.paren

theorem core_backslash (hcall : raises (.core .backslash) = true → Does A (runHandler c))
    (hsub : ∀ k, k ∈ footprint (.core .backslash) → k ∈ K) : Does A (Verif.coreAction c .backslash) := by
  show Does A (Verif.backslash c)
  word Verif.backslash

theorem core_leftBracket (hcall : raises (.core .leftBracket) = true → Does A (runHandler c))
    (hsub : ∀ k, k ∈ footprint (.core .leftBracket) → k ∈ K) : Does A (Verif.coreAction c .leftBracket) := by
  show Does A (Verif.leftBracket)
  word Verif.leftBracket

theorem core_bracketTick (hcall : raises (.core .bracketTick) = true → Does A (runHandler c))
    (hsub : ∀ k, k ∈ footprint (.core .bracketTick) → k ∈ K) : Does A (Verif.coreAction c .bracketTick) := by
  show Does A (Verif.bracketTick c)
  word Verif.bracketTick

theorem core_bracketChar (hcall : raises (.core .bracketChar) = true → Does A (runHandler c))
    (hsub : ∀ k, k ∈ footprint (.core .bracketChar) → k ∈ K) : Does A (Verif.coreAction c .bracketChar) := by
  show Does A (Verif.bracketChar c)
  word Verif.bracketChar

theorem core_semicolon (hcall : raises (.core .semicolon) = true → Does A (runHandler c))
    (hsub : ∀ k, k ∈ footprint (.core .semicolon) → k ∈ K) : Does A (Verif.coreAction c .semicolon) := by
  show Does A (Verif.semicolon c)
  word Verif.semicolon

theorem core_immIf (hcall : raises (.core .immIf) = true → Does A (runHandler c))
    (hsub : ∀ k, k ∈ footprint (.core .immIf) → k ∈ K) : Does A (Verif.coreAction c .immIf) := by
  show Does A (Verif.immIf c)
  word Verif.immIf

theorem core_immElse (hcall : raises (.core .immElse) = true → Does A (runHandler c))
    (hsub : ∀ k, k ∈ footprint (.core .immElse) → k ∈ K) : Does A (Verif.coreAction c .immElse) := by
  show Does A (Verif.immElse c)
  word Verif.immElse

theorem core_immThen (hcall : raises (.core .immThen) = true → Does A (runHandler c))
    (hsub : ∀ k, k ∈ footprint (.core .immThen) → k ∈ K) : Does A (Verif.coreAction c .immThen) := by
  show Does A (Verif.immThen c)
  word Verif.immThen

theorem core_immCase (hcall : raises (.core .immCase) = true → Does A (runHandler c))
    (hsub : ∀ k, k ∈ footprint (.core .immCase) → k ∈ K) : Does A (Verif.coreAction c .immCase) := by
  show Does A (Verif.immCase)
  word Verif.immCase

theorem core_immOf (hcall : raises (.core .immOf) = true → Does A (runHandler c))
    (hsub : ∀ k, k ∈ footprint (.core .immOf) → k ∈ K) : Does A (Verif.coreAction c .immOf) := by
  show Does A (Verif.immOf c)
  word Verif.immOf

theorem core_immEndof (hcall : raises (.core .immEndof) = true → Does A (runHandler c))
    (hsub : ∀ k, k ∈ footprint (.core .immEndof) → k ∈ K) : Does A (Verif.coreAction c .immEndof) := by
  show Does A (Verif.immEndof c)
  word Verif.immEndof

theorem core_immEndcase (hcall : raises (.core .immEndcase) = true → Does A (runHandler c))
    (hsub : ∀ k, k ∈ footprint (.core .immEndcase) → k ∈ K) : Does A (Verif.coreAction c .immEndcase) := by
  show Does A (Verif.immEndcase c)
  word Verif.immEndcase

theorem core_immBegin (hcall : raises (.core .immBegin) = true → Does A (runHandler c))
    (hsub : ∀ k, k ∈ footprint (.core .immBegin) → k ∈ K) : Does A (Verif.coreAction c .immBegin) := by
  show Does A (Verif.immBegin)
  word Verif.immBegin

theorem core_immWhile (hcall : raises (.core .immWhile) = true → Does A (runHandler c))
    (hsub : ∀ k, k ∈ footprint (.core .immWhile) → k ∈ K) : Does A (Verif.coreAction c .immWhile) := by
  show Does A (Verif.immWhile c)
  word Verif.immWhile

theorem core_immRepeat (hcall : raises (.core .immRepeat) = true → Does A (runHandler c))
    (hsub : ∀ k, k ∈ footprint (.core .immRepeat) → k ∈ K) : Does A (Verif.coreAction c .immRepeat) := by
  show Does A (Verif.immRepeat c)
  word Verif.immRepeat

theorem core_immUntil (hcall : raises (.core .immUntil) = true → Does A (runHandler c))
    (hsub : ∀ k, k ∈ footprint (.core .immUntil) → k ∈ K) : Does A (Verif.coreAction c .immUntil) := by
  show Does A (Verif.immUntil c)
  word Verif.immUntil

theorem core_immAgain (hcall : raises (.core .immAgain) = true → Does A (runHandler c))
    (hsub : ∀ k, k ∈ footprint (.core .immAgain) → k ∈ K) : Does A (Verif.coreAction c .immAgain) := by
  show Does A (Verif.immAgain c)
  word Verif.immAgain

theorem core_clearLabels (hcall : raises (.core .clearLabels) = true → Does A (runHandler c))
    (hsub : ∀ k, k ∈ footprint (.core .clearLabels) → k ∈ K) : Does A (Verif.coreAction c .clearLabels) := by
  show Does A (Verif.clearLabels)
  word Verif.clearLabels

theorem core_immLabel (hcall : raises (.core .immLabel) = true → Does A (runHandler c))
    (hsub : ∀ k, k ∈ footprint (.core .immLabel) → k ∈ K) : Does A (Verif.coreAction c .immLabel) := by
  show Does A (Verif.immLabel c)
  word Verif.immLabel

theorem core_immGoto (hcall : raises (.core .immGoto) = true → Does A (runHandler c))
    (hsub : ∀ k, k ∈ footprint (.core .immGoto) → k ∈ K) : Does A (Verif.coreAction c .immGoto) := by
  show Does A (Verif.immGoto c)
  word Verif.immGoto

theorem core_immCall (hcall : raises (.core .immCall) = true → Does A (runHandler c))
    (hsub : ∀ k, k ∈ footprint (.core .immCall) → k ∈ K) : Does A (Verif.coreAction c .immCall) := by
  show Does A (Verif.immCall c)
  word Verif.immCall

theorem core_immRecurse (hcall : raises (.core .immRecurse) = true → Does A (runHandler c))
    (hsub : ∀ k, k ∈ footprint (.core .immRecurse) → k ∈ K) : Does A (Verif.coreAction c .immRecurse) := by
  show Does A (Verif.immRecurse c)
  word Verif.immRecurse

theorem core_immDo (hcall : raises (.core .immDo) = true → Does A (runHandler c))
    (hsub : ∀ k, k ∈ footprint (.core .immDo) → k ∈ K) : Does A (Verif.coreAction c .immDo) := by
  show Does A (Verif.immDo c)
  word Verif.immDo

theorem core_immQdo (hcall : raises (.core .immQdo) = true → Does A (runHandler c))
    (hsub : ∀ k, k ∈ footprint (.core .immQdo) → k ∈ K) : Does A (Verif.coreAction c .immQdo) := by
  show Does A (Verif.immQdo c)
  word Verif.immQdo

theorem core_immLoop (hcall : raises (.core .immLoop) = true → Does A (runHandler c))
    (hsub : ∀ k, k ∈ footprint (.core .immLoop) → k ∈ K) : Does A (Verif.coreAction c .immLoop) := by
  show Does A (Verif.immLoop c)
  word Verif.immLoop

theorem core_immPlusLoop (hcall : raises (.core .immPlusLoop) = true → Does A (runHandler c))
    (hsub : ∀ k, k ∈ footprint (.core .immPlusLoop) → k ∈ K) : Does A (Verif.coreAction c .immPlusLoop) := by
  show Does A (Verif.immPlusLoop c)
  word Verif.immPlusLoop

theorem core_postpone (hcall : raises (.core .postpone) = true → Does A (runHandler c))
    (hsub : ∀ k, k ∈ footprint (.core .postpone) → k ∈ K) : Does A (Verif.coreAction c .postpone) := by
  show Does A (Verif.postpone c)
  word Verif.postpone

theorem core_does (hcall : raises (.core .does) = true → Does A (runHandler c))
    (hsub : ∀ k, k ∈ footprint (.core .does) → k ∈ K) : Does A (Verif.coreAction c .does) := by
  show Does A (Verif.does c)
  word Verif.does

theorem core_pTrue (hcall : raises (.core .pTrue) = true → Does A (runHandler c))
    (hsub : ∀ k, k ∈ footprint (.core .pTrue) → k ∈ K) : Does A (Verif.coreAction c .pTrue) := by
  (try have hex := hcall (by decide))
  unfold Verif.coreAction
  dsimp only
  does

theorem core_pFalse (hcall : raises (.core .pFalse) = true → Does A (runHandler c))
    (hsub : ∀ k, k ∈ footprint (.core .pFalse) → k ∈ K) : Does A (Verif.coreAction c .pFalse) := by
  (try have hex := hcall (by decide))
  unfold Verif.coreAction
  dsimp only
  does

theorem core_zeroEquals (hcall : raises (.core .zeroEquals) = true → Does A (runHandler c))
    (hsub : ∀ k, k ∈ footprint (.core .zeroEquals) → k ∈ K) : Does A (Verif.coreAction c .zeroEquals) := by
  unfold Verif.coreAction
  dsimp only
  word Verif.pop1Push

theorem core_zeroGreater (hcall : raises (.core .zeroGreater) = true → Does A (runHandler c))
    (hsub : ∀ k, k ∈ footprint (.core .zeroGreater) → k ∈ K) : Does A (Verif.coreAction c .zeroGreater) := by
  unfold Verif.coreAction
  dsimp only
  word Verif.pop1Push

theorem core_zeroNotEquals (hcall : raises (.core .zeroNotEquals) = true → Does A (runHandler c))
    (hsub : ∀ k, k ∈ footprint (.core .zeroNotEquals) → k ∈ K) : Does A (Verif.coreAction c .zeroNotEquals) := by
  unfold Verif.coreAction
  dsimp only
  word Verif.pop1Push

theorem core_greaterThan (hcall : raises (.core .greaterThan) = true → Does A (runHandler c))
    (hsub : ∀ k, k ∈ footprint (.core .greaterThan) → k ∈ K) : Does A (Verif.coreAction c .greaterThan) := by
  unfold Verif.coreAction
  dsimp only
  word Verif.pop2Push

theorem core_notEquals (hcall : raises (.core .notEquals) = true → Does A (runHandler c))
    (hsub : ∀ k, k ∈ footprint (.core .notEquals) → k ∈ K) : Does A (Verif.coreAction c .notEquals) := by
  unfold Verif.coreAction
  dsimp only
  word Verif.pop2Push

theorem core_within (hcall : raises (.core .within) = true → Does A (runHandler c))
    (hsub : ∀ k, k ∈ footprint (.core .within) → k ∈ K) : Does A (Verif.coreAction c .within) := by
  show Does A (Verif.within)
  word Verif.within

theorem core_rot (hcall : raises (.core .rot) = true → Does A (runHandler c))
    (hsub : ∀ k, k ∈ footprint (.core .rot) → k ∈ K) : Does A (Verif.coreAction c .rot) := by
  (try have hex := hcall (by decide))
  unfold Verif.coreAction
  dsimp only
  does

theorem core_minusRot (hcall : raises (.core .minusRot) = true → Does A (runHandler c))
    (hsub : ∀ k, k ∈ footprint (.core .minusRot) → k ∈ K) : Does A (Verif.coreAction c .minusRot) := by
  (try have hex := hcall (by decide))
  unfold Verif.coreAction
  dsimp only
  does

theorem core_pick (hcall : raises (.core .pick) = true → Does A (runHandler c))
    (hsub : ∀ k, k ∈ footprint (.core .pick) → k ∈ K) : Does A (Verif.coreAction c .pick) := by
  (try have hex := hcall (by decide))
  unfold Verif.coreAction
  dsimp only
  does

theorem core_twoDup (hcall : raises (.core .twoDup) = true → Does A (runHandler c))
    (hsub : ∀ k, k ∈ footprint (.core .twoDup) → k ∈ K) : Does A (Verif.coreAction c .twoDup) := by
  (try have hex := hcall (by decide))
  unfold Verif.coreAction
  dsimp only
  does

theorem core_twoDrop (hcall : raises (.core .twoDrop) = true → Does A (runHandler c))
    (hsub : ∀ k, k ∈ footprint (.core .twoDrop) → k ∈ K) : Does A (Verif.coreAction c .twoDrop) := by
  (try have hex := hcall (by decide))
  unfold Verif.coreAction
  dsimp only
  does

theorem core_twoSwap (hcall : raises (.core .twoSwap) = true → Does A (runHandler c))
    (hsub : ∀ k, k ∈ footprint (.core .twoSwap) → k ∈ K) : Does A (Verif.coreAction c .twoSwap) := by
  (try have hex := hcall (by decide))
  unfold Verif.coreAction
  dsimp only
  does

theorem core_twoOver (hcall : raises (.core .twoOver) = true → Does A (runHandler c))
    (hsub : ∀ k, k ∈ footprint (.core .twoOver) → k ∈ K) : Does A (Verif.coreAction c .twoOver) := by
  (try have hex := hcall (by decide))
  unfold Verif.coreAction
  dsimp only
  does

theorem core_slash (hcall : raises (.core .slash) = true → Does A (runHandler c))
    (hsub : ∀ k, k ∈ footprint (.core .slash) → k ∈ K) : Does A (Verif.coreAction c .slash) := by
  show Does A (Verif.divOp c BitVec.sdiv)
  word Verif.divOp

theorem core_mod (hcall : raises (.core .mod) = true → Does A (runHandler c))
    (hsub : ∀ k, k ∈ footprint (.core .mod) → k ∈ K) : Does A (Verif.coreAction c .mod) := by
  show Does A (Verif.divOp c BitVec.srem)
  word Verif.divOp

theorem core_abs (hcall : raises (.core .abs) = true → Does A (runHandler c))
    (hsub : ∀ k, k ∈ footprint (.core .abs) → k ∈ K) : Does A (Verif.coreAction c .abs) := by
  show Does A (Verif.pop1Push cellAbs)
  word Verif.pop1Push

theorem core_negate (hcall : raises (.core .negate) = true → Does A (runHandler c))
    (hsub : ∀ k, k ∈ footprint (.core .negate) → k ∈ K) : Does A (Verif.coreAction c .negate) := by
  unfold Verif.coreAction
  dsimp only
  word Verif.pop1Push

theorem core_parseWord (hcall : raises (.core .parseWord) = true → Does A (runHandler c))
    (hsub : ∀ k, k ∈ footprint (.core .parseWord) → k ∈ K) : Does A (Verif.coreAction c .parseWord) := by
  show Does A (Verif.parseWord)
  word Verif.parseWord

theorem core_char (hcall : raises (.core .char) = true → Does A (runHandler c))
    (hsub : ∀ k, k ∈ footprint (.core .char) → k ∈ K) : Does A (Verif.coreAction c .char) := by
  show Does A (Verif.pChar c)
  word Verif.pChar

theorem core_skip (hcall : raises (.core .skip) = true → Does A (runHandler c))
    (hsub : ∀ k, k ∈ footprint (.core .skip) → k ∈ K) : Does A (Verif.coreAction c .skip) := by
  show Does A (Verif.skip c)
  word Verif.skip

theorem core_parse (hcall : raises (.core .parse) = true → Does A (runHandler c))
    (hsub : ∀ k, k ∈ footprint (.core .parse) → k ∈ K) : Does A (Verif.coreAction c .parse) := by
  show Does A (Verif.parse c)
  word Verif.parse

theorem core_colon (hcall : raises (.core .colon) = true → Does A (runHandler c))
    (hsub : ∀ k, k ∈ footprint (.core .colon) → k ∈ K) : Does A (Verif.coreAction c .colon) := by
  have hex := hcall (by decide)
  have hab : ∀ k, k ∈ abortKinds → k ∈ K := fun k hk => hsub k (by revert k; decide)
  show Does A (Verif.colon c)
  unfold Verif.colon
  refine bind (define hex hab mem! mem! mem! mem! mem! _ (by decide)) fun _ => bind getError fun e => ?_
  split
  · exact modLast' mem! (fun w => { w with hidden := true }) (fun _ => ⟨rfl, rfl, rfl, rfl, rfl, rfl, rfl, by first | exact .inl rfl | exact .inr definedDoes⟩)
      (modMode mem! fun _ => true)
  · does

theorem core_constant (hcall : raises (.core .constant) = true → Does A (runHandler c))
    (hsub : ∀ k, k ∈ footprint (.core .constant) → k ∈ K) : Does A (Verif.coreAction c .constant) := by
  show Does A (Verif.constant c)
  word Verif.constant

theorem core_create (hcall : raises (.core .create) = true → Does A (runHandler c))
    (hsub : ∀ k, k ∈ footprint (.core .create) → k ∈ K) : Does A (Verif.coreAction c .create) := by
  show Does A (Verif.create c)
  word Verif.create

theorem core_tick (hcall : raises (.core .tick) = true → Does A (runHandler c))
    (hsub : ∀ k, k ∈ footprint (.core .tick) → k ∈ K) : Does A (Verif.coreAction c .tick) := by
  show Does A (Verif.tick c)
  word Verif.tick

theorem core_toBody (hcall : raises (.core .toBody) = true → Does A (runHandler c))
    (hsub : ∀ k, k ∈ footprint (.core .toBody) → k ∈ K) : Does A (Verif.coreAction c .toBody) := by
  show Does A (Verif.toBody c)
  word Verif.toBody

theorem core_toName (hcall : raises (.core .toName) = true → Does A (runHandler c))
    (hsub : ∀ k, k ∈ footprint (.core .toName) → k ∈ K) : Does A (Verif.coreAction c .toName) := by
  show Does A (Verif.toName c)
  word Verif.toName

theorem core_rightBracket (hcall : raises (.core .rightBracket) = true → Does A (runHandler c))
    (hsub : ∀ k, k ∈ footprint (.core .rightBracket) → k ∈ K) : Does A (Verif.coreAction c .rightBracket) := by
  show Does A (Verif.rightBracket)
  word Verif.rightBracket

theorem core_comma (hcall : raises (.core .comma) = true → Does A (runHandler c))
    (hsub : ∀ k, k ∈ footprint (.core .comma) → k ∈ K) : Does A (Verif.coreAction c .comma) := by
  show Does A (Verif.comma c)
  word Verif.comma

theorem core_marker (hcall : raises (.core .marker) = true → Does A (runHandler c))
    (hsub : ∀ k, k ∈ footprint (.core .marker) → k ∈ K) : Does A (Verif.coreAction c .marker) := by
  show Does A (Verif.marker c)
  word Verif.marker

theorem core_handlerStore (hcall : raises (.core .handlerStore) = true → Does A (runHandler c))
    (hsub : ∀ k, k ∈ footprint (.core .handlerStore) → k ∈ K) : Does A (Verif.coreAction c .handlerStore) := by
  show Does A (Verif.handlerStore)
  word Verif.handlerStore

theorem core_error (hcall : raises (.core .error) = true → Does A (runHandler c))
    (hsub : ∀ k, k ∈ footprint (.core .error) → k ∈ K) : Does A (Verif.coreAction c .error) := by
  show Does A (Verif.pError)
  word Verif.pError

theorem core_dotError (hcall : raises (.core .dotError) = true → Does A (runHandler c))
    (hsub : ∀ k, k ∈ footprint (.core .dotError) → k ∈ K) : Does A (Verif.coreAction c .dotError) := by
  show Does A (Verif.dotError)
  word Verif.dotError

theorem core_clearError (hcall : raises (.core .clearError) = true → Does A (runHandler c))
    (hsub : ∀ k, k ∈ footprint (.core .clearError) → k ∈ K) : Does A (Verif.coreAction c .clearError) := by
  (try have hex := hcall (by decide))
  unfold Verif.coreAction
  dsimp only
  does

theorem core_clearStacks (hcall : raises (.core .clearStacks) = true → Does A (runHandler c))
    (hsub : ∀ k, k ∈ footprint (.core .clearStacks) → k ∈ K) : Does A (Verif.coreAction c .clearStacks) := by
  show Does A (Verif.clearStacks)
  word Verif.clearStacks

theorem core_reset (hcall : raises (.core .reset) = true → Does A (runHandler c))
    (hsub : ∀ k, k ∈ footprint (.core .reset) → k ∈ K) : Does A (Verif.coreAction c .reset) := by
  show Does A (Verif.reset c)
  word Verif.reset

theorem core_abort (hcall : raises (.core .abort) = true → Does A (runHandler c))
    (hsub : ∀ k, k ∈ footprint (.core .abort) → k ∈ K) : Does A (Verif.coreAction c .abort) := by
  (try have hex := hcall (by decide))
  unfold Verif.coreAction
  dsimp only
  does

theorem core_compiling (hcall : raises (.core .compiling) = true → Does A (runHandler c))
    (hsub : ∀ k, k ∈ footprint (.core .compiling) → k ∈ K) : Does A (Verif.coreAction c .compiling) := by
  show Does A (Verif.compiling)
  word Verif.compiling

theorem core_tokenEmpty (hcall : raises (.core .tokenEmpty) = true → Does A (runHandler c))
    (hsub : ∀ k, k ∈ footprint (.core .tokenEmpty) → k ∈ K) : Does A (Verif.coreAction c .tokenEmpty) := by
  show Does A (Verif.tokenEmpty)
  word Verif.tokenEmpty

theorem core_dotToken (hcall : raises (.core .dotToken) = true → Does A (runHandler c))
    (hsub : ∀ k, k ∈ footprint (.core .dotToken) → k ∈ K) : Does A (Verif.coreAction c .dotToken) := by
  show Does A (Verif.dotToken)
  word Verif.dotToken

theorem core_storeToken (hcall : raises (.core .storeToken) = true → Does A (runHandler c))
    (hsub : ∀ k, k ∈ footprint (.core .storeToken) → k ∈ K) : Does A (Verif.coreAction c .storeToken) := by
  show Does A (Verif.storeToken c)
  word Verif.storeToken

theorem core_compileToken (hcall : raises (.core .compileToken) = true → Does A (runHandler c))
    (hany : ∀ i, Does A (c.ex i))
    (hsub : ∀ k, k ∈ footprint (.core .compileToken) → k ∈ K) : Does A (Verif.coreAction c .compileToken) := by
  show Does A (Verif.compileToken c)
  word Verif.compileToken

theorem core_interpretToken (hcall : raises (.core .interpretToken) = true → Does A (runHandler c))
    (hany : ∀ i, Does A (c.ex i))
    (hsub : ∀ k, k ∈ footprint (.core .interpretToken) → k ∈ K) : Does A (Verif.coreAction c .interpretToken) := by
  show Does A (Verif.interpretToken c)
  word Verif.interpretToken

theorem core_sourceId (hcall : raises (.core .sourceId) = true → Does A (runHandler c))
    (hsub : ∀ k, k ∈ footprint (.core .sourceId) → k ∈ K) : Does A (Verif.coreAction c .sourceId) := by
  show Does A (Verif.pSourceId)
  word Verif.pSourceId

theorem core_setSourceId (hcall : raises (.core .setSourceId) = true → Does A (runHandler c))
    (hsub : ∀ k, k ∈ footprint (.core .setSourceId) → k ∈ K) : Does A (Verif.coreAction c .setSourceId) := by
  show Does A (Verif.pSetSourceId c)
  word Verif.pSetSourceId

theorem core_sourceIdx (hcall : raises (.core .sourceIdx) = true → Does A (runHandler c))
    (hsub : ∀ k, k ∈ footprint (.core .sourceIdx) → k ∈ K) : Does A (Verif.coreAction c .sourceIdx) := by
  show Does A (Verif.pSourceIdx)
  word Verif.pSourceIdx

theorem core_setSourceIdx (hcall : raises (.core .setSourceIdx) = true → Does A (runHandler c))
    (hsub : ∀ k, k ∈ footprint (.core .setSourceIdx) → k ∈ K) : Does A (Verif.coreAction c .setSourceIdx) := by
  show Does A (Verif.pSetSourceIdx)
  word Verif.pSetSourceIdx

theorem core_bye (hcall : raises (.core .bye) = true → Does A (runHandler c))
    (hsub : ∀ k, k ∈ footprint (.core .bye) → k ∈ K) : Does A (Verif.coreAction c .bye) := by
  show Does A (Verif.bye)
  word Verif.bye

theorem core_pause (hcall : raises (.core .pause) = true → Does A (runHandler c))
    (hsub : ∀ k, k ∈ footprint (.core .pause) → k ∈ K) : Does A (Verif.coreAction c .pause) := by
  show Does A (Verif.pause)
  word Verif.pause

theorem core_activate (hcall : raises (.core .activate) = true → Does A (runHandler c))
    (hsub : ∀ k, k ∈ footprint (.core .activate) → k ∈ K) : Does A (Verif.coreAction c .activate) := by
  show Does A (Verif.activate c)
  word Verif.activate

theorem core_me (hcall : raises (.core .me) = true → Does A (runHandler c))
    (hsub : ∀ k, k ∈ footprint (.core .me) → k ∈ K) : Does A (Verif.coreAction c .me) := by
  show Does A (Verif.me)
  word Verif.me

theorem core_suspend (hcall : raises (.core .suspend) = true → Does A (runHandler c))
    (hsub : ∀ k, k ∈ footprint (.core .suspend) → k ∈ K) : Does A (Verif.coreAction c .suspend) := by
  show Does A (Verif.setAwakeWord c false)
  word Verif.setAwakeWord

theorem core_resume (hcall : raises (.core .resume) = true → Does A (runHandler c))
    (hsub : ∀ k, k ∈ footprint (.core .resume) → k ∈ K) : Does A (Verif.coreAction c .resume) := by
  show Does A (Verif.setAwakeWord c true)
  word Verif.setAwakeWord

theorem core_nest (hcall : raises (.core .nest) = true → Does A (runHandler c))
    (hsub : ∀ k, k ∈ footprint (.core .nest) → k ∈ K) : Does A (Verif.coreAction c .nest) := by
  show Does A (Verif.nest)
  word Verif.nest

theorem core_pVar (hcall : raises (.core .pVar) = true → Does A (runHandler c))
    (hsub : ∀ k, k ∈ footprint (.core .pVar) → k ∈ K) : Does A (Verif.coreAction c .pVar) := by
  show Does A (Verif.pVar)
  word Verif.pVar

theorem core_pConst (hcall : raises (.core .pConst) = true → Does A (runHandler c))
    (hsub : ∀ k, k ∈ footprint (.core .pConst) → k ∈ K) : Does A (Verif.coreAction c .pConst) := by
  show Does A (Verif.pConst)
  word Verif.pConst

theorem core_unmark (hcall : raises (.core .unmark) = true → Does A (runHandler c))
    (hsub : ∀ k, k ∈ footprint (.core .unmark) → k ∈ K) : Does A (Verif.coreAction c .unmark) := by
  show Does A (Verif.unmark c)
  word Verif.unmark

theorem core_doesAction (hcall : raises (.core .doesAction) = true → Does A (runHandler c))
    (hsub : ∀ k, k ∈ footprint (.core .doesAction) → k ∈ K) : Does A (Verif.coreAction c .doesAction) := by
  show Does A (Verif.xdoes)
  word Verif.xdoes

theorem coreAction (p : CorePrim) (hcall : raises (.core p) = true → Does A (runHandler c))
    (hall : executes (.core p) = true → ∀ i, Does A (c.ex i))
    (hsub : ∀ k, k ∈ footprint (.core p) → k ∈ K) : Does A (Verif.coreAction c p) := by
  cases p with
  | noop => exact core_noop hcall hsub
  | exit => exact core_exit hcall hsub
  | lit => exact core_lit hcall hsub
  | flit => exact core_flit hcall hsub
  | sQuoteRt => exact core_sQuoteRt hcall hsub
  | branch => exact core_branch hcall hsub
  | zeroBranch => exact core_zeroBranch hcall hsub
  | doRt => exact core_doRt hcall hsub
  | qdoRt => exact core_qdoRt hcall hsub
  | loopRt => exact core_loopRt hcall hsub
  | plusLoopRt => exact core_plusLoopRt hcall hsub
  | unloop => exact core_unloop hcall hsub
  | leave => exact core_leave hcall hsub
  | i => exact core_i hcall hsub
  | j => exact core_j hcall hsub
  | toR => exact core_toR hcall hsub
  | rFrom => exact core_rFrom hcall hsub
  | rFetch => exact core_rFetch hcall hsub
  | twoToR => exact core_twoToR hcall hsub
  | twoRFrom => exact core_twoRFrom hcall hsub
  | twoRFetch => exact core_twoRFetch hcall hsub
  | compileComma => exact core_compileComma hcall hsub
  | postponeRt => exact core_postponeRt hcall hsub
  | doesRt => exact core_doesRt hcall hsub
  | execute => exact core_execute hcall (hall rfl) hsub
  | dup => exact core_dup hcall hsub
  | drop => exact core_drop hcall hsub
  | swap => exact core_swap hcall hsub
  | over => exact core_over hcall hsub
  | nip => exact core_nip hcall hsub
  | depth => exact core_depth hcall hsub
  | checkStacks => exact core_checkStacks hcall hsub
  | zeroLess => exact core_zeroLess hcall hsub
  | equals => exact core_equals hcall hsub
  | lessThan => exact core_lessThan hcall hsub
  | invert => exact core_invert hcall hsub
  | and => exact core_and hcall hsub
  | or => exact core_or hcall hsub
  | xor => exact core_xor hcall hsub
  | lshift => exact core_lshift hcall hsub
  | rshift => exact core_rshift hcall hsub
  | onePlus => exact core_onePlus hcall hsub
  | oneMinus => exact core_oneMinus hcall hsub
  | minus => exact core_minus hcall hsub
  | plus => exact core_plus hcall hsub
  | star => exact core_star hcall hsub
  | slashMod => exact core_slashMod hcall hsub
  | cellPlus => exact core_cellPlus hcall hsub
  | cells => exact core_cells hcall hsub
  | fetch => exact core_fetch hcall hsub
  | store => exact core_store hcall hsub
  | charPlus => exact core_charPlus hcall hsub
  | here => exact core_here hcall hsub
  | allot => exact core_allot hcall hsub
  | aligned => exact core_aligned hcall hsub
  | align => exact core_align hcall hsub
  | cFetch => exact core_cFetch hcall hsub
  | cStore => exact core_cStore hcall hsub
  | move => exact core_move hcall hsub
  | base => exact core_base hcall hsub
  | immediate => exact core_immediate hcall hsub
  | compileOnly => exact core_compileOnly hcall hsub
  | paren => exact core_paren hcall hsub
  | backslash => exact core_backslash hcall hsub
  | leftBracket => exact core_leftBracket hcall hsub
  | bracketTick => exact core_bracketTick hcall hsub
  | bracketChar => exact core_bracketChar hcall hsub
  | semicolon => exact core_semicolon hcall hsub
  | immIf => exact core_immIf hcall hsub
  | immElse => exact core_immElse hcall hsub
  | immThen => exact core_immThen hcall hsub
  | immCase => exact core_immCase hcall hsub
  | immOf => exact core_immOf hcall hsub
  | immEndof => exact core_immEndof hcall hsub
  | immEndcase => exact core_immEndcase hcall hsub
  | immBegin => exact core_immBegin hcall hsub
  | immWhile => exact core_immWhile hcall hsub
  | immRepeat => exact core_immRepeat hcall hsub
  | immUntil => exact core_immUntil hcall hsub
  | immAgain => exact core_immAgain hcall hsub
  | clearLabels => exact core_clearLabels hcall hsub
  | immLabel => exact core_immLabel hcall hsub
  | immGoto => exact core_immGoto hcall hsub
  | immCall => exact core_immCall hcall hsub
  | immRecurse => exact core_immRecurse hcall hsub
  | immDo => exact core_immDo hcall hsub
  | immQdo => exact core_immQdo hcall hsub
  | immLoop => exact core_immLoop hcall hsub
  | immPlusLoop => exact core_immPlusLoop hcall hsub
  | postpone => exact core_postpone hcall hsub
  | does => exact core_does hcall hsub
  | pTrue => exact core_pTrue hcall hsub
  | pFalse => exact core_pFalse hcall hsub
  | zeroEquals => exact core_zeroEquals hcall hsub
  | zeroGreater => exact core_zeroGreater hcall hsub
  | zeroNotEquals => exact core_zeroNotEquals hcall hsub
  | greaterThan => exact core_greaterThan hcall hsub
  | notEquals => exact core_notEquals hcall hsub
  | within => exact core_within hcall hsub
  | rot => exact core_rot hcall hsub
  | minusRot => exact core_minusRot hcall hsub
  | pick => exact core_pick hcall hsub
  | twoDup => exact core_twoDup hcall hsub
  | twoDrop => exact core_twoDrop hcall hsub
  | twoSwap => exact core_twoSwap hcall hsub
  | twoOver => exact core_twoOver hcall hsub
  | slash => exact core_slash hcall hsub
  | mod => exact core_mod hcall hsub
  | abs => exact core_abs hcall hsub
  | negate => exact core_negate hcall hsub
  | parseWord => exact core_parseWord hcall hsub
  | char => exact core_char hcall hsub
  | skip => exact core_skip hcall hsub
  | parse => exact core_parse hcall hsub
  | colon => exact core_colon hcall hsub
  | constant => exact core_constant hcall hsub
  | create => exact core_create hcall hsub
  | tick => exact core_tick hcall hsub
  | toBody => exact core_toBody hcall hsub
  | toName => exact core_toName hcall hsub
  | rightBracket => exact core_rightBracket hcall hsub
  | comma => exact core_comma hcall hsub
  | marker => exact core_marker hcall hsub
  | handlerStore => exact core_handlerStore hcall hsub
  | error => exact core_error hcall hsub
  | dotError => exact core_dotError hcall hsub
  | clearError => exact core_clearError hcall hsub
  | clearStacks => exact core_clearStacks hcall hsub
  | reset => exact core_reset hcall hsub
  | abort => exact core_abort hcall hsub
  | compiling => exact core_compiling hcall hsub
  | tokenEmpty => exact core_tokenEmpty hcall hsub
  | dotToken => exact core_dotToken hcall hsub
  | storeToken => exact core_storeToken hcall hsub
  | compileToken => exact core_compileToken hcall (hall rfl) hsub
  | interpretToken => exact core_interpretToken hcall (hall rfl) hsub
  | sourceId => exact core_sourceId hcall hsub
  | setSourceId => exact core_setSourceId hcall hsub
  | sourceIdx => exact core_sourceIdx hcall hsub
  | setSourceIdx => exact core_setSourceIdx hcall hsub
  | bye => exact core_bye hcall hsub
  | pause => exact core_pause hcall hsub
  | activate => exact core_activate hcall hsub
  | me => exact core_me hcall hsub
  | suspend => exact core_suspend hcall hsub
  | resume => exact core_resume hcall hsub
  | nest => exact core_nest hcall hsub
  | pVar => exact core_pVar hcall hsub
  | pConst => exact core_pConst hcall hsub
  | unmark => exact core_unmark hcall hsub
  | doesAction => exact core_doesAction hcall hsub

theorem out_emit (hcall : raises (.out .emit) = true → Does A (runHandler c))
    (hsub : ∀ k, k ∈ footprint (.out .emit) → k ∈ K) : Does A (Verif.outAction c .emit) := by
  show Does A (Verif.emit)
  word Verif.emit

theorem out_type (hcall : raises (.out .type) = true → Does A (runHandler c))
    (hsub : ∀ k, k ∈ footprint (.out .type) → k ∈ K) : Does A (Verif.outAction c .type) := by
  show Does A (Verif.pType c)
  word Verif.pType

theorem out_sQuote (hcall : raises (.out .sQuote) = true → Does A (runHandler c))
    (hsub : ∀ k, k ∈ footprint (.out .sQuote) → k ∈ K) : Does A (Verif.outAction c .sQuote) := by
  show Does A (Verif.sQuote c)
  word Verif.sQuote

theorem out_dotQuote (hcall : raises (.out .dotQuote) = true → Does A (runHandler c))
    (hsub : ∀ k, k ∈ footprint (.out .dotQuote) → k ∈ K) : Does A (Verif.outAction c .dotQuote) := by
  show Does A (Verif.dotQuote c)
  word Verif.dotQuote

theorem out_dotParen (hcall : raises (.out .dotParen) = true → Does A (runHandler c))
    (hsub : ∀ k, k ∈ footprint (.out .dotParen) → k ∈ K) : Does A (Verif.outAction c .dotParen) := by
  show Does A (Verif.dotParen c)
  word Verif.dotParen

theorem out_dotR (hcall : raises (.out .dotR) = true → Does A (runHandler c))
    (hsub : ∀ k, k ∈ footprint (.out .dotR) → k ∈ K) : Does A (Verif.outAction c .dotR) := by
  show Does A (Verif.dotR c)
  word Verif.dotR

theorem out_fdotR (hcall : raises (.out .fdotR) = true → Does A (runHandler c))
    (hsub : ∀ k, k ∈ footprint (.out .fdotR) → k ∈ K) : Does A (Verif.outAction c .fdotR) := by
  show Does A (Verif.fdotR c)
  word Verif.fdotR

theorem out_flushOutput (hcall : raises (.out .flushOutput) = true → Does A (runHandler c))
    (hsub : ∀ k, k ∈ footprint (.out .flushOutput) → k ∈ K) : Does A (Verif.outAction c .flushOutput) := by
  show Does A (Verif.flushOutput)
  word Verif.flushOutput

theorem outAction (p : OutPrim) (hcall : raises (.out p) = true → Does A (runHandler c))
    (hsub : ∀ k, k ∈ footprint (.out p) → k ∈ K) : Does A (Verif.outAction c p) := by
  cases p with
  | emit => exact out_emit hcall hsub
  | type => exact out_type hcall hsub
  | sQuote => exact out_sQuote hcall hsub
  | dotQuote => exact out_dotQuote hcall hsub
  | dotParen => exact out_dotParen hcall hsub
  | dotR => exact out_dotR hcall hsub
  | fdotR => exact out_fdotR hcall hsub
  | flushOutput => exact out_flushOutput hcall hsub

theorem tool_words (hcall : raises (.tool .words) = true → Does A (runHandler c))
    (hsub : ∀ k, k ∈ footprint (.tool .words) → k ∈ K) : Does A (Verif.toolAction c .words) := by
  show Does A (Verif.wordsWord c)
  word Verif.wordsWord

theorem tool_dotWord (hcall : raises (.tool .dotWord) = true → Does A (runHandler c))
    (hsub : ∀ k, k ∈ footprint (.tool .dotWord) → k ∈ K) : Does A (Verif.toolAction c .dotWord) := by
  show Does A (Verif.dotWord c)
  word Verif.dotWord

theorem tool_dotBacktrace (hcall : raises (.tool .dotBacktrace) = true → Does A (runHandler c))
    (hsub : ∀ k, k ∈ footprint (.tool .dotBacktrace) → k ∈ K) : Does A (Verif.toolAction c .dotBacktrace) := by
  show Does A (Verif.dotBacktrace c)
  word Verif.dotBacktrace

theorem tool_dotS (hcall : raises (.tool .dotS) = true → Does A (runHandler c))
    (hsub : ∀ k, k ∈ footprint (.tool .dotS) → k ∈ K) : Does A (Verif.toolAction c .dotS) := by
  show Does A (Verif.dotS c)
  word Verif.dotS

theorem tool_dotMemory (hcall : raises (.tool .dotMemory) = true → Does A (runHandler c))
    (hsub : ∀ k, k ∈ footprint (.tool .dotMemory) → k ∈ K) : Does A (Verif.toolAction c .dotMemory) := by
  show Does A (Verif.dotMemory)
  word Verif.dotMemory

theorem tool_setXtime (hcall : raises (.tool .setXtime) = true → Does A (runHandler c))
    (hsub : ∀ k, k ∈ footprint (.tool .setXtime) → k ∈ K) : Does A (Verif.toolAction c .setXtime) := by
  show Does A (Verif.setXtime c)
  word Verif.setXtime

theorem tool_dotXtime (hcall : raises (.tool .dotXtime) = true → Does A (runHandler c))
    (hsub : ∀ k, k ∈ footprint (.tool .dotXtime) → k ∈ K) : Does A (Verif.toolAction c .dotXtime) := by
  show Does A (Verif.dotXtime c)
  word Verif.dotXtime

theorem tool_clearXtime (hcall : raises (.tool .clearXtime) = true → Does A (runHandler c))
    (hsub : ∀ k, k ∈ footprint (.tool .clearXtime) → k ∈ K) : Does A (Verif.toolAction c .clearXtime) := by
  show Does A (Verif.clearXtime)
  word Verif.clearXtime

theorem tool_dotInput (hcall : raises (.tool .dotInput) = true → Does A (runHandler c))
    (hsub : ∀ k, k ∈ footprint (.tool .dotInput) → k ∈ K) : Does A (Verif.toolAction c .dotInput) := by
  show Does A (Verif.dotInput)
  word Verif.dotInput

theorem tool_flushToErr (hcall : raises (.tool .flushToErr) = true → Does A (runHandler c))
    (hsub : ∀ k, k ∈ footprint (.tool .flushToErr) → k ∈ K) : Does A (Verif.toolAction c .flushToErr) := by
  show Does A (Verif.flushToErr)
  word Verif.flushToErr

theorem toolAction (p : ToolPrim) (hcall : raises (.tool p) = true → Does A (runHandler c))
    (hsub : ∀ k, k ∈ footprint (.tool p) → k ∈ K) : Does A (Verif.toolAction c p) := by
  cases p with
  | words => exact tool_words hcall hsub
  | dotWord => exact tool_dotWord hcall hsub
  | dotBacktrace => exact tool_dotBacktrace hcall hsub
  | dotS => exact tool_dotS hcall hsub
  | dotMemory => exact tool_dotMemory hcall hsub
  | setXtime => exact tool_setXtime hcall hsub
  | dotXtime => exact tool_dotXtime hcall hsub
  | clearXtime => exact tool_clearXtime hcall hsub
  | dotInput => exact tool_dotInput hcall hsub
  | flushToErr => exact tool_flushToErr hcall hsub

theorem env_maxN (hcall : raises (.env .maxN) = true → Does A (runHandler c))
    (hsub : ∀ k, k ∈ footprint (.env .maxN) → k ∈ K) : Does A (Verif.envAction .maxN) := by
  show Does A (Verif.maxN)
  word Verif.maxN

theorem env_maxU (hcall : raises (.env .maxU) = true → Does A (runHandler c))
    (hsub : ∀ k, k ∈ footprint (.env .maxU) → k ∈ K) : Does A (Verif.envAction .maxU) := by
  show Does A (Verif.maxU)
  word Verif.maxU

theorem env_mtime (hcall : raises (.env .mtime) = true → Does A (runHandler c))
    (hsub : ∀ k, k ∈ footprint (.env .mtime) → k ∈ K) : Does A (Verif.envAction .mtime) := by
  show Does A (Verif.mtime)
  word Verif.mtime

theorem env_utime (hcall : raises (.env .utime) = true → Does A (runHandler c))
    (hsub : ∀ k, k ∈ footprint (.env .utime) → k ∈ K) : Does A (Verif.envAction .utime) := by
  show Does A (Verif.utime)
  word Verif.utime

theorem envAction (p : EnvPrim) (hcall : raises (.env p) = true → Does A (runHandler c))
    (hsub : ∀ k, k ∈ footprint (.env p) → k ∈ K) : Does A (Verif.envAction p) := by
  cases p with
  | maxN => exact env_maxN hcall hsub
  | maxU => exact env_maxU hcall hsub
  | mtime => exact env_mtime hcall hsub
  | utime => exact env_utime hcall hsub

theorem flt_fconstant (hcall : raises (.flt .fconstant) = true → Does A (runHandler c))
    (hsub : ∀ k, k ∈ footprint (.flt .fconstant) → k ∈ K) : Does A (Verif.floatAction c .fconstant) := by
  show Does A (Verif.fconstant c)
  word Verif.fconstant

theorem flt_floatPlus (hcall : raises (.flt .floatPlus) = true → Does A (runHandler c))
    (hsub : ∀ k, k ∈ footprint (.flt .floatPlus) → k ∈ K) : Does A (Verif.floatAction c .floatPlus) := by
  show Does A (Verif.cellPlus c)
  word Verif.cellPlus

theorem flt_floats (hcall : raises (.flt .floats) = true → Does A (runHandler c))
    (hsub : ∀ k, k ∈ footprint (.flt .floats) → k ∈ K) : Does A (Verif.floatAction c .floats) := by
  show Does A (Verif.cells c)
  word Verif.cells

theorem flt_faligned (hcall : raises (.flt .faligned) = true → Does A (runHandler c))
    (hsub : ∀ k, k ∈ footprint (.flt .faligned) → k ∈ K) : Does A (Verif.floatAction c .faligned) := by
  show Does A (Verif.aligned c)
  word Verif.aligned

theorem flt_falign (hcall : raises (.flt .falign) = true → Does A (runHandler c))
    (hsub : ∀ k, k ∈ footprint (.flt .falign) → k ∈ K) : Does A (Verif.floatAction c .falign) := by
  show Does A (Verif.align c)
  word Verif.align

theorem flt_pi (hcall : raises (.flt .pi) = true → Does A (runHandler c))
    (hsub : ∀ k, k ∈ footprint (.flt .pi) → k ∈ K) : Does A (Verif.floatAction c .pi) := by
  (try have hex := hcall (by decide))
  unfold Verif.floatAction
  dsimp only
  does

theorem flt_fstore (hcall : raises (.flt .fstore) = true → Does A (runHandler c))
    (hsub : ∀ k, k ∈ footprint (.flt .fstore) → k ∈ K) : Does A (Verif.floatAction c .fstore) := by
  show Does A (Verif.fstore c)
  word Verif.fstore

theorem flt_ffetch (hcall : raises (.flt .ffetch) = true → Does A (runHandler c))
    (hsub : ∀ k, k ∈ footprint (.flt .ffetch) → k ∈ K) : Does A (Verif.floatAction c .ffetch) := by
  show Does A (Verif.ffetch c)
  word Verif.ffetch

theorem flt_fabs (hcall : raises (.flt .fabs) = true → Does A (runHandler c))
    (hsub : ∀ k, k ∈ footprint (.flt .fabs) → k ∈ K) : Does A (Verif.floatAction c .fabs) := by
  unfold Verif.floatAction
  dsimp only
  word Verif.f1

theorem flt_fsin (hcall : raises (.flt .fsin) = true → Does A (runHandler c))
    (hsub : ∀ k, k ∈ footprint (.flt .fsin) → k ∈ K) : Does A (Verif.floatAction c .fsin) := by
  unfold Verif.floatAction
  dsimp only
  word Verif.f1

theorem flt_fcos (hcall : raises (.flt .fcos) = true → Does A (runHandler c))
    (hsub : ∀ k, k ∈ footprint (.flt .fcos) → k ∈ K) : Does A (Verif.floatAction c .fcos) := by
  unfold Verif.floatAction
  dsimp only
  word Verif.f1

theorem flt_ftan (hcall : raises (.flt .ftan) = true → Does A (runHandler c))
    (hsub : ∀ k, k ∈ footprint (.flt .ftan) → k ∈ K) : Does A (Verif.floatAction c .ftan) := by
  unfold Verif.floatAction
  dsimp only
  word Verif.f1

theorem flt_fsincos (hcall : raises (.flt .fsincos) = true → Does A (runHandler c))
    (hsub : ∀ k, k ∈ footprint (.flt .fsincos) → k ∈ K) : Does A (Verif.floatAction c .fsincos) := by
  show Does A (Verif.fsincos c)
  word Verif.fsincos

theorem flt_fasin (hcall : raises (.flt .fasin) = true → Does A (runHandler c))
    (hsub : ∀ k, k ∈ footprint (.flt .fasin) → k ∈ K) : Does A (Verif.floatAction c .fasin) := by
  unfold Verif.floatAction
  dsimp only
  word Verif.f1

theorem flt_facos (hcall : raises (.flt .facos) = true → Does A (runHandler c))
    (hsub : ∀ k, k ∈ footprint (.flt .facos) → k ∈ K) : Does A (Verif.floatAction c .facos) := by
  unfold Verif.floatAction
  dsimp only
  word Verif.f1

theorem flt_fatan (hcall : raises (.flt .fatan) = true → Does A (runHandler c))
    (hsub : ∀ k, k ∈ footprint (.flt .fatan) → k ∈ K) : Does A (Verif.floatAction c .fatan) := by
  unfold Verif.floatAction
  dsimp only
  word Verif.f1

theorem flt_fatan2 (hcall : raises (.flt .fatan2) = true → Does A (runHandler c))
    (hsub : ∀ k, k ∈ footprint (.flt .fatan2) → k ∈ K) : Does A (Verif.floatAction c .fatan2) := by
  unfold Verif.floatAction
  dsimp only
  word Verif.f2

theorem flt_fsqrt (hcall : raises (.flt .fsqrt) = true → Does A (runHandler c))
    (hsub : ∀ k, k ∈ footprint (.flt .fsqrt) → k ∈ K) : Does A (Verif.floatAction c .fsqrt) := by
  unfold Verif.floatAction
  dsimp only
  word Verif.f1

theorem flt_fdrop (hcall : raises (.flt .fdrop) = true → Does A (runHandler c))
    (hsub : ∀ k, k ∈ footprint (.flt .fdrop) → k ∈ K) : Does A (Verif.floatAction c .fdrop) := by
  show Does A (Verif.fdrop)
  word Verif.fdrop

theorem flt_fdup (hcall : raises (.flt .fdup) = true → Does A (runHandler c))
    (hsub : ∀ k, k ∈ footprint (.flt .fdup) → k ∈ K) : Does A (Verif.floatAction c .fdup) := by
  show Does A (Verif.fdup)
  word Verif.fdup

theorem flt_fswap (hcall : raises (.flt .fswap) = true → Does A (runHandler c))
    (hsub : ∀ k, k ∈ footprint (.flt .fswap) → k ∈ K) : Does A (Verif.floatAction c .fswap) := by
  show Does A (Verif.fswap)
  word Verif.fswap

theorem flt_fnip (hcall : raises (.flt .fnip) = true → Does A (runHandler c))
    (hsub : ∀ k, k ∈ footprint (.flt .fnip) → k ∈ K) : Does A (Verif.floatAction c .fnip) := by
  show Does A (Verif.fnip)
  word Verif.fnip

theorem flt_fover (hcall : raises (.flt .fover) = true → Does A (runHandler c))
    (hsub : ∀ k, k ∈ footprint (.flt .fover) → k ∈ K) : Does A (Verif.floatAction c .fover) := by
  show Does A (Verif.fover)
  word Verif.fover

theorem flt_frot (hcall : raises (.flt .frot) = true → Does A (runHandler c))
    (hsub : ∀ k, k ∈ footprint (.flt .frot) → k ∈ K) : Does A (Verif.floatAction c .frot) := by
  show Does A (Verif.frot)
  word Verif.frot

theorem flt_fpick (hcall : raises (.flt .fpick) = true → Does A (runHandler c))
    (hsub : ∀ k, k ∈ footprint (.flt .fpick) → k ∈ K) : Does A (Verif.floatAction c .fpick) := by
  show Does A (Verif.fpick)
  word Verif.fpick

theorem flt_sToF (hcall : raises (.flt .sToF) = true → Does A (runHandler c))
    (hsub : ∀ k, k ∈ footprint (.flt .sToF) → k ∈ K) : Does A (Verif.floatAction c .sToF) := by
  show Does A (Verif.sToF c)
  word Verif.sToF

theorem flt_fToS (hcall : raises (.flt .fToS) = true → Does A (runHandler c))
    (hsub : ∀ k, k ∈ footprint (.flt .fToS) → k ∈ K) : Does A (Verif.floatAction c .fToS) := by
  show Does A (Verif.fToS c)
  word Verif.fToS

theorem flt_fplus (hcall : raises (.flt .fplus) = true → Does A (runHandler c))
    (hsub : ∀ k, k ∈ footprint (.flt .fplus) → k ∈ K) : Does A (Verif.floatAction c .fplus) := by
  unfold Verif.floatAction
  dsimp only
  word Verif.f2

theorem flt_fminus (hcall : raises (.flt .fminus) = true → Does A (runHandler c))
    (hsub : ∀ k, k ∈ footprint (.flt .fminus) → k ∈ K) : Does A (Verif.floatAction c .fminus) := by
  unfold Verif.floatAction
  dsimp only
  word Verif.f2

theorem flt_fstar (hcall : raises (.flt .fstar) = true → Does A (runHandler c))
    (hsub : ∀ k, k ∈ footprint (.flt .fstar) → k ∈ K) : Does A (Verif.floatAction c .fstar) := by
  unfold Verif.floatAction
  dsimp only
  word Verif.f2

theorem flt_fslash (hcall : raises (.flt .fslash) = true → Does A (runHandler c))
    (hsub : ∀ k, k ∈ footprint (.flt .fslash) → k ∈ K) : Does A (Verif.floatAction c .fslash) := by
  unfold Verif.floatAction
  dsimp only
  word Verif.f2

theorem flt_fpowf (hcall : raises (.flt .fpowf) = true → Does A (runHandler c))
    (hsub : ∀ k, k ∈ footprint (.flt .fpowf) → k ∈ K) : Does A (Verif.floatAction c .fpowf) := by
  unfold Verif.floatAction
  dsimp only
  word Verif.f2

theorem flt_fproximate (hcall : raises (.flt .fproximate) = true → Does A (runHandler c))
    (hsub : ∀ k, k ∈ footprint (.flt .fproximate) → k ∈ K) : Does A (Verif.floatAction c .fproximate) := by
  show Does A (Verif.fproximate c)
  word Verif.fproximate

theorem flt_fZeroLess (hcall : raises (.flt .fZeroLess) = true → Does A (runHandler c))
    (hsub : ∀ k, k ∈ footprint (.flt .fZeroLess) → k ∈ K) : Does A (Verif.floatAction c .fZeroLess) := by
  unfold Verif.floatAction
  dsimp only
  word Verif.fTest

theorem flt_fZeroEquals (hcall : raises (.flt .fZeroEquals) = true → Does A (runHandler c))
    (hsub : ∀ k, k ∈ footprint (.flt .fZeroEquals) → k ∈ K) : Does A (Verif.floatAction c .fZeroEquals) := by
  unfold Verif.floatAction
  dsimp only
  word Verif.fTest

theorem flt_fLess (hcall : raises (.flt .fLess) = true → Does A (runHandler c))
    (hsub : ∀ k, k ∈ footprint (.flt .fLess) → k ∈ K) : Does A (Verif.floatAction c .fLess) := by
  show Does A (Verif.fLess c)
  word Verif.fLess

theorem flt_fmin (hcall : raises (.flt .fmin) = true → Does A (runHandler c))
    (hsub : ∀ k, k ∈ footprint (.flt .fmin) → k ∈ K) : Does A (Verif.floatAction c .fmin) := by
  unfold Verif.floatAction
  dsimp only
  word Verif.fminmax

theorem flt_fmax (hcall : raises (.flt .fmax) = true → Does A (runHandler c))
    (hsub : ∀ k, k ∈ footprint (.flt .fmax) → k ∈ K) : Does A (Verif.floatAction c .fmax) := by
  unfold Verif.floatAction
  dsimp only
  word Verif.fminmax

theorem flt_floor (hcall : raises (.flt .floor) = true → Does A (runHandler c))
    (hsub : ∀ k, k ∈ footprint (.flt .floor) → k ∈ K) : Does A (Verif.floatAction c .floor) := by
  unfold Verif.floatAction
  dsimp only
  word Verif.f1

theorem flt_fround (hcall : raises (.flt .fround) = true → Does A (runHandler c))
    (hsub : ∀ k, k ∈ footprint (.flt .fround) → k ∈ K) : Does A (Verif.floatAction c .fround) := by
  unfold Verif.floatAction
  dsimp only
  word Verif.f1

theorem flt_fceil (hcall : raises (.flt .fceil) = true → Does A (runHandler c))
    (hsub : ∀ k, k ∈ footprint (.flt .fceil) → k ∈ K) : Does A (Verif.floatAction c .fceil) := by
  unfold Verif.floatAction
  dsimp only
  word Verif.f1

theorem flt_fnegate (hcall : raises (.flt .fnegate) = true → Does A (runHandler c))
    (hsub : ∀ k, k ∈ footprint (.flt .fnegate) → k ∈ K) : Does A (Verif.floatAction c .fnegate) := by
  unfold Verif.floatAction
  dsimp only
  word Verif.f1

theorem flt_pFconst (hcall : raises (.flt .pFconst) = true → Does A (runHandler c))
    (hsub : ∀ k, k ∈ footprint (.flt .pFconst) → k ∈ K) : Does A (Verif.floatAction c .pFconst) := by
  show Does A (Verif.pFconst c)
  word Verif.pFconst

theorem floatAction (p : FloatPrim) (hcall : raises (.flt p) = true → Does A (runHandler c))
    (hsub : ∀ k, k ∈ footprint (.flt p) → k ∈ K) : Does A (Verif.floatAction c p) := by
  cases p with
  | fconstant => exact flt_fconstant hcall hsub
  | floatPlus => exact flt_floatPlus hcall hsub
  | floats => exact flt_floats hcall hsub
  | faligned => exact flt_faligned hcall hsub
  | falign => exact flt_falign hcall hsub
  | pi => exact flt_pi hcall hsub
  | fstore => exact flt_fstore hcall hsub
  | ffetch => exact flt_ffetch hcall hsub
  | fabs => exact flt_fabs hcall hsub
  | fsin => exact flt_fsin hcall hsub
  | fcos => exact flt_fcos hcall hsub
  | ftan => exact flt_ftan hcall hsub
  | fsincos => exact flt_fsincos hcall hsub
  | fasin => exact flt_fasin hcall hsub
  | facos => exact flt_facos hcall hsub
  | fatan => exact flt_fatan hcall hsub
  | fatan2 => exact flt_fatan2 hcall hsub
  | fsqrt => exact flt_fsqrt hcall hsub
  | fdrop => exact flt_fdrop hcall hsub
  | fdup => exact flt_fdup hcall hsub
  | fswap => exact flt_fswap hcall hsub
  | fnip => exact flt_fnip hcall hsub
  | fover => exact flt_fover hcall hsub
  | frot => exact flt_frot hcall hsub
  | fpick => exact flt_fpick hcall hsub
  | sToF => exact flt_sToF hcall hsub
  | fToS => exact flt_fToS hcall hsub
  | fplus => exact flt_fplus hcall hsub
  | fminus => exact flt_fminus hcall hsub
  | fstar => exact flt_fstar hcall hsub
  | fslash => exact flt_fslash hcall hsub
  | fpowf => exact flt_fpowf hcall hsub
  | fproximate => exact flt_fproximate hcall hsub
  | fZeroLess => exact flt_fZeroLess hcall hsub
  | fZeroEquals => exact flt_fZeroEquals hcall hsub
  | fLess => exact flt_fLess hcall hsub
  | fmin => exact flt_fmin hcall hsub
  | fmax => exact flt_fmax hcall hsub
  | floor => exact flt_floor hcall hsub
  | fround => exact flt_fround hcall hsub
  | fceil => exact flt_fceil hcall hsub
  | fnegate => exact flt_fnegate hcall hsub
  | pFconst => exact flt_pFconst hcall hsub

theorem unit_meter (hcall : raises (.unit .meter) = true → Does A (runHandler c))
    (hsub : ∀ k, k ∈ footprint (.unit .meter) → k ∈ K) : Does A (Verif.unitAction c .meter) := by
  unfold Verif.unitAction
  dsimp only
  word Verif.f1

theorem unit_mm (hcall : raises (.unit .mm) = true → Does A (runHandler c))
    (hsub : ∀ k, k ∈ footprint (.unit .mm) → k ∈ K) : Does A (Verif.unitAction c .mm) := by
  unfold Verif.unitAction
  dsimp only
  word Verif.f1

theorem unit_um (hcall : raises (.unit .um) = true → Does A (runHandler c))
    (hsub : ∀ k, k ∈ footprint (.unit .um) → k ∈ K) : Does A (Verif.unitAction c .um) := by
  unfold Verif.unitAction
  dsimp only
  word Verif.f1

theorem unit_deg (hcall : raises (.unit .deg) = true → Does A (runHandler c))
    (hsub : ∀ k, k ∈ footprint (.unit .deg) → k ∈ K) : Does A (Verif.unitAction c .deg) := by
  unfold Verif.unitAction
  dsimp only
  word Verif.f1

theorem unit_rad (hcall : raises (.unit .rad) = true → Does A (runHandler c))
    (hsub : ∀ k, k ∈ footprint (.unit .rad) → k ∈ K) : Does A (Verif.unitAction c .rad) := by
  show Does A (Verif.f1 id)
  word Verif.f1

theorem unit_hr (hcall : raises (.unit .hr) = true → Does A (runHandler c))
    (hsub : ∀ k, k ∈ footprint (.unit .hr) → k ∈ K) : Does A (Verif.unitAction c .hr) := by
  unfold Verif.unitAction
  dsimp only
  word Verif.f1

theorem unit_minute (hcall : raises (.unit .minute) = true → Does A (runHandler c))
    (hsub : ∀ k, k ∈ footprint (.unit .minute) → k ∈ K) : Does A (Verif.unitAction c .minute) := by
  unfold Verif.unitAction
  dsimp only
  word Verif.f1

theorem unit_sec (hcall : raises (.unit .sec) = true → Does A (runHandler c))
    (hsub : ∀ k, k ∈ footprint (.unit .sec) → k ∈ K) : Does A (Verif.unitAction c .sec) := by
  unfold Verif.unitAction
  dsimp only
  word Verif.f1

theorem unit_msec (hcall : raises (.unit .msec) = true → Does A (runHandler c))
    (hsub : ∀ k, k ∈ footprint (.unit .msec) → k ∈ K) : Does A (Verif.unitAction c .msec) := by
  unfold Verif.unitAction
  dsimp only
  word Verif.f1

theorem unit_usec (hcall : raises (.unit .usec) = true → Does A (runHandler c))
    (hsub : ∀ k, k ∈ footprint (.unit .usec) → k ∈ K) : Does A (Verif.unitAction c .usec) := by
  unfold Verif.unitAction
  dsimp only
  word Verif.f1

theorem unit_mmPerMin (hcall : raises (.unit .mmPerMin) = true → Does A (runHandler c))
    (hsub : ∀ k, k ∈ footprint (.unit .mmPerMin) → k ∈ K) : Does A (Verif.unitAction c .mmPerMin) := by
  unfold Verif.unitAction
  dsimp only
  word Verif.f1

theorem unit_mmPerSec (hcall : raises (.unit .mmPerSec) = true → Does A (runHandler c))
    (hsub : ∀ k, k ∈ footprint (.unit .mmPerSec) → k ∈ K) : Does A (Verif.unitAction c .mmPerSec) := by
  unfold Verif.unitAction
  dsimp only
  word Verif.f1

theorem unit_umPerMsec (hcall : raises (.unit .umPerMsec) = true → Does A (runHandler c))
    (hsub : ∀ k, k ∈ footprint (.unit .umPerMsec) → k ∈ K) : Does A (Verif.unitAction c .umPerMsec) := by
  unfold Verif.unitAction
  dsimp only
  word Verif.f1

theorem unit_rpm (hcall : raises (.unit .rpm) = true → Does A (runHandler c))
    (hsub : ∀ k, k ∈ footprint (.unit .rpm) → k ∈ K) : Does A (Verif.unitAction c .rpm) := by
  unfold Verif.unitAction
  dsimp only
  word Verif.f1

theorem unit_hertz (hcall : raises (.unit .hertz) = true → Does A (runHandler c))
    (hsub : ∀ k, k ∈ footprint (.unit .hertz) → k ∈ K) : Does A (Verif.unitAction c .hertz) := by
  show Does A (Verif.f1 id)
  word Verif.f1

theorem unitAction (p : UnitPrim) (hcall : raises (.unit p) = true → Does A (runHandler c))
    (hsub : ∀ k, k ∈ footprint (.unit p) → k ∈ K) : Does A (Verif.unitAction c p) := by
  cases p with
  | meter => exact unit_meter hcall hsub
  | mm => exact unit_mm hcall hsub
  | um => exact unit_um hcall hsub
  | deg => exact unit_deg hcall hsub
  | rad => exact unit_rad hcall hsub
  | hr => exact unit_hr hcall hsub
  | minute => exact unit_minute hcall hsub
  | sec => exact unit_sec hcall hsub
  | msec => exact unit_msec hcall hsub
  | usec => exact unit_usec hcall hsub
  | mmPerMin => exact unit_mmPerMin hcall hsub
  | mmPerSec => exact unit_mmPerSec hcall hsub
  | umPerMsec => exact unit_umPerMsec hcall hsub
  | rpm => exact unit_rpm hcall hsub
  | hertz => exact unit_hertz hcall hsub

theorem file_fileSize (hcall : raises (.file .fileSize) = true → Does A (runHandler c))
    (hsub : ∀ k, k ∈ footprint (.file .fileSize) → k ∈ K) : Does A (Verif.fileAction c .fileSize) := by
  show Does A (Verif.fileSize c)
  word Verif.fileSize

theorem file_filePosition (hcall : raises (.file .filePosition) = true → Does A (runHandler c))
    (hsub : ∀ k, k ∈ footprint (.file .filePosition) → k ∈ K) : Does A (Verif.fileAction c .filePosition) := by
  show Does A (Verif.filePosition c)
  word Verif.filePosition

theorem file_closeFile (hcall : raises (.file .closeFile) = true → Does A (runHandler c))
    (hsub : ∀ k, k ∈ footprint (.file .closeFile) → k ∈ K) : Does A (Verif.fileAction c .closeFile) := by
  show Does A (Verif.closeFile)
  exact closeFile (hsub _ (by decide)) (hsub _ (by decide))

theorem file_createFile (hcall : raises (.file .createFile) = true → Does A (runHandler c))
    (hsub : ∀ k, k ∈ footprint (.file .createFile) → k ∈ K) : Does A (Verif.fileAction c .createFile) := by
  show Does A (Verif.createFile c)
  word Verif.createFile

theorem file_deleteFile (hcall : raises (.file .deleteFile) = true → Does A (runHandler c))
    (hsub : ∀ k, k ∈ footprint (.file .deleteFile) → k ∈ K) : Does A (Verif.fileAction c .deleteFile) := by
  show Does A (Verif.deleteFile c)
  word Verif.deleteFile

theorem file_openFile (hcall : raises (.file .openFile) = true → Does A (runHandler c))
    (hsub : ∀ k, k ∈ footprint (.file .openFile) → k ∈ K) : Does A (Verif.fileAction c .openFile) := by
  show Does A (Verif.openFile c)
  word Verif.openFile

theorem file_readFile (hcall : raises (.file .readFile) = true → Does A (runHandler c))
    (hsub : ∀ k, k ∈ footprint (.file .readFile) → k ∈ K) : Does A (Verif.fileAction c .readFile) := by
  show Does A (Verif.readFile c)
  exact readFile (hsub _ (by decide)) (hsub _ (by decide)) (hsub _ (by decide)) (hsub _ (by decide)) c

theorem file_writeFile (hcall : raises (.file .writeFile) = true → Does A (runHandler c))
    (hsub : ∀ k, k ∈ footprint (.file .writeFile) → k ∈ K) : Does A (Verif.fileAction c .writeFile) := by
  show Does A (Verif.writeFile c)
  exact writeFile (hsub _ (by decide)) (hsub _ (by decide)) (hsub _ (by decide)) (hsub _ (by decide)) c

theorem file_resizeFile (hcall : raises (.file .resizeFile) = true → Does A (runHandler c))
    (hsub : ∀ k, k ∈ footprint (.file .resizeFile) → k ∈ K) : Does A (Verif.fileAction c .resizeFile) := by
  show Does A (Verif.resizeFile c)
  word Verif.resizeFile

theorem file_repositionFile (hcall : raises (.file .repositionFile) = true → Does A (runHandler c))
    (hsub : ∀ k, k ∈ footprint (.file .repositionFile) → k ∈ K) : Does A (Verif.fileAction c .repositionFile) := by
  show Does A (Verif.repositionFile c)
  exact repositionFile (hsub _ (by decide)) (hsub _ (by decide)) (hsub _ (by decide)) c

theorem fileAction (p : FilePrim) (hcall : raises (.file p) = true → Does A (runHandler c))
    (hsub : ∀ k, k ∈ footprint (.file p) → k ∈ K) : Does A (Verif.fileAction c p) := by
  cases p with
  | fileSize => exact file_fileSize hcall hsub
  | filePosition => exact file_filePosition hcall hsub
  | closeFile => exact file_closeFile hcall hsub
  | createFile => exact file_createFile hcall hsub
  | deleteFile => exact file_deleteFile hcall hsub
  | openFile => exact file_openFile hcall hsub
  | readFile => exact file_readFile hcall hsub
  | writeFile => exact file_writeFile hcall hsub
  | resizeFile => exact file_resizeFile hcall hsub
  | repositionFile => exact file_repositionFile hcall hsub

theorem load_openSource (hcall : raises (.load .openSource) = true → Does A (runHandler c))
    (hsub : ∀ k, k ∈ footprint (.load .openSource) → k ∈ K) : Does A (Verif.loadAction c .openSource) := by
  show Does A (Verif.openSource c)
  word Verif.openSource

theorem load_closeSource (hcall : raises (.load .closeSource) = true → Does A (runHandler c))
    (hsub : ∀ k, k ∈ footprint (.load .closeSource) → k ∈ K) : Does A (Verif.loadAction c .closeSource) := by
  show Does A (Verif.closeSource c)
  word Verif.closeSource

theorem load_dotSourcePath (hcall : raises (.load .dotSourcePath) = true → Does A (runHandler c))
    (hsub : ∀ k, k ∈ footprint (.load .dotSourcePath) → k ∈ K) : Does A (Verif.loadAction c .dotSourcePath) := by
  show Does A (Verif.dotSourcePath c)
  word Verif.dotSourcePath

theorem load_loadLine (hcall : raises (.load .loadLine) = true → Does A (runHandler c))
    (hsub : ∀ k, k ∈ footprint (.load .loadLine) → k ∈ K) : Does A (Verif.loadAction c .loadLine) := by
  show Does A (Verif.pLoadLine c)
  have hex := hcall (by decide)
  unfold Verif.pLoadLine
  refine bind (sPop (hsub _ (by decide))) fun id => ?_
  intro s a s' hi e
  obtain ⟨r, s1, e1, e⟩ := M.bind_inv e
  have c1 : Changes K s s1 := loadLine (hsub _ (by decide)) (hsub _ (by decide)) _ _ _ _ _ hi e1
  refine c1.trans ?_
  cases r with
  | error x => exact abortWith (hsub _ (by decide)) hex x (loadLine_errors e1) _ _ _ (c1.fit hi) e
  | ok x => exact sPush2 (hsub _ (by decide)) _ _ _ _ _ (c1.fit hi) e

theorem load_dotSourceLine (hcall : raises (.load .dotSourceLine) = true → Does A (runHandler c))
    (hsub : ∀ k, k ∈ footprint (.load .dotSourceLine) → k ∈ K) : Does A (Verif.loadAction c .dotSourceLine) := by
  show Does A (Verif.dotSourceLine c)
  word Verif.dotSourceLine

theorem loadAction (p : LoadPrim) (hcall : raises (.load p) = true → Does A (runHandler c))
    (hsub : ∀ k, k ∈ footprint (.load p) → k ∈ K) : Does A (Verif.loadAction c p) := by
  cases p with
  | openSource => exact load_openSource hcall hsub
  | closeSource => exact load_closeSource hcall hsub
  | dotSourcePath => exact load_dotSourcePath hcall hsub
  | loadLine => exact load_loadLine hcall hsub
  | dotSourceLine => exact load_dotSourceLine hcall hsub

theorem receive (hsub : ∀ k, k ∈ footprint .receive → k ∈ K) : Does A (Verif.pReceive c) := by
  unfold Verif.pReceive
  refine bind (change (hsub .hostCall (by decide)) fun s _ _ e => by cases e; exact ⟨_, rfl⟩) fun a => ?_
  · cases a with
    | line text => exact setSource (hsub _ (by decide)) (hsub _ (by decide)) text
    | eof => exact setIp (hsub _ (by decide)) _
    | failed => exact outBytes (hsub _ (by decide)) _

theorem action (p : Prim) (hcall : raises p = true → Does A (runHandler c))
    (hall : executes p = true → ∀ i, Does A (c.ex i))
    (hsub : ∀ k, k ∈ footprint p → k ∈ K) : Does A (Verif.action c p) := by
  cases p with
  | core p => exact coreAction p hcall hall hsub
  | out p => exact outAction p hcall hsub
  | tool p => exact toolAction p hcall hsub
  | env p => exact envAction (c := c) p hcall hsub
  | flt p => exact floatAction p hcall hsub
  | unit p => exact unitAction p hcall hsub
  | file p => exact fileAction p hcall hsub
  | load p => exact loadAction p hcall hsub
  | receive => exact receive hsub

end table
end Spec.Does

end Verif
