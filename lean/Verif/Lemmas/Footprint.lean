import Verif.Lemmas.Change

/-!
# Every word stays within its footprint
-/

namespace Verif
open Spec

set_option hygiene false in
/-- One step of the proof that a computation makes only changes of kinds in `K`; uses hypotheses
`hsub : ∀ k, k ∈ fp → k ∈ K` and `hex : ∀ i, Does A (c.ex i)` when they are there. -/
macro "does_step" : tactic => `(tactic| first
  | assumption
  | (with_reducible refine hsub _ ?_; decide)
  | with_reducible exact Does.pure _
  | with_reducible exact Does.fault _
  | with_reducible exact Does.liftE _
  | with_reducible exact Does.getVM
  | with_reducible exact Does.getTask
  | with_reducible exact Does.getSt
  | with_reducible exact Does.getDs
  | with_reducible exact Does.getWl
  | with_reducible exact Does.getRefs
  | with_reducible exact Does.getError
  | with_reducible exact Does.getHere
  | with_reducible exact Does.leavePart
  | with_reducible exact Does.dsRd _
  | with_reducible exact Does.wordAt _
  | with_reducible exact Does.labelAt _
  | with_reducible exact Does.find _ _
  | with_reducible exact Does.sourceFrom _ _
  | with_reducible exact Does.sliceM _ _ _
  | with_reducible refine Does.sPush ?_ _
  | with_reducible refine Does.sPush2 ?_ _ _
  | with_reducible refine Does.sPush3 ?_ _ _ _
  | with_reducible refine Does.sPop ?_
  | with_reducible refine Does.sPop2 ?_
  | with_reducible refine Does.sPop3 ?_
  | with_reducible refine Does.modS ?_ _
  | with_reducible refine Does.rPush ?_ _
  | with_reducible refine Does.rPush2 ?_ _ _
  | with_reducible refine Does.rPush3 ?_ _ _ _
  | with_reducible refine Does.rPop ?_
  | with_reducible refine Does.rPop2 ?_
  | with_reducible refine Does.rPop3 ?_
  | with_reducible refine Does.cPush ?_ _
  | with_reducible refine Does.cPop ?_
  | with_reducible refine Does.fPush ?_ _
  | with_reducible refine Does.fPush2 ?_ _ _
  | with_reducible refine Does.fPush3 ?_ _ _ _
  | with_reducible refine Does.fPop ?_
  | with_reducible refine Does.fPop2 ?_
  | with_reducible refine Does.fPop3 ?_
  | with_reducible refine Does.setIp ?_ _
  | with_reducible refine Does.clearError ?_
  | with_reducible refine Does.putToken ?_ _
  | (with_reducible refine Does.take (fun _ => by
      repeat' (first
        | with_reducible exact Covers.evaluateNumber _ _
        | with_reducible exact Deaf.compileInteger _ _
        | with_reducible exact Deaf.redefining _ _
        | covers_step)) (fun _ => ?_))
  | with_reducible refine Does.outBytes ?_ _
  | with_reducible refine Does.modHost ?_ _
  | with_reducible refine Does.hostCall ?_ _
  | with_reducible refine Does.setLabel ?_ _ _
  | with_reducible refine Does.wlPush ?_ _ _ ?_ rfl
  | with_reducible refine Does.setAwake ?_ _ _
  | with_reducible refine Does.compileCell ?_ _ _
  | with_reducible refine Does.compileWord ?_ _ _
  | with_reducible refine Does.compileStrM ?_ _ _
  | with_reducible refine Does.clearStacks ?_ ?_ ?_
  | with_reducible refine Does.abortWith ?_ ?_ _ (by decide)
  | with_reducible refine Does.parseWord ?_ ?_
  | with_reducible refine Does.parse ?_ ?_ ?_ _
  | with_reducible refine Does.modLast ?_ _ (fun _ => ⟨rfl, rfl, rfl, rfl, rfl, rfl, rfl, by first | exact .inl rfl | exact .inr definedDoes⟩)
  | with_reducible refine Does.bind ?_ (fun _ => ?_)
  | with_reducible refine Does.putCell ?_ _ _
  | with_reducible refine Does.putU8 ?_ _ _
  | with_reducible refine Does.dsAlign ?_ _
  | with_reducible refine Does.compileCell' ?_ _ _
  | with_reducible refine Does.modIp ?_ _
  | with_reducible refine Does.modMode ?_ _
  | with_reducible refine Does.modIndex ?_ _
  | with_reducible refine Does.modHold ?_ _
  | with_reducible refine Does.modLabels ?_ _ _
  | with_reducible refine Does.modHandler ?_ _
  | with_reducible refine Does.modReturn ?_ _
  | with_reducible refine Does.modData ?_ _
  | with_reducible refine Does.modDataReturn ?_ ?_ _ _
  | with_reducible refine Does.appendFile ?_ _
  | with_reducible refine Does.saveBuckets ?_
  | exact hany _
  | split)

/-- Prove `Does A m` by following the structure of `m`. -/
macro "does" : tactic => `(tactic| repeat' does_step)

theorem M.bind_assoc {α β γ : Type} (m : M α) (f : α → M β) (g : β → M γ) :
    (m >>= f) >>= g = m >>= fun a => f a >>= g := by
  funext s
  simp only [M.bind_apply]
  cases m s <;> rfl

theorem setInputBuffer_twice {t t1 : Task} {x : Option (List Char)}
    (h : setInputBuffer t x = .ok t1) (y : Option (List Char)) :
    setInputBuffer t1 y = setInputBuffer t y := by
  simp only [setInputBuffer] at h
  split at h
  · rename_i hp
    split at h <;> cases h
    rename_i hl
    simp only [setInputBuffer, if_pos hp, List.length_set, if_pos hl, List.set_set]
  · rename_i hp
    cases h
    simp only [setInputBuffer, if_neg hp]

namespace Spec.Does
variable {K : List Kind} {A : Inv K}

theorem takeInputE (h : .inputSlot ∈ K) {s s' : VM} {b : List Char} (hr : Irregular s)
    (e : Verif.takeInputE s = .ok (b, s')) : Changes K s s' := by
  have e' := takeInputE_inv e
  simp only [Verif.takeInput] at e'
  split at e' <;> cases e'
  exact .one h ⟨none, _, fun _ => hr, ‹_›, rfl⟩

theorem putInput (h : .inputSlot ∈ K) (b : List Char) : Does A (Verif.putInput b) := by
  intro s a s' hi e
  obtain ⟨t, h', rfl⟩ := putInput_inv e
  exact .one h ⟨some b, _, nofun, h', rfl⟩

/-- Replacing the text to be read. -/
theorem exchange (h : .inputText ∈ K) (f : List Char → List Char) :
    Does A (Verif.takeInputE >>= fun b => Verif.putInput (f b)) := by
  intro s a s' hi e
  obtain ⟨b, s1, e1, e⟩ := M.bind_inv e
  have e' := takeInputE_inv e1
  simp only [Verif.takeInput] at e'
  split at e' <;> cases e'
  rename_i t1 ht hb
  obtain ⟨t, h2, rfl⟩ := putInput_inv e
  rw [VM.task_setTask, setInputBuffer_twice ht] at h2
  rw [VM.setTask_setTask]
  exact .one h ⟨b, f b, t, hb, h2, rfl⟩

/-- Starting to read another text. -/
theorem setSource (h : .inputText ∈ K) (h' : .sourceIndex ∈ K) (text : List Char) :
    Does A (Verif.setSource text) := by
  have hb : ∀ (t : Task) (n : Nat) (b : Option (List Char)),
      setInputBuffer { t with st := { t.st with sourceIndex := n } } b =
        (setInputBuffer t b).map fun t => { t with st := { t.st with sourceIndex := n } } := by
    intro t n b
    simp only [setInputBuffer]
    repeat' split
    all_goals rfl
  have hc : Verif.setSource text = (modSt (fun st => { st with sourceIndex := 0 }) >>= fun _ =>
      Verif.takeInputE >>= fun b => Verif.putInput text) := by
    funext s
    unfold Verif.setSource Verif.takeInputE
    simp only [M.bind_assoc, M.bind_apply, Verif.takeInput, modSt_apply, VM.task_setTask]
    rw [hb s.task 0 none]
    have hi : inputBuffer { s.task with st := { s.task.st with sourceIndex := 0 } } = inputBuffer s.task := rfl
    rw [hi]
    cases inputBuffer s.task with
    | error e => rfl
    | ok b =>
      cases setInputBuffer s.task none with
      | error e => rfl
      | ok t =>
        cases b with
        | none => rfl
        | some b =>
          simp only [Except.map, Verif.putInput, VM.task_setTask, VM.setTask_setTask]
          simp only [Pure.pure, M.pure, VM.task_setTask, VM.setTask_setTask]
  rw [hc]
  exact bind (modIndex h' _) fun _ => exchange h fun _ => text

theorem ipAdd8 (h : .ip ∈ K) (c : Ctx) : Does A (Verif.ipAdd8 c) := by
  unfold Verif.ipAdd8; does

theorem lit (h : .dataStack ∈ K) (h' : .ip ∈ K) (c : Ctx) : Does A (Verif.lit c) := by
  have := ipAdd8 (A := A) h' c
  unfold Verif.lit; does

theorem compileInteger (h : .memAppend ∈ K) (c : Ctx) (v : Cell) :
    Does A (Verif.compileInteger c v) := by unfold Verif.compileInteger; does

theorem compileFloat (h : .memAppend ∈ K) (c : Ctx) (v : F64) :
    Does A (Verif.compileFloat c v) := by unfold Verif.compileFloat; does

theorem branch (h : .ip ∈ K) : Does A Verif.branch := by unfold Verif.branch; does

theorem compileBranch (h : .memAppend ∈ K) (c : Ctx) (n : Nat) :
    Does A (Verif.compileBranch c n) := by unfold Verif.compileBranch; does

theorem compileZeroBranch (h : .memAppend ∈ K) (c : Ctx) (n : Nat) :
    Does A (Verif.compileZeroBranch c n) := by unfold Verif.compileZeroBranch; does

theorem loopStep (h : .returnStack ∈ K) (h' : .ip ∈ K) (c : Ctx) (a b : Cell) :
    Does A (Verif.loopStep c a b) := by
  have := ipAdd8 (A := A) h' c
  have := branch (A := A) h'
  unfold Verif.loopStep; does

section calling
variable {c : Ctx} (hex : Does A (runHandler c)) (hsub : ∀ k, k ∈ abortKinds → k ∈ K)
include hex hsub

theorem compileLeave (h : .memAppend ∈ K) (i : Nat) : Does A (Verif.compileLeave c i) := by
  unfold Verif.compileLeave; does

theorem compSemRun (h : .memAppend ∈ K) (cs : CompSem) (i : Nat) :
    Does A (Verif.compSemRun c cs i) := by
  have := compileLeave hex hsub h i
  unfold Verif.compSemRun; does

/-- What follows a failed conversion raises its error, whatever error the conversion has left. -/
theorem refuse (h : .token ∈ K) (tok : List Char) (e : Exn) : Does A (Verif.setError (some e) >>= fun _ =>
    Verif.getError >>= fun e => match e with
      | none => Verif.putToken tok
      | some _ => Verif.putToken tok >>= fun _ => Verif.abortWith c .undefinedWord) := by
  intro s a s' hi e
  have : (Verif.putToken tok >>= fun _ => Verif.abortWith c .undefinedWord) s = .ok (a, s') := by
    rw [← e]
    simp only [M.bind_apply, setError_apply, getError_apply, Verif.putToken, modVM_apply, abortWith_run]
    rfl
  exact (by does : Does A (Verif.putToken tok >>= fun _ => Verif.abortWith c .undefinedWord)) _ _ _ hi this

theorem evaluateFloat (h : .memAppend ∈ K) (h' : .token ∈ K) (tok : List Char) :
    Does A (Verif.evaluateFloat c (utf8 tok) >>= fun _ => Verif.getError >>= fun e => match e with
      | none => Verif.putToken tok
      | some _ => Verif.putToken tok >>= fun _ => Verif.abortWith c .undefinedWord) := by
  have hr := fun e => refuse hex hsub h' tok e
  have := compileFloat (A := A) h c
  unfold Verif.evaluateFloat
  cases floatValue c.cfg.fops (utf8 tok) with
  | error e => exact hr e
  | ok v =>
    intro s a s' hi e
    rw [M.bind_assoc, M.bind_apply, getRefs_apply] at e
    dsimp only at e
    by_cases h0 : s.refs.flit = 0
    · rw [if_pos h0] at e
      exact hr _ _ _ _ hi e
    · rw [if_neg h0] at e
      refine (?_ : Does A _) _ _ _ hi e
      does
      all_goals exact this _

theorem evaluateNumber (h : .memAppend ∈ K) (h' : .token ∈ K) (h'' : .clear ∈ K) (tok : List Char) :
    Does A (Verif.evaluateNumber c tok) := by
  have hf := evaluateFloat hex hsub h h' tok
  have := compileInteger (A := A) h c
  have hrest : Does A (Verif.setError none >>= fun _ => Verif.evaluateFloat c (utf8 tok) >>= fun _ =>
      Verif.getError >>= fun e => match e with
      | none => Verif.putToken tok
      | some _ => Verif.putToken tok >>= fun _ => Verif.abortWith c .undefinedWord) :=
    bind (clearError h'') fun _ => hf
  unfold Verif.evaluateNumber
  refine bind (clearError h'') fun _ => ?_
  unfold Verif.evaluateInteger
  rw [M.bind_assoc]
  refine bind (dsRd _) fun base => ?_
  cases integerValue base (utf8 tok) with
  | some v =>
    dsimp only
    does
    all_goals exact this _
  | none =>
    intro s a s' hi e
    refine hrest s a s' hi ?_
    rw [← e]
    rfl

theorem define (h1 : .token ∈ K) (h2 : .sourceIndex ∈ K) (h3 : .output ∈ K) (h4 : .memAppend ∈ K)
    (h5 : .wordAdd ∈ K) (a : Prim) (ha : a ∈ definedActions) : Does A (Verif.define c a) := by
  unfold Verif.define redefining; does

theorem cGuard {k : M Unit} (hk : Does A k) : Does A (Verif.cGuard c k) := by
  unfold Verif.cGuard; does

omit hex hsub in
theorem patch (h : .memWrite ∈ K) (v p : Nat) : Does A (Verif.patch c v p) := by
  unfold Verif.patch; does

theorem endcaseLoop (h : .memWrite ∈ K) (n : Nat) : Does A (Verif.endcaseLoop c n) := by
  induction n with
  | zero => exact fault _
  | succ n ih =>
    unfold Verif.endcaseLoop
    have h3 : ∀ part, Does A (Verif.cGuard c do
        let here ← Verif.getHere
        Verif.patch c here part) := fun part =>
      cGuard hex hsub (bind getHere fun _ => patch h _ _)
    does
    all_goals exact h3 _

theorem immGoto (h : .memAppend ∈ K) (h1 : .labelSets ∈ K) (h2 : .labelTable ∈ K) :
    Does A (Verif.immGoto c) := by
  have := compileBranch (A := A) h c
  unfold Verif.immGoto; does
  all_goals first | exact this _ | exact modLabels h1 _ _

omit hex in
theorem popTaskId : Does A (Verif.popTaskId c) := by
  unfold Verif.popTaskId; does


theorem setSourceId (h : .sourceId ∈ K) (id : Cell) : Does A (Verif.setSourceId c id) := by
  unfold Verif.setSourceId
  intro s a s' hi e
  rw [M.bind_apply, getTask_apply] at e
  simp only at e
  split at e
  · rename_i hp
    cases hs : s.task.sources[id.toNat - 1]? with
    | none => rw [hs] at e; exact (by does : Does A (Verif.abortWith c _)) _ _ _ hi e
    | some x =>
      rw [hs] at e
      cases x with
      | none => exact (by does : Does A (Verif.abortWith c _)) _ _ _ hi e
      | some src =>
        simp only at e
        cases hl : s.task.lines[id.toNat - 1]? with
        | none => rw [hl] at e; cases e
        | some y =>
          rw [hl] at e
          cases y with
          | none => exact (by does : Does A (Verif.abortWith c _)) _ _ _ hi e
          | some l =>
            cases e
            exact .one h ⟨id, .inr ⟨hp, ⟨_, hs⟩, ⟨_, hl⟩⟩, rfl⟩
  · split at e
    · cases e
      exact .one h ⟨id, .inl ‹_›, rfl⟩
    · exact (by does : Does A (Verif.abortWith c _)) _ _ _ hi e

theorem immRepeat (h1 : .memAppend ∈ K) (h2 : .memWrite ∈ K) : Does A (Verif.immRepeat c) := by
  intro s a s' hi e
  have h0 : Changes K s (s.setTask { s.task with c := s.task.c.pop2.2 }) :=
    .one (hsub .controlStack (by decide)) ⟨_, rfl⟩
  refine h0.trans ?_
  have hi' := h0.fit hi
  have h3 : ∀ b w, Does A (Verif.cGuard c do
        let here ← Verif.compileBranch c b
        Verif.patch c here w) := fun b w => by
    refine cGuard hex hsub ?_
    does
    all_goals first | exact compileBranch h1 c _ | exact patch h2 _ _
  have h4 : ∀ x : Control × Control, Does A (match x with
      | (.begin_ b, .while_ w) => Verif.cGuard c do
          let here ← Verif.compileBranch c b
          Verif.patch c here w
      | _ => Verif.abortWith c .controlStructureMismatch) := by
    intro x
    split
    · exact h3 _ _
    · does
  exact h4 _ _ _ _ hi' e

theorem immLabel (h1 : .memWrite ∈ K) (h2 : .labelSets ∈ K) (h3 : .labelTable ∈ K) :
    Does A (Verif.immLabel c) := by
  have := dsLabel (A := A) (K := K) h1
  unfold Verif.immLabel; does
  all_goals first | exact this _ | exact modLabels h2 _ _

theorem sQuote (h1 : .inputSlot ∈ K) (h2 : .memAppend ∈ K) (h3 : .sourceIndex ∈ K) :
    Does A (Verif.sQuote c) := by
  intro s u s' hi e0
  unfold Verif.sQuote at e0
  obtain ⟨buf, s1, e1, f1⟩ := M.bind_inv e0
  have hw : s1.wl = s.wl ∧ s1.refs = s.refs := by
    obtain ⟨ln, ib, rfl, -, -⟩ := takeInput_inv (takeInputE_inv e1)
    exact ⟨rfl, rfl⟩
  obtain ⟨st, s2, e2, f2⟩ := M.bind_inv f1
  cases e2
  obtain ⟨a, s3, e3, f3⟩ := M.bind_inv f2
  obtain ⟨-, h3'⟩ := liftE_inv e3
  subst h3'
  obtain ⟨source, s4, e4, f4⟩ := M.bind_inv f3
  have h4' : s4 = s3 := by
    unfold Verif.sliceM at e4
    cases hx : sliceBytes buf a (byteLen buf) with
    | none => rw [hx] at e4; cases e4
    | some x => rw [hx] at e4; cases e4; rfl
  subst h4'
  obtain ⟨refs, s5, e5, f5⟩ := M.bind_inv f4
  cases e5
  obtain ⟨w, s6, e6, e⟩ := M.bind_inv f5
  have hw4 : s4.wl.words[s4.refs.sQuote]? = some w ∧ s6 = s4 := by
    rw [wordAt_apply] at e6
    split at e6 <;> cases e6
    exact ⟨‹_›, rfl⟩
  obtain ⟨hw4, h6'⟩ := hw4
  subst h6'
  rw [hw.1, hw.2] at hw4
  clear e0 f1 f2 f3 f4 f5 e3 e4 e6
  cases hc : w.compSem with
  | leave =>
    have hch : Changes K s s6 := takeInputE h1 ⟨w, hw4, hc⟩ e1
    refine hch.trans ?_
    have hp := putInput (A := A) h1
    have := fun cs i => compSemRun hex hsub h2 cs i
    refine (?_ : Does A _) s6 u s' (hch.fit hi) e
    does
    all_goals first | exact this _ _ | exact hp _
  | word =>
    rw [hc] at e
    obtain ⟨ln, ib, hs4, hput, -⟩ := takeInput_inv (takeInputE_inv e1)
    have hmid : ∃ v, Changes [.memAppend, .sourceIndex] s6 v ∧ Verif.putInput buf v = .ok (u, s') := by
      obtain ⟨_, s15, e5, e⟩ := M.bind_inv e
      obtain ⟨_, s16, e6, e⟩ := M.bind_inv e
      obtain ⟨_, s7, e7, e⟩ := M.bind_inv e
      obtain ⟨_, s8, e8, e⟩ := M.bind_inv e
      have f4 : Fit (Inv.any [Kind.memAppend, .sourceIndex]) s6 := by
        rw [hs4]; exact ⟨hi.1, trivial⟩
      have c5 := Does.compileWord (A := Inv.any [Kind.memAppend, .sourceIndex]) (by decide) _ _ _ _ _ f4 e5
      have c6 := c5.trans (Does.compileStrM (A := Inv.any [Kind.memAppend, .sourceIndex]) (by decide) _ _ _ _ _ (c5.fit f4) e6)
      have c7 := c6.trans (Does.dsAlign (A := Inv.any [Kind.memAppend, .sourceIndex]) (by decide) _ _ _ _ (c6.fit f4) e7)
      have c8 := c7.trans (Does.modIndex (A := Inv.any [Kind.memAppend, .sourceIndex]) (by decide) _ _ _ _ (c7.fit f4) e8)
      exact ⟨s8, c8, e⟩
    obtain ⟨v, hch, e⟩ := hmid
    have key : ∀ {v : VM}, Changes [.memAppend, .sourceIndex] s6 v →
        (v.task.lines = ln ∧ v.task.inbuf = ib ∧ v.task.st.sourceId = s.task.st.sourceId) ∧
        Changes K s (v.setTask { v.task with lines := s.task.lines, inbuf := s.task.inbuf }) := by
      intro v hv
      induction hv with
      | refl =>
        rw [hs4]
        simp only [VM.task_setTask, VM.setTask_setTask, true_and]
        rw [show ({ s.task with lines := s.task.lines, inbuf := s.task.inbuf } : Task) = s.task from rfl,
          VM.setTask_task]
        exact .refl _
      | tail _ hk hc ih =>
        rcases List.mem_cons.1 hk with rfl | hk
        · obtain ⟨n, b, g1, g2, g3, rfl⟩ := hc
          exact ⟨ih.1, .tail ih.2 h2 ⟨n, b, g1, g2, g3, rfl⟩⟩
        · obtain rfl := List.mem_singleton.1 hk
          obtain ⟨n, rfl⟩ := hc
          simp only [VM.task_setTask, VM.setTask_setTask]
          refine ⟨ih.1, .tail ih.2 h3 ⟨n, ?_⟩⟩
          simp only [VM.task_setTask, VM.setTask_setTask]
    obtain ⟨⟨g1, g2, g3⟩, hch⟩ := key hch
    obtain ⟨t, e', h'⟩ := putInput_inv e
    rw [hput v.task g1 g2 g3 buf rfl] at e'
    cases e'
    rw [h']
    exact hch

end calling

/-! ### Words with their own argument -/

theorem reset {c : Ctx} (h1 : .returnStack ∈ K) (h2 : .sourceId ∈ K) (h3 : .inputText ∈ K)
    (h4 : .sourceIndex ∈ K) (h5 : .mode ∈ K) (h6 : .abortedWp ∈ K) (h7 : .clear ∈ K) :
    Does A (Verif.reset c) := by
  unfold Verif.reset
  refine bind (modReturn h1 _) fun _ => ?_
  refine bind ?_ fun _ => ?_
  · intro s a s' hi e
    have : Verif.setSourceId c 0 s = .ok ((), s.setTask
        { s.task with st := { s.task.st with sourceId := 0 } }) := rfl
    rw [this] at e
    cases e
    exact .one h2 ⟨0, .inl rfl, rfl⟩
  refine bind ?_ fun _ => ?_
  · intro s a s' hi e
    unfold clearInput at e
    obtain ⟨b, s1, h1, e⟩ := M.bind_inv e
    cases b with
    | none =>
      cases e
      obtain ⟨ln, ib, rfl, _, hn⟩ := takeInput_inv h1
      obtain ⟨rfl, rfl⟩ := hn rfl
      have : s.setTask { s.task with lines := s.task.lines, inbuf := s.task.inbuf } = s := VM.setTask_task s
      rw [this]
      exact .refl _
    | some b =>
      simp only [takeInput] at h1
      split at h1 <;> cases h1
      rename_i t1 ht hb
      obtain ⟨t, h2, rfl⟩ := putInput_inv e
      rw [VM.task_setTask, setInputBuffer_twice ht] at h2
      rw [VM.setTask_setTask]
      exact .one h3 ⟨b, [], t, hb, h2, rfl⟩
  refine bind ?_ fun _ => bind (modMode h5 _) fun _ => clearError h7
  intro s a s' hi e
  cases e
  refine .tail (.one h6 ⟨0, rfl⟩) h4 ⟨0, ?_⟩
  rw [VM.setTask_setTask, VM.task_setTask]

theorem pause (h : .switch ∈ K) : Does A Verif.pause := by
  intro s a s' hi e
  simp only [Verif.pause] at e
  rw [M.bind_apply, getVM_apply] at e
  simp only at e
  have hn : ∀ n i k, nextAwake (fun i => (s.tasks i).awake) n i = some k → (s.tasks k).awake = true := by
    intro n
    induction n with
    | zero => intro i k h; cases h
    | succ n ih =>
      intro i k h
      simp only [nextAwake] at h
      split at h
      · cases h; assumption
      · exact ih _ _ h
  cases hk : nextAwake (fun i => (s.tasks i).awake) 5 s.cur with
  | none => rw [hk] at e; cases e
  | some i =>
    rw [hk] at e
    cases e
    exact .one h ⟨i, hn _ _ _ hk, rfl⟩


theorem wlForget (h : .wordForget ∈ K) (f : VM → List Word) (g : VM → Fin 64 → Nat) (l : VM → Nat)
    (hf : ∀ s, ∃ n, f s = s.wl.words.take n) :
    Does A (modVM fun s => { s with wl := { s.wl with words := f s, buckets := g s, last := l s } }) := by
  intro s a s' hi e
  cases e
  obtain ⟨n, hn⟩ := hf s
  exact .one h ⟨n, g s, l s, by simp only [hn]⟩

theorem unmarkLoop (h : .wordForget ∈ K) (c : Ctx) (n : Nat) : ∀ (d : Nat) (i : Fin 64),
    Does A (Verif.unmarkLoop c n d i) := by
  induction n with
  | zero => intro d i; exact pure _
  | succ n ih =>
    intro d i
    unfold Verif.unmarkLoop
    refine bind (liftE _) fun _ => bind (dsRd _) fun x => bind ?_ fun _ => ih _ _
    exact wlForget h (fun s => s.wl.words) (fun s j => if j = i then x.toNat else s.wl.buckets j)
      (fun s => s.wl.last) fun s => ⟨_, (List.take_length).symm⟩

theorem unmark (h : .wordForget ∈ K) (h' : .memHere ∈ K) (c : Ctx) : Does A (Verif.unmark c) := by
  unfold Verif.unmark
  refine bind getSt fun st => bind (wordAt _) fun w => bind (dsRd _) fun x => bind ?_ fun _ =>
    bind (unmarkLoop h c _ _ _) fun _ => bind (dsTruncate h' _) fun _ => ?_
  · exact wlForget h (fun s => s.wl.words) (fun s => s.wl.buckets) _ fun s =>
      ⟨_, (List.take_length).symm⟩
  intro s a s' hi e
  rw [M.bind_apply, getWl_apply] at e
  simp only at e
  obtain ⟨l, s1, h1, e⟩ := M.bind_inv e
  obtain ⟨_, rfl⟩ := liftE_inv h1
  cases e
  exact .one h ⟨st.wp, _, _, rfl⟩

theorem markerLoop (h : .memAppend ∈ K) (c : Ctx) (l : List (Fin 64)) :
    Does A (Verif.markerLoop c l) := by
  induction l with
  | nil => exact pure _
  | cons i l ih =>
    unfold Verif.markerLoop
    exact bind getWl fun _ => bind (compileCell h c _) fun _ => ih

theorem modTime (h : .wordTime ∈ K) (i : Nat) (f : Word → Word)
    (hf : ∀ w, ∃ a b, f w = { w with minTime := a, maxTime := b }) : Does A (modWord i f) := by
  intro s a s' hi e
  rw [modWord_apply] at e
  split at e <;> cases e
  rename_i w hw
  refine .one h ⟨f, hf, fun j => j == i, ?_⟩
  have : s.wl.words.set i (f w) = s.wl.words.mapIdx fun j w => if (j == i) = true then f w else w := by
    apply List.ext_getElem?
    intro j
    rw [List.getElem?_set, List.getElem?_mapIdx]
    by_cases hj : i = j
    · subst hj
      have hl : i < s.wl.words.length := (List.getElem?_eq_some_iff.1 hw).1
      simp only [if_true, beq_self_eq_true, hw, Option.map_some, if_pos hl]
    · have hj' : (j == i) = false := by simpa using fun e => hj e.symm
      simp [hj, hj']
  rw [this]

theorem setXtime (h : .dataStack ∈ K) (h' : .wordTime ∈ K) (c : Ctx) : Does A (Verif.setXtime c) := by
  unfold Verif.setXtime
  refine bind (sPop2 h) fun _ => bind getVM fun _ => bind (liftE _) fun _ => ?_
  exact modTime h' _ _ fun w => ⟨_, _, rfl⟩

theorem clearXtime (h : .wordTime ∈ K) : Does A Verif.clearXtime := by
  intro s a s' hi e
  cases e
  refine .one h ⟨fun w => if w.minTime > 0 then { w with minTime := 0, maxTime := 0 } else w, ?_,
    fun i => decide (0 < i), ?_⟩
  · intro w
    by_cases hw : w.minTime > 0
    · exact ⟨0, 0, if_pos hw⟩
    · exact ⟨w.minTime, w.maxTime, if_neg hw⟩
  · have : ∀ l : List Word, ∀ f : Word → Word, l.take 1 ++ (l.drop 1).map f =
        l.mapIdx fun i w => if decide (0 < i) = true then f w else w := by
      intro l f
      cases l with
      | nil => rfl
      | cons x l =>
        apply List.ext_getElem?
        intro j
        cases j with
        | zero => simp
        | succ j => simp
    simp only [this]

theorem flushOutput (h : .standardOut ∈ K) : Does A Verif.flushOutput := by
  intro s a s' hi e
  cases e
  simp only
  split
  · rename_i b hb
    split
    · exact .one h ⟨b, hb, rfl⟩
    · exact .refl _
  · exact .refl _

theorem flushToErr (h : .standardError ∈ K) : Does A Verif.flushToErr := by
  intro s a s' hi e
  cases e
  simp only
  split
  · rename_i b hb
    exact .one h ⟨b, hb, rfl⟩
  · exact .refl _


theorem hostOpen (h : .hostCall ∈ K) (c : Ctx) (p : List Byte) (r w : Bool) :
    Does A (Verif.hostOpen c p r w) := by unfold Verif.hostOpen; does

theorem hostCreate (h : .hostCall ∈ K) (h' : .host ∈ K) (c : Ctx) (p : List Byte) (r : Bool) :
    Does A (Verif.hostCreate c p r) := by unfold Verif.hostCreate; does

theorem freeSlot_spec {α : Type} {l : List (Option α)} {p : Nat} (h : freeSlot l = some p) :
    l[p]? = some none := by
  obtain ⟨hp, hn, _⟩ := List.findIdx?_eq_some_iff_getElem.1 h
  rw [List.getElem?_eq_getElem hp]
  cases hx : l[p] with
  | none => rfl
  | some x => rw [hx] at hn; cases hn

theorem enterFile (h : .fileOpen ∈ K) (h' : .dataStack ∈ K) (x : Handle) : Does A (Verif.enterFile x) := by
  unfold Verif.enterFile
  intro s a s' hi e
  rw [M.bind_apply, getTask_apply] at e
  simp only at e
  cases hf : freeSlot s.task.files with
  | none =>
    rw [hf] at e
    exact (bind (sPush2 h' _ _) fun _ => appendFile h x) _ _ _ hi e
  | some p =>
    rw [hf] at e
    obtain ⟨_, s1, e1, e⟩ := M.bind_inv e
    cases e1
    have hc : Changes K s (s.setTask { s.task with files := s.task.files.set p (some x) }) :=
      .one h ⟨x, _, .inl ⟨p, freeSlot_spec hf, rfl⟩, rfl⟩
    exact hc.trans (sPush2 h' _ _ _ _ _ (hc.fit hi) e)

theorem openWith (h : .fileOpen ∈ K) (h' : .dataStack ∈ K) (c : Ctx) (a u : Nat)
    {op : List Byte → M (Option Handle)} (ho : ∀ p, Does A (op p)) :
    Does A (Verif.openWith c a u op) := by
  have := enterFile (A := A) h h'
  unfold Verif.openWith; does
  all_goals first | exact ho _ | exact this _

/-- Making only the allowed changes as long as entry `i` of the file table is `h`. -/
def Held (A : Inv K) (i : Nat) (h : Handle) {α : Type} (m : M α) : Prop :=
  ∀ s a s', Fit A s → s.task.files[i]? = some (some h) → m s = .ok (a, s') → Changes K s s'

/-- Leaving the file table alone. -/
def KeepsFiles {α : Type} (m : M α) : Prop := ∀ s a s', m s = .ok (a, s') → s'.task.files = s.task.files

section
variable {α β : Type} {i : Nat} {x : Handle}

theorem Held.of {m : M α} (h : Does A m) : Held A i x m := fun s a s' hi _ e => h s a s' hi e

theorem Held.bind {m : M α} {k : α → M β} (h : Does A m) (hk : KeepsFiles m) (h' : ∀ a, Held A i x (k a)) :
    Held A i x (m >>= k) := by
  intro s b s' hi hx e
  obtain ⟨a, s1, e1, e2⟩ := M.bind_inv e
  have c1 := h _ _ _ hi e1
  exact c1.trans (h' a _ _ _ (c1.fit hi) (by rw [hk _ _ _ e1]; exact hx) e2)

theorem Held.use (h : .fileUse ∈ K) (n : Nat) : Held A i x (setFile i (some { x with pos := n })) := by
  intro s a s' _ hx e
  cases e
  exact .one h ⟨i, x, n, hx, rfl⟩

theorem Held.close (h : .fileClose ∈ K) : Held A i x (setFile i none) := by
  intro s a s' _ hx e
  cases e
  exact .one h ⟨i, x, hx, rfl⟩

theorem keeps_dsRd {f : DataSpace → Except Fault α} : KeepsFiles (Verif.dsRd f) := fun s a s' e => by
  obtain ⟨_, rfl⟩ := dsRd_inv e; rfl
theorem keeps_sPush (v : Cell) : KeepsFiles (Verif.sPush v) := fun s a s' e => by
  cases e; rw [VM.task_setTask]
theorem keeps_sPush2 (v w : Cell) : KeepsFiles (Verif.sPush2 v w) := fun s a s' e => by
  cases e; rw [VM.task_setTask]
theorem keeps_hostCall (c : Ctx) : KeepsFiles (Verif.hostCall c) := fun s a s' e => by cases e; rfl
theorem keeps_getVM : KeepsFiles Verif.getVM := fun s a s' e => by cases e; rfl
theorem keeps_modHost (f : Host → Host) : KeepsFiles (Verif.modHost f) := fun s a s' e => by cases e; rfl
theorem keeps_dsOp (f : DataSpace → Except Fault DataSpace) : KeepsFiles (Verif.dsOp f) := fun s a s' e => by
  simp only [Verif.dsOp] at e
  split at e <;> cases e
  rfl

/-- Looking a file up in the table. -/
theorem withFile {m : Handle → M Unit} {z : M Unit} (hm : ∀ x, Held A i x (m x)) (hz : Does A z) :
    Does A (Verif.getTask >>= fun t => match t.files[i]? with | some (some x) => m x | _ => z) := by
  intro s a s' hi e
  rw [M.bind_apply, getTask_apply] at e
  simp only at e
  cases hx : s.task.files[i]? with
  | none => rw [hx] at e; exact hz _ _ _ hi e
  | some y =>
    rw [hx] at e
    cases y with
    | none => exact hz _ _ _ hi e
    | some x => exact hm x _ _ _ hi hx e
end

theorem closeFile (h : .fileClose ∈ K) (h' : .dataStack ∈ K) : Does A Verif.closeFile := by
  unfold Verif.closeFile
  refine bind (sPop h') fun id => ?_
  split
  · exact sPush h' _
  · refine withFile (fun x => ?_) (sPush h' _)
    intro s a s' hi hx e
    obtain ⟨_, s1, e1, e2⟩ := M.bind_inv e
    have c1 : Changes K s s1 := Held.close h _ _ _ hi hx e1
    exact c1.trans (sPush h' _ _ _ _ (c1.fit hi) e2)

theorem repositionFile (h : .fileUse ∈ K) (h' : .dataStack ∈ K) (h1 : .hostCall ∈ K) (c : Ctx) :
    Does A (Verif.repositionFile c) := by
  unfold Verif.repositionFile
  refine bind (sPop3 h') fun y => ?_
  obtain ⟨lo, hi, id⟩ := y
  simp only
  split
  · exact sPush h' _
  split
  · exact sPush h' _
  split
  · exact sPush h' _
  refine withFile (fun x => ?_) (sPush h' _)
  refine .bind (hostCall h1 c) (keeps_hostCall c) fun bad => ?_
  split
  · exact .of (sPush h' _)
  · exact .bind (sPush h' _) (keeps_sPush _) fun _ => .use h _

theorem writeFile (h : .fileUse ∈ K) (h' : .dataStack ∈ K) (h1 : .hostCall ∈ K) (h2 : .host ∈ K) (c : Ctx) :
    Does A (Verif.writeFile c) := by
  unfold Verif.writeFile
  refine bind (sPop3 h') fun y => ?_
  obtain ⟨caddr, u, id⟩ := y
  simp only
  split
  · exact sPush h' _
  refine withFile (fun x => ?_) (sPush h' _)
  refine .bind (dsRd _) keeps_dsRd fun ok => ?_
  split
  · split
    · exact .of (sPush h' _)
    · refine .bind (dsRd _) keeps_dsRd fun bs => .bind (hostCall h1 c) (keeps_hostCall c) fun bad => ?_
      split
      · exact .of (sPush h' _)
      · exact .bind (modHost h2 _) (keeps_modHost _) fun _ => .bind (sPush h' _) (keeps_sPush _) fun _ => .use h _
  · exact .of (sPush h' _)

theorem readFile (h : .fileUse ∈ K) (h' : .dataStack ∈ K) (h1 : .hostCall ∈ K) (h2 : .memWrite ∈ K) (c : Ctx) :
    Does A (Verif.readFile c) := by
  unfold Verif.readFile
  refine bind (sPop3 h') fun x => ?_
  obtain ⟨caddr, u1, id⟩ := x
  simp only
  split
  · exact sPush2 h' _ _
  refine withFile (fun x => ?_) (sPush2 h' _ _)
  refine .bind (dsRd _) keeps_dsRd fun ok => ?_
  split
  · intro s a s' hi hx e
    obtain ⟨bs, s1, e1, e'⟩ := M.bind_inv e
    clear e
    obtain ⟨hr, rfl⟩ := dsRd_inv e1
    obtain ⟨bad, s2, e2, e⟩ := M.bind_inv e'
    clear e'
    cases e2
    rw [M.bind_apply, getVM_apply] at e
    simp only at e
    have h0 : Changes K s1 { s1 with host := { s1.host with calls := s1.host.calls + 1 } } :=
      .one h1 ⟨_, rfl⟩
    refine h0.trans ?_
    have hi := h0.fit hi
    split at e
    · refine sPush2 (A := A) h' _ _ _ _ _ ?_ e
      exact hi
    · obtain ⟨_, s3, e3, e⟩ := M.bind_inv e
      have hc : Changes K { s1 with host := { s1.host with calls := s1.host.calls + 1 } } s3 := by
        simp only [DataSpace.getBytes] at hr
        split at hr
        · rename_i h0
          rw [h0, List.take_zero] at e3
          cases e3
          refine .one h2 ⟨s1.ds.start, 0, _, Nat.le_refl _, by simp, fun x _ => ?_, rfl⟩
          exact if_neg (by simp only [List.length_nil]; omega)
        · split at hr <;> cases hr
          rename_i hv
          refine dsSetBytes h2 _ _ _ ?_ e3
          simp only [DataSpace.valid] at hv ⊢
          rw [List.length_take]
          omega
      have hx3 : s3.task.files[id.toNat - 1]? = some (some x) := by
        rw [keeps_dsOp _ _ _ _ e3]; exact hx
      refine hc.trans ?_
      exact (Held.bind (sPush2 (A := A) h' _ _) (keeps_sPush2 _ _) fun _ => .use h _) _ _ _ (hc.fit hi) hx3 e
  · exact .of (sPush2 h' _ _)

theorem openSource {c : Ctx} (hex : Does A (runHandler c)) (hsub : ∀ k, k ∈ abortKinds → k ∈ K)
    (h : .fileClose ∈ K) (h' : .sourceOpen ∈ K) : Does A (Verif.openSource c) := by
  have he : ∀ src, Does A (Verif.enterSource src) := by
    intro src
    unfold Verif.enterSource
    intro s a s' hi e
    rw [M.bind_apply, getTask_apply] at e
    simp only at e
    cases hf : freeSlot s.task.sources with
    | none =>
      rw [hf] at e
      refine (bind (sPush (hsub _ (by decide)) _) fun _ => ?_) _ _ _ hi e
      intro s a s' hi e
      cases e
      exact .one h' ⟨src, .inr rfl⟩
    | some p =>
      rw [hf] at e
      have hp : s.task.sources[p]? = some none := freeSlot_spec hf
      obtain ⟨_, s1, e1, e⟩ := M.bind_inv e
      cases e1
      have hc : Changes K s (s.setTask { s.task with sources := s.task.sources.set p (some src) }) :=
        .one h' ⟨src, .inl ⟨p, hp, rfl⟩⟩
      exact hc.trans (sPush (hsub _ (by decide)) _ _ _ _ (hc.fit hi) e)
  unfold Verif.openSource
  refine bind (sPop3 (hsub _ (by decide))) fun y => ?_
  obtain ⟨caddr, u, id⟩ := y
  intro s a s' hi e
  dsimp only at e
  rw [M.bind_apply, getTask_apply] at e
  simp only at e
  split at e
  · cases hx : s.task.files[id.toNat - 1]? with
    | none => rw [hx] at e; exact (by does : Does A (Verif.abortWith c _)) _ _ _ hi e
    | some y =>
      rw [hx] at e
      cases y with
      | none => exact (by does : Does A (Verif.abortWith c _)) _ _ _ hi e
      | some x =>
        obtain ⟨_, s1, e1, e2⟩ := M.bind_inv e
        have c1 : Changes K s s1 := Held.close h _ _ _ hi hx e1
        exact c1.trans ((bind (dsRd _) fun _ => he _) _ _ _ (c1.fit hi) e2)
  · exact (by does : Does A (Verif.abortWith c _)) _ _ _ hi e

theorem closeSource {c : Ctx} (hex : Does A (runHandler c)) (hsub : ∀ k, k ∈ abortKinds → k ∈ K)
    (h : .sourceClose ∈ K) : Does A (Verif.closeSource c) := by
  have ha : ∀ e, Reserved e → Does A (Verif.abortWith c e) := fun e he =>
    Does.abortWith (hsub _ (by decide)) hex e he
  unfold Verif.closeSource
  refine bind (sPop (hsub _ (by decide))) fun id => ?_
  intro s a s' hi e
  rw [M.bind_apply, getTask_apply] at e
  simp only at e
  split at e
  · exact ha _ (by decide) _ _ _ hi e
  · split at e
    · cases hs : s.task.sources[id.toNat - 1]? with
      | none => rw [hs] at e; exact ha _ (by decide) _ _ _ hi e
      | some x =>
        rw [hs] at e
        cases x with
        | none => exact ha _ (by decide) _ _ _ hi e
        | some y =>
          cases e
          exact .one h ⟨id, ‹_›, ‹_›, rfl⟩
    · exact ha _ (by decide) _ _ _ hi e

theorem loadLine_errors {c : Ctx} {id : Nat} {s t : VM} {x : Exn}
    (e : Verif.loadLine c id s = .ok (.error x, t)) : Reserved x := by
  unfold Verif.loadLine at e
  rw [M.bind_apply, getTask_apply] at e
  simp only at e
  split at e
  · cases hs : s.task.sources[id - 1]? with
    | none => rw [hs] at e; cases e; decide
    | some y =>
      rw [hs] at e
      cases y with
      | none => cases e; decide
      | some src =>
        simp only at e
        cases hl : s.task.lines[id - 1]? with
        | none => rw [hl] at e; cases e
        | some y =>
          rw [hl] at e
          cases y with
          | none => cases e; decide
          | some l =>
            simp only at e
            obtain ⟨bad, s2, e2, e⟩ := M.bind_inv e
            rw [M.bind_apply, getVM_apply] at e
            simp only at e
            split at e
            · obtain ⟨_, s3, e3, e⟩ := M.bind_inv e
              cases e; decide
            · obtain ⟨_, s3, e3, e⟩ := M.bind_inv e
              cases hd : decodeUtf8 (takeLine ((s2.host.content src.file.ino).drop src.file.pos)) with
              | some line =>
                rw [hd] at e
                obtain ⟨_, s4, e4, e⟩ := M.bind_inv e
                cases e
              | none =>
                rw [hd] at e
                obtain ⟨_, s4, e4, e⟩ := M.bind_inv e
                cases e; decide
  · cases e; decide

theorem loadLine (h : .hostCall ∈ K) (h' : .sourceRead ∈ K) (c : Ctx) (id : Nat) :
    Does A (Verif.loadLine c id) := by
  unfold Verif.loadLine
  intro s a s' hi e
  rw [M.bind_apply, getTask_apply] at e
  simp only at e
  split at e
  · cases hs : s.task.sources[id - 1]? with
    | none => rw [hs] at e; cases e; exact .refl _
    | some x =>
      rw [hs] at e
      cases x with
      | none => cases e; exact .refl _
      | some src =>
        simp only at e
        cases hl : s.task.lines[id - 1]? with
        | none => rw [hl] at e; cases e
        | some y =>
          rw [hl] at e
          cases y with
          | none => cases e; exact .refl _
          | some l =>
            simp only at e
            obtain ⟨bad, s2, e2, e'⟩ := M.bind_inv e
            clear e
            have e := e'
            clear e'
            cases e2
            rw [M.bind_apply, getVM_apply] at e
            simp only at e
            have h0 : Changes K s { s with host := { s.host with calls := s.host.calls + 1 } } :=
              .one h ⟨_, rfl⟩
            refine h0.trans ?_
            have stepL : ∀ (s s' : VM) (u : Unit) (src : Source) (l l' : List Char),
                s.task.sources[id - 1]? = some (some src) → s.task.lines[id - 1]? = some (some l) →
                modTask (fun t => { t with lines := t.lines.set (id - 1) (some l') }) s
                  = .ok (u, s') → Changes K s s' := by
              intro s s' u src l l' hs hl e
              cases e
              refine .one h' ⟨id - 1, src, l', ⟨src, hs⟩, ⟨l, hl⟩, ?_⟩
              rw [set_getElem?_self _ _ _ hs]
            split at e
            · obtain ⟨_, s3, e3, e⟩ := M.bind_inv e
              cases e
              exact stepL _ _ _ src l _ hs hl e3
            · obtain ⟨_, s3, e3, e⟩ := M.bind_inv e
              generalize ({ src with file := { src.file with pos := src.file.pos +
                (takeLine ((s.host.content src.file.ino).drop src.file.pos)).length } } : Source)
                  = src' at e3
              have hlt := (List.getElem?_eq_some_iff.1 hs).1
              have h3 : Changes K { s with host := { s.host with calls := s.host.calls + 1 } } s3 ∧
                  s3.task.sources[id - 1]? = some (some src') ∧
                  s3.task.lines[id - 1]? = some (some l) := by
                cases e3
                refine ⟨.one h' ⟨id - 1, src', l, ⟨src, hs⟩, ⟨l, hl⟩, ?_⟩, ?_, ?_⟩
                · have := set_getElem?_self _ _ _ hl
                  simp only [VM.task] at this ⊢
                  rw [this]
                · rw [VM.task_setTask]
                  exact List.getElem?_set_self hlt
                · rw [VM.task_setTask]
                  exact hl
              refine h3.1.trans ?_
              cases hd : decodeUtf8 (takeLine ((s.host.content src.file.ino).drop src.file.pos)) with
              | none =>
                rw [hd] at e
                obtain ⟨_, s4, e4, e⟩ := M.bind_inv e
                cases e
                exact stepL _ _ _ src' l _ h3.2.1 h3.2.2 e4
              | some line =>
                rw [hd] at e
                obtain ⟨_, s4, e4, e⟩ := M.bind_inv e
                cases e
                exact stepL _ _ _ src' l _ h3.2.1 h3.2.2 e4
  · cases e; exact .refl _


theorem modLast' (h : .wordLast ∈ K) (f : Word → Word) (hf : ∀ w, SameEntry w (f w)) {k : M Unit}
    (hk : Does A k) :
    Does A (Verif.getWl >>= fun wl => modWord wl.last f >>= fun _ => k) := by
  intro s a s' hi e
  rw [M.bind_apply, getWl_apply] at e
  simp only at e
  obtain ⟨u, s1, e1, e⟩ := M.bind_inv e
  have h1 := modLast h f hf s u s1 hi (by rw [M.bind_apply, getWl_apply]; exact e1)
  exact h1.trans (hk _ _ _ (h1.fit hi) e)

theorem clearInput_result {s s' : VM} {u : Unit} (h0 : s.task.st.sourceId = 0)
    (h : clearInput s = .ok (u, s')) :
    s' = s.setTask { s.task with inbuf := s.task.inbuf.map fun _ => [] } := by
  unfold clearInput at h
  have hz : ¬ 0 < (0 : Cell).toInt := by decide
  obtain ⟨b, s1, h1, h⟩ := M.bind_inv h
  simp only [takeInput, inputBuffer, setInputBuffer, h0, if_neg hz] at h1
  cases h1
  cases hb : s.task.inbuf with
  | none =>
    rw [hb] at h
    cases h
    rfl
  | some b =>
    rw [hb] at h
    simp only [Verif.putInput, setInputBuffer, VM.task_setTask, h0, if_neg hz] at h
    cases h
    rw [VM.setTask_setTask]
    rfl

/-- `reset` empties the return stack and the input text and leaves source, compile state and
error. -/
theorem reset_result {c : Ctx} {s s' : VM} {u : Unit} (h : Verif.reset c s = .ok (u, s')) :
    s' = { s.setTask { s.task with
      r := s.task.r.reset, inbuf := s.task.inbuf.map fun _ => []
      st := { s.task.st with isCompiling := false, abortedWp := 0, sourceIndex := 0, sourceId := 0 } }
      with lastError := none } := by
  unfold Verif.reset at h
  obtain ⟨_, s1, h1, h⟩ := M.bind_inv h
  cases h1
  obtain ⟨_, s2, h2, h⟩ := M.bind_inv h
  cases h2
  obtain ⟨_, s3, h3, h⟩ := M.bind_inv h
  have h4 := clearInput_result (by simp only [VM.task_setTask]) h3
  simp only [VM.task_setTask, VM.setTask_setTask] at h4
  subst h4
  obtain ⟨_, s4, h4, h⟩ := M.bind_inv h
  cases h4
  obtain ⟨_, s5, h5, h⟩ := M.bind_inv h
  cases h5
  cases h
  simp only [VM.task_setTask, VM.setTask_setTask]

theorem activate {c : Ctx} (hex : Does A (runHandler c)) (hsub : ∀ k, k ∈ abortKinds → k ∈ K)
    (h : .activate ∈ K) (h1 : .returnStack ∈ K) (h2 : .ip ∈ K) : Does A (Verif.activate c) := by
  unfold Verif.activate
  refine bind (popTaskId hsub) fun i => ?_
  cases i with
  | none =>
    simp only
    does
  | some i =>
    intro s a s' hi e
    simp only at e
    obtain ⟨_, s1, e1, e⟩ := M.bind_inv e
    cases e1
    rw [M.bind_apply, getVM_apply] at e
    simp only at e
    obtain ⟨_, s2, e2, e⟩ := M.bind_inv e
    cases e2
    obtain ⟨_, s3, e3, e⟩ := M.bind_inv e
    obtain rfl := reset_result e3
    obtain ⟨_, s4, e4, e⟩ := M.bind_inv e
    cases e4
    obtain ⟨_, s5, e5, e⟩ := M.bind_inv e
    cases e5
    have hc : Changes K s _ := .one h ⟨i, (s.setTaskAt i { s.tasks i with awake := true }).task.st.ip, rfl⟩
    refine hc.trans ?_
    refine (bind (rPop h1) fun p => setIp h2 p.toNat) _ a s' (hc.fit hi) ?_
    rw [← e]
    refine congrArg (fun x : VM => (Verif.rPop >>= fun p : Cell => Verif.setIp p.toNat) x) ?_
    simp only [VM.setTaskAt, VM.setTask, VM.task, VM.mk.injEq, true_and, and_true]
    funext j
    by_cases hj : j = i
    · simp [hj, activated]
    · simp [hj]

end Spec.Does

end Verif
