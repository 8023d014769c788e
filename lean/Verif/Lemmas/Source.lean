import Verif.Lemmas.CompileAll
import Verif.Lemmas.NumberWords
import Verif.Lemmas.Text
import Verif.Spec.Source

/-!
# Compiling from source text
-/

namespace Verif
open Spec Stack

/-- The machine at another place of its input, with another token and word pointer. -/
def VM.seen (s : VM) (n : Nat) (tk : List Char) (wp : Nat) : VM :=
  (s.setTask { s.task with st := { s.task.st with sourceIndex := n, wp := wp } }).setTkn (some tk)

@[simp] theorem VM.seen_ds (s : VM) (n : Nat) (tk : List Char) (wp : Nat) : (s.seen n tk wp).ds = s.ds := rfl
@[simp] theorem VM.seen_wl (s : VM) (n : Nat) (tk : List Char) (wp : Nat) : (s.seen n tk wp).wl = s.wl := rfl
@[simp] theorem VM.seen_refs (s : VM) (n : Nat) (tk : List Char) (wp : Nat) :
    (s.seen n tk wp).refs = s.refs := rfl
@[simp] theorem VM.seen_err (s : VM) (n : Nat) (tk : List Char) (wp : Nat) :
    (s.seen n tk wp).lastError = s.lastError := rfl
@[simp] theorem VM.seen_tkn (s : VM) (n : Nat) (tk : List Char) (wp : Nat) :
    (s.seen n tk wp).tkn = some tk := rfl
@[simp] theorem VM.seen_task (s : VM) (n : Nat) (tk : List Char) (wp : Nat) :
    (s.seen n tk wp).task = { s.task with st := { s.task.st with sourceIndex := n, wp := wp } } :=
  VM.task_setTask s _
@[simp] theorem VM.code_err (s : VM) (x : Buf) : (s.code x).lastError = s.lastError := rfl
@[simp] theorem VM.code_tkn (s : VM) (x : Buf) : (s.code x).tkn = s.tkn := rfl

theorem VM.code_setTkn (s : VM) (x : Buf) (t : Option (List Char)) :
    (s.code x).setTkn t = (s.setTkn t).code x := rfl

theorem VM.seen_setTkn (s : VM) (n : Nat) (tk tk' : List Char) (wp : Nat) :
    (s.seen n tk wp).setTkn (some tk') = s.seen n tk' wp := rfl

theorem VM.code_setTask (s : VM) (x : Buf) (t : Task) :
    (s.code x).setTask { t with c := x.2 } = (s.setTask t).code x := by
  have h1 : (s.code x).setTask { t with c := x.2 } =
      { (s.setTask { s.task with c := x.2 }).setTask { t with c := x.2 } with ds := x.1 } := rfl
  have h2 : (s.setTask t).code x =
      { (s.setTask t).setTask { (s.setTask t).task with c := x.2 } with ds := x.1 } := rfl
  rw [h1, h2, VM.setTask_setTask, VM.setTask_setTask, VM.task_setTask]

theorem VM.seen_seen (s : VM) (n n' : Nat) (tk tk' : List Char) (wp wp' : Nat) :
    (s.seen n tk wp).seen n' tk' wp' = s.seen n' tk' wp' := by
  have h1 : (s.seen n tk wp).seen n' tk' wp' = (((s.setTask { s.task with
      st := { s.task.st with sourceIndex := n, wp := wp } }).setTask { (s.seen n tk wp).task with
      st := { (s.seen n tk wp).task.st with sourceIndex := n', wp := wp' } })).setTkn (some tk') := rfl
  rw [h1, VM.setTask_setTask, VM.seen_task]
  rfl

/-- Reading the next token. -/
theorem seen_parseWord {s : VM} {x : Buf} {pre bs t rest tk : List Char} {wp : Nat}
    (hi : inputBuffer s.task = .ok (some (pre ++ (bs ++ (t ++ rest)))))
    (hlt : byteLen (pre ++ (bs ++ (t ++ rest))) < 2 ^ 63)
    (hb : ∀ ch ∈ bs, Blank ch) (hne : t ≠ []) (hnb : ∀ ch ∈ t, ¬ Blank ch) (he : EndsToken rest) :
    parseWord ((s.seen (byteLen pre) tk wp).code x) =
      .ok ((), (s.seen (byteLen (pre ++ (bs ++ t))) t wp).code x) := by
  have hsc : scanWord (bs ++ (t ++ rest)) 0 [] = (t, byteLen (bs ++ t)) := by
    rw [scanWord_blank _ _ _ hb, scanWord_word t rest _ [] hnb he (.inl hne)]
    simp
  have hr : Reading ((s.seen (byteLen pre) tk wp).code x).task pre (bs ++ (t ++ rest)) := by
    refine ⟨?_, by simp, hlt⟩
    rw [← hi]
    simp only [VM.code_task, VM.seen_task, inputBuffer]
  rw [parseWord_reading hr rfl (fun _ => hsc) (by intro h; simp at h; exact absurd h.2.1 hne)]
  have e : atPosition ((s.seen (byteLen pre) tk wp).code x).task (byteLen pre + byteLen (bs ++ t)) =
      { (atPosition (s.seen (byteLen pre) tk wp).task (byteLen pre + byteLen (bs ++ t))) with c := x.2 } := by
    rw [VM.code_task]; rfl
  rw [e, VM.code_setTask, VM.code_setTkn]
  have e2 : ((s.seen (byteLen pre) tk wp).setTask (atPosition (s.seen (byteLen pre) tk wp).task
      (byteLen pre + byteLen (bs ++ t)))).setTkn (some t) = s.seen (byteLen (pre ++ (bs ++ t))) t wp := by
    rw [← VM.seen_seen s (byteLen pre) (byteLen (pre ++ (bs ++ t))) tk t wp wp]
    have e3 : atPosition (s.seen (byteLen pre) tk wp).task (byteLen pre + byteLen (bs ++ t)) =
        { (s.seen (byteLen pre) tk wp).task with st := { (s.seen (byteLen pre) tk wp).task.st with
          sourceIndex := byteLen (pre ++ (bs ++ t)), wp := wp } } := by
      rw [VM.seen_task, byteLen_append pre]
      rfl
    rw [e3]
    rfl
  rw [e2]

/-- What `find` needs has not changed. -/
structure Kept (base : Stack Control) (s : VM) (x : Buf) : Prop where
  same : Same (s.ds, s.task.c) x (· < s.ds.here)
  here : s.ds.here ≤ x.1.here
  ready : ∃ K e, Ready base K x e

theorem Kept.dict {base : Stack Control} {s : VM} {x : Buf} (h : Kept base s x) (hd : Dict s) (n : Nat)
    (tk : List Char) (wp : Nat) : Dict ((s.seen n tk wp).code x) :=
  hd.frame (l := 0) (hd.intact h.here h.same.bytes) h.same.start rfl rfl (.refl _ _ _)

theorem Kept.inSpace {base : Stack Control} {s : VM} {x : Buf} (h : Kept base s x) (n : Nat)
    (tk : List Char) (wp : Nat) : InSpace ((s.seen n tk wp).code x) := by
  obtain ⟨K, e, hr⟩ := h.ready
  exact ⟨hr.space.small, hr.space.inside⟩

theorem newest_same_words {s t : VM} (hw : t.wl = s.wl) (hn : ∀ (i : Nat) w, s.wl.words[i]? = some w → nameIn t.ds w = nameIn s.ds w)
    (name : List Byte) (r : Option Nat) : Newest t name r ↔ Newest s name r := by
  have hv : ∀ i, Visible t name i ↔ Visible s name i := by
    intro i
    simp only [Visible, hw]
    constructor
    · rintro ⟨h1, w, h2, h3, h4⟩
      exact ⟨h1, w, h2, h3, hn i w h2 ▸ h4⟩
    · rintro ⟨h1, w, h2, h3, h4⟩
      exact ⟨h1, w, h2, h3, (hn i w h2).symm ▸ h4⟩
  cases r with
  | none => simp only [Newest, hv]
  | some i => simp only [Newest, hv]

theorem Kept.find {base : Stack Control} {s : VM} {x : Buf} (h : Kept base s x) (hd : Dict s) (c : Ctx)
    {name : List Byte} {r : Option Nat} (hr : Newest s name r)
    {u : VM} (hu1 : u.wl = s.wl) (hu2 : u.ds = x.1) : find c name u = .ok (r, u) := by
  obtain ⟨r', h1, h2⟩ := (h.dict hd 0 [] 0).find (h.inSpace 0 [] 0) c name
  have h3 : Newest s name r' := (newest_same_words (s := s) (t := (s.seen 0 [] 0).code x) rfl (fun i w hw => by
    refine (nameIn_same (v := w) (w := w) rfl fun z _ hz => h.same.bytes z ?_).2
    have := hd.high i w hw; have := hd.top i w hw
    simp only at *
    omega) name r').1 h2
  rw [Newest.unique hr h3]
  exact find_congr (by simp [hu1]) (by simp [hu2]) h1

theorem VM.noError_self {s : VM} (h : s.lastError = none) : { s with lastError := none } = s := by
  cases s; simp only at h; simp [h]

theorem VM.setWp_code (s : VM) (x : Buf) (n : Nat) (tk : List Char) (wp i : Nat) :
    ((s.seen n tk wp).code x).setTask { ((s.seen n tk wp).code x).task with
      st := { ((s.seen n tk wp).code x).task.st with wp := i } } = (s.seen n tk i).code x := by
  have e : ({ ((s.seen n tk wp).code x).task with
      st := { ((s.seen n tk wp).code x).task.st with wp := i } } : Task) =
      { ({ (s.seen n tk wp).task with st := { (s.seen n tk wp).task.st with wp := i } } : Task) with c := x.2 } := by
    rw [VM.code_task]
  rw [e, VM.code_setTask]
  have e2 : (s.seen n tk wp).setTask { (s.seen n tk wp).task with
      st := { (s.seen n tk wp).task.st with wp := i } } = s.seen n tk i := by
    rw [← VM.seen_seen s n n tk tk wp i]
    have e3 : ({ (s.seen n tk wp).task with st := { (s.seen n tk wp).task.st with wp := i } } : Task) =
        { (s.seen n tk wp).task with st := { (s.seen n tk wp).task.st with sourceIndex := n, wp := i } } := by
      rw [VM.seen_task]
    rw [e3]
    rfl
  rw [e2]

/-- Running an immediate word, as far as its action. -/
theorem execWord_seen {cfg : Cfg} {depth : Nat} {s : VM} {x : Buf} {n wp i : Nat} {tk : List Char} {w : Word}
    (hw : s.wl.words[i]? = some w) :
    execWord cfg (depth + 1) i ((s.seen n tk wp).code x) =
      action ⟨cfg, execWord cfg depth⟩ w.action ((s.seen n tk i).code x) := by
  simp only [execWord, M.bind_apply, modSt_apply, VM.setWp_code, getWl_apply, VM.code_wl, VM.seen_wl, hw]

theorem Spec.Typing.composing {s : VM} (h : Typing s) : Composing s := ⟨h.compiling, h.noError, h.dict, h.space⟩

section
variable {cfg : Cfg} {depth : Nat} {base : Stack Control} {s : VM} {x y : Buf}

/-- The start of `compile_token` for a known word. -/
theorem compileToken_found (hT : Composing s) (hk : Kept base s x) {n wp i : Nat} {t : List Char} {w : Word}
    (hn : Newest s (utf8 t) (some i)) (hw : s.wl.words[i]? = some w) (c : Ctx) :
    compileToken c ((s.seen n t wp).code x) =
      (if w.isImmediate then c.ex i else compSemRun c w.compSem i) ((s.seen n t wp).code x) := by
  have hf := hk.find hT.dict c hn (u := ((s.seen n t wp).code x).setTkn none) rfl rfl
  unfold compileToken
  rw [M.bind_ok (takeToken_run (t := t) rfl)]
  rw [M.bind_ok hf]
  have e : (((s.seen n t wp).code x).setTkn none).setTkn (some t) = (s.seen n t wp).code x := rfl
  simp only [M.bind_apply, putToken_run, e]
  rw [wordAt_ok (s := (s.seen n t wp).code x) (w := w) hw]

theorem Kept.baseCell (h : Kept base s x) (hT : Composing s) :
    x.1.getCell x.1.baseAddr = .ok (s.ds.cellAt s.ds.baseAddr) := by
  have h1 := hT.space.vars; have h2 := h.here
  have hst := h.same.start
  obtain ⟨K, e, hr⟩ := h.ready
  have h3 := hr.space.inside
  simp only at hst
  have hv : x.1.valid x.1.baseAddr 8 := by
    simp only [DataSpace.here] at h2
    unfold DataSpace.valid DataSpace.baseAddr DataSpace.limit; omega
  have hb : x.1.baseAddr = s.ds.baseAddr := by simp only [DataSpace.baseAddr, hst]
  rw [DataSpace.getCell, if_pos hv, hb]
  congr 1
  refine DataSpace.cellAt_congr fun z h1 h2 => h.same.bytes z ?_
  simp only [DataSpace.here, DataSpace.baseAddr] at *
  omega

theorem spells_compile (hT : Composing s) (hk : Kept base s x) {t : List Char} {i : Item}
    (hs : Spells cfg.fops s t i) (hfl : s.refs.flit ≠ 0)
    (hg : ∀ c : Ctx, c.oc = cfg.overflowChecks → Gen s.refs s.wl (i.run c) x y) (n wp : Nat) :
    ∃ wp', evalToken (ctx cfg (depth + 1)) ((s.seen n t wp).code x) = .ok ((), (s.seen n t wp').code y) := by
  have hc : ((s.seen n t wp).code x).task.st.isCompiling = true := by
    rw [VM.code_task, VM.seen_task]; exact hT.compiling
  have he : evalToken (ctx cfg (depth + 1)) ((s.seen n t wp).code x) =
      compileToken (ctx cfg (depth + 1)) ((s.seen n t wp).code x) := by
    simp only [evalToken, M.bind_apply, getSt_apply, hc, if_true]
  rw [he]
  cases hs with
  | @word j w h1 h2 h3 =>
    refine ⟨wp, ?_⟩
    rw [compileToken_found hT hk h1 h2, h3]
    have := hg (ctx cfg (depth + 1)) rfl (s.seen n t wp) rfl rfl
    simp only [Item.run, M.bind_apply] at this
    rw [wordAt_ok (s := (s.seen n t wp).code x) (w := w) h2] at this
    simpa using this
  | @imm j w p h1 h2 h3 h4 =>
    refine ⟨j, ?_⟩
    rw [compileToken_found hT hk h1 h2, h3]
    simp only [if_true, ctx]
    rw [execWord_seen h2, h4]
    exact hg ⟨cfg, execWord cfg depth⟩ rfl (s.seen n t j) rfl rfl
  | @lit v h1 h2 =>
    refine ⟨wp, ?_⟩
    have hf := hk.find hT.dict (ctx cfg (depth + 1)) h1 (u := ((s.seen n t wp).code x).setTkn none) rfl rfl
    unfold compileToken
    rw [M.bind_ok (takeToken_run (t := t) rfl)]
    rw [M.bind_ok hf]
    have e1 : ({ (((s.seen n t wp).code x).setTkn none) with lastError := none } : VM) =
        ((s.seen n t wp).setTkn none).code x := VM.noError_self (s := ((s.seen n t wp).code x).setTkn none) hT.noError
    have hv : integerValue (s.ds.cellAt s.ds.baseAddr) (utf8 t) = some v := (integerValue_iff _ _ _).2 h2
    have hg' := hg (ctx cfg (depth + 1)) rfl ((s.seen n t wp).setTkn none) rfl rfl
    have hb := hk.baseCell hT
    simp only [evaluateNumber, M.bind_apply, setError_apply, e1, evaluateInteger]
    rw [dsRd_ok (by rw [VM.code_ds]; exact hb)]
    simp only [hv, M.bind_apply, getSt_apply]
    have hc' : (((s.seen n t wp).setTkn none).code x).task.st.isCompiling = true := hc
    rw [if_pos hc']
    have hg2 : compileInteger (ctx cfg (depth + 1)) v (((s.seen n t wp).setTkn none).code x) =
      .ok ((), (((s.seen n t wp).setTkn none).code y)) := hg'
    rw [hg2]
    simp only [getError_apply]
    have he' : (((s.seen n t wp).setTkn none).code y).lastError = none := hT.noError
    rw [he']
    rfl
  | @flt v h1 h2 h3 =>
    refine ⟨wp, ?_⟩
    have hf := hk.find hT.dict (ctx cfg (depth + 1)) h1 (u := ((s.seen n t wp).code x).setTkn none) rfl rfl
    unfold compileToken
    rw [M.bind_ok (takeToken_run (t := t) rfl)]
    rw [M.bind_ok hf]
    have e1 : ({ (((s.seen n t wp).code x).setTkn none) with lastError := none } : VM) =
        ((s.seen n t wp).setTkn none).code x := VM.noError_self (s := ((s.seen n t wp).code x).setTkn none) hT.noError
    have hv : integerValue (s.ds.cellAt s.ds.baseAddr) (utf8 t) = none := by
      cases hh : integerValue (s.ds.cellAt s.ds.baseAddr) (utf8 t) with
      | none => rfl
      | some z => exact absurd ((integerValue_iff _ _ _).1 hh) (h2 z)
    have hv2 : floatValue cfg.fops (utf8 t) = .ok v := (floatValue_iff _ _ _).2 h3
    have hg' := hg (ctx cfg (depth + 1)) rfl ((s.seen n t wp).setTkn none) rfl rfl
    have hb := hk.baseCell hT
    have i1 : evaluateInteger (ctx cfg (depth + 1)) (utf8 t) (((s.seen n t wp).setTkn none).code x) =
        .ok ((), (((s.seen n t wp).setTkn none).code x).setErr (some .resultOutOfRange)) := by
      simp only [evaluateInteger, M.bind_apply]
      rw [dsRd_ok (by rw [VM.code_ds]; exact hb)]
      simp only [hv]
      rfl
    have hc' : (((s.seen n t wp).setTkn none).code x).task.st.isCompiling = true := hc
    have i2 : evaluateFloat (ctx cfg (depth + 1)) (utf8 t) (((s.seen n t wp).setTkn none).code x) =
        .ok ((), ((s.seen n t wp).setTkn none).code y) := by
      simp only [evaluateFloat, ctx, hv2, M.bind_apply, getRefs_apply, VM.code_refs]
      have hfl' : ¬ ((s.seen n t wp).setTkn none).refs.flit = 0 := hfl
      rw [if_neg hfl']
      simp only [M.bind_apply, getSt_apply, hc', if_true]
      exact hg'
    have he' : (((s.seen n t wp).setTkn none).code y).lastError = none := hT.noError
    simp only [evaluateNumber, M.bind_apply, setError_apply, e1, i1, getError_apply]
    have e2 : ({ ((((s.seen n t wp).setTkn none).code x).setErr (some .resultOutOfRange)) with
        lastError := none } : VM) = ((s.seen n t wp).setTkn none).code x := e1
    have e4 : ((((s.seen n t wp).setTkn none).code x).setErr (some .resultOutOfRange)).lastError =
        some .resultOutOfRange := rfl
    simp only [e4, M.bind_apply, setError_apply, e2, i2, getError_apply, he']
    rfl

theorem untilQuote_eq : ∀ (cs rest : List Char), '"' ∉ cs → untilQuote (cs ++ '"' :: rest) = cs
  | [], _, _ => by simp [untilQuote]
  | c :: cs, rest, h => by
    simp only [List.mem_cons, not_or] at h
    simp [untilQuote, Ne.symm h.1, untilQuote_eq cs rest h.2]

theorem byteLen_blank {b : Char} (h : Blank b) : b.utf8Size = 1 := by
  rcases h with h | h | h | h <;> subst h <;> decide

/-- `s"` reads its string from the input and compiles it. -/
theorem sQuote_compile {c : Ctx} {pre cs text t : List Char} {b : Char} {i : Nat}
    (hi : inputBuffer s.task = .ok (some (pre ++ (b :: (cs ++ '"' :: text)))))
    (hlt : byteLen (pre ++ (b :: (cs ++ '"' :: text))) < 2 ^ 63) (hb : Blank b) (hq : '"' ∉ cs)
    (hg : Gen s.refs s.wl (Item.run c (.str (utf8 cs))) x y) :
    sQuote c ((s.seen (byteLen pre) t i).code x) =
      .ok ((), (s.seen (byteLen (pre ++ (b :: (cs ++ ['"'])))) t i).code y) := by
  have hb1 := byteLen_blank hb
  have hib : inputBuffer ((s.seen (byteLen pre) t i).code x).task = .ok (some (pre ++ (b :: (cs ++ '"' :: text)))) := by
    rw [← hi]; simp only [VM.code_task, VM.seen_task, inputBuffer]
  obtain ⟨tk, k1, k2, k3, _⟩ := takeInput_ok hib
  have hset := setInputBuffer_other k1
  have k1' := k1
  rw [VM.code_task] at k1'
  -- the machine without its input buffer
  obtain ⟨u, hu, hur, huw, hu0⟩ : ∃ u : VM, ((s.seen (byteLen pre) t i).code x).setTask tk = u.code x ∧
      u.refs = s.refs ∧ u.wl = s.wl ∧ u = (s.seen (byteLen pre) t i).setTask
        { (s.seen (byteLen pre) t i).task with lines := tk.lines, inbuf := tk.inbuf } := by
    refine ⟨(s.seen (byteLen pre) t i).setTask
        { (s.seen (byteLen pre) t i).task with lines := tk.lines, inbuf := tk.inbuf }, ?_, rfl, rfl, rfl⟩
    rw [← VM.code_setTask]
    congr 1
    rw [hset, VM.code_task]
  have hg' := hg u hur huw
  simp only [Item.run] at hg'
  obtain ⟨r, s1, e1, hg'⟩ := M.bind_inv hg'
  rw [getRefs_apply] at e1
  cases e1
  obtain ⟨w, s2, e2, hg'⟩ := M.bind_inv hg'
  obtain ⟨_, s3, e3, hg'⟩ := M.bind_inv hg'
  obtain ⟨_, s4, e4, hg'⟩ := M.bind_inv hg'
  have hst : u.task.st.sourceIndex = byteLen pre ∧ u.task.st.sourceId = s.task.st.sourceId ∧ u.task.lines = tk.lines ∧ u.task.inbuf = tk.inbuf := by
    have h1 : (u.code x).task = tk := by rw [← hu, VM.task_setTask]
    rw [VM.code_task] at h1
    refine ⟨?_, ?_, ?_, ?_⟩
    · have : tk.st.sourceIndex = byteLen pre := by rw [k3, VM.code_task, VM.seen_task]
      rw [← this, ← h1]
    · have : tk.st.sourceId = s.task.st.sourceId := by rw [k3, VM.code_task, VM.seen_task]
      rw [← this, ← h1]
    · rw [← h1]
    · rw [← h1]
  have hsl : sliceBytes (pre ++ (b :: (cs ++ '"' :: text))) (byteLen pre + 1)
      (byteLen (pre ++ (b :: (cs ++ '"' :: text)))) = some (cs ++ '"' :: text) := by
    have a1 := splitAtByte_append (pre ++ (b :: (cs ++ '"' :: text))) []
    have a2 := splitAtByte_append (pre ++ [b]) (cs ++ '"' :: text)
    simp only [List.append_nil] at a1
    have a3 : byteLen (pre ++ [b]) = byteLen pre + 1 := by simp [byteLen, hb1]
    rw [a3] at a2
    have a4 : pre ++ [b] ++ (cs ++ '"' :: text) = pre ++ (b :: (cs ++ '"' :: text)) := by simp
    rw [a4] at a2
    have a5 : ¬ byteLen (pre ++ (b :: (cs ++ '"' :: text))) < byteLen pre + 1 := by
      simp [byteLen, hb1] <;> omega
    simp only [sliceBytes, if_neg a5, a1, a2]
  have hua : uadd c.oc u.task.st.sourceIndex 1 = .ok (byteLen pre + 1) := by
    rw [hst.1]
    refine uadd_ok ?_
    have : usizeMod = 2 ^ 64 := rfl
    rw [byteLen_append] at hlt
    omega
  unfold sQuote takeInputE
  simp only [M.bind_apply, k2, M.pure_apply, getSt_apply, hu, VM.code_task, hua, liftE_ok, sliceM, hsl,
    untilQuote_eq _ _ hq, getRefs_apply]
  rw [e2]
  simp only
  rw [e3]
  simp only
  rw [e4]
  simp only
  rw [hg']
  simp only [modSt_apply, VM.code_task]
  rw [putInput_back' (s := (s.seen (byteLen pre) t i).code x) (t := tk) k1 hib (by simp [hst]) (by simp [hst])
    (by simp [hst])]
  simp only [VM.task_setTask, VM.setTask_setTask]
  have f1 : ∀ n T, T = (s.seen n t i).task → (u.code y).setTask { T with c := y.2 } = (s.seen n t i).code y := by
    intro n T hT
    rw [VM.code_setTask, hu0, VM.setTask_setTask, hT]
    congr 1
    rw [← VM.seen_seen s (byteLen pre) n t t i i]
    simp only [VM.seen_seen]
    have : (s.seen n t i).task = { (s.seen (byteLen pre) t i).task with
        st := { (s.seen (byteLen pre) t i).task.st with sourceIndex := n, wp := i } } := by
      rw [VM.seen_task, VM.seen_task]
    rw [this, ← VM.seen_seen s (byteLen pre) n t t i i]
    rfl
  rw [← f1 (byteLen (pre ++ (b :: (cs ++ ['"'])))) _ rfl]
  have hn : byteLen (pre ++ (b :: (cs ++ ['"']))) = byteLen pre + 1 + byteLen cs + 1 := by
    have : ('"' : Char).utf8Size = 1 := by decide
    simp [byteLen, hb1, this]; omega
  have hu1 : u.task = { (s.seen (byteLen pre) t i).task with lines := tk.lines, inbuf := tk.inbuf } := by
    rw [hu0, VM.task_setTask]
  rw [hu1, hn]
  simp only [VM.seen_task, VM.code_task]

/-! ### Between two tokens -/

theorem idle_run {s : VM} (h : Idle s) (fuel : Nat) : run cfg depth (fuel + 1) s = .ok ((), s) := by
  have hr : ipOk cfg.overflowChecks s.ds s.task.st.ip = .ok false := by
    obtain ⟨h1, h2⟩ := h
    simp only [pc] at h1 h2
    have hu : usizeMod = 2 ^ 64 := rfl
    simp only [ipOk, rangeOk]
    by_cases hl : s.ds.start ≤ s.task.st.ip
    · rw [if_pos hl, uadd_ok (by omega)]
      simp; omega
    · rw [if_neg hl]
  simp only [run, step, M.bind_apply, getSt_apply]
  rw [dsRd_ok hr]
  rfl

theorem Spec.Calm.overflow {α : Type} [DecidableEq α] {st : Stack α} (h : Calm st) : st.overflow = false := by
  have h1 := h.depth
  have h2 := h.over
  rw [Stack.items_length] at h1
  simp only [capacity] at h1
  simp only [Stack.overflow, h2]; simp; omega

theorem Spec.Calm.underflow {α : Type} [DecidableEq α] {st : Stack α} (h : Calm st) : st.underflow = false := by
  have h1 := h.depth
  have h2 := h.under
  rw [Stack.items_length] at h1
  simp only [capacity] at h1
  simp only [Stack.underflow, h2]; simp; omega

theorem calm_check {c : Ctx} {s : VM} (h1 : Calm s.task.s) (h2 : Calm s.task.r) (h3 : Calm s.task.c)
    (h4 : Calm s.task.f) : checkStacks c s = .ok ((), s) := by
  simp [checkStacks, h1.overflow, h1.underflow, h2.overflow, h2.underflow, h3.overflow, h3.underflow,
    h4.overflow, h4.underflow]

theorem Ready.calm {K : List Control} {a : Nat} (h : Ready base K x a) (hb : Calm base) : Calm x.2 := by
  have hl := h.ctl.len
  have e : ∀ j : BitVec 8, 64 ≤ j.toNat → x.2.inner j = base.inner j := by
    intro j hj
    rw [h.ctl.like.slots j (.inr hj)]
    simp only [holding]
    rw [if_neg (by omega)]
  refine ⟨?_, ?_, ?_⟩
  · rw [h.ctl.rep.items_eq]; exact hl
  · rw [e 64 (by decide), h.ctl.like.canary]; exact hb.over
  · rw [e 255 (by decide), h.ctl.like.canary]; exact hb.under

/-- One turn of the outer interpreter. -/
theorem turn_compile (hT : Typing s) {K : List Control} {e : Nat} (hr : Ready s.task.c K y e)
    {n n' n'' wp wp' : Nat} {tk t : List Char}
    (h1 : parseWord ((s.seen n tk wp).code x) = .ok ((), (s.seen n' t wp).code x)) (hne : t ≠ [])
    (h2 : evalToken (ctx cfg (depth + 1)) ((s.seen n' t wp).code x) = .ok ((), (s.seen n'' t wp').code y))
    (hst : y.1.start = s.ds.start) (hcap : y.1.cap = s.ds.cap)
    (fuel : Nat) :
    evaluateInput cfg (depth + 1) (fuel + 2) ((s.seen n tk wp).code x) =
      evaluateInput cfg (depth + 1) (fuel + 1) ((s.seen n'' t wp').code y) := by
  have hE : ((s.seen n'' t wp').code y).lastError = none := hT.noError
  have hI : Idle ((s.seen n'' t wp').code y) := by
    have := hT.idle
    simp only [Idle, pc, VM.code_task, VM.seen_task, VM.code_ds, DataSpace.limit, hst, hcap] at *
    exact this
  have hK : checkStacks (ctx cfg (depth + 1)) ((s.seen n'' t wp').code y) = .ok ((), (s.seen n'' t wp').code y) := by
    apply calm_check <;> rw [VM.code_task]
    · rw [VM.seen_task]; exact hT.data
    · rw [VM.seen_task]; exact hT.ret
    · exact hr.calm hT.control
    · rw [VM.seen_task]; exact hT.floats
  have hne' : ¬ ((s.seen n' t wp).code x).tkn = some [] := by
    simp [hne]
  conv => lhs; unfold evaluateInput
  simp only [M.bind_apply, h1, getVM_apply]
  rw [if_neg hne']
  simp only [M.bind_apply, h2, getError_apply, hE, Option.isSome_none, Bool.false_eq_true, if_false, idle_run hI, hK]

theorem Kept.next (h : Kept s.task.c s x) {K : List Control} {e : Nat} (hr : Ready s.task.c K y e)
    (he : s.ds.here ≤ e) (hs : Same x y (· < s.ds.here)) : Kept s.task.c s y :=
  ⟨h.same.trans hs fun _ hn => ⟨hn, hn⟩, by rw [hr.here]; exact he, K, e, hr⟩

/-- Compiling from text compiles the items the text spells. -/
theorem source_compile (hT : Typing s) (hfl : s.refs.flit ≠ 0) {text rest : List Char} {items : List Item}
    (hS : Written cfg.fops s text items rest) : ∀ {x y : Buf} {pre tk : List Char} {wp : Nat},
    Gens cfg.overflowChecks s.refs s.wl s.task.c s.ds.here items x y → Kept s.task.c s x →
    inputBuffer s.task = .ok (some (pre ++ text)) → byteLen (pre ++ text) < 2 ^ 63 →
    ∃ pre' tk' wp', pre ++ text = pre' ++ rest ∧ Kept s.task.c s y ∧ ∀ fuel,
      evaluateInput cfg (depth + 2) (fuel + 1 + items.length) ((s.seen (byteLen pre) tk wp).code x) =
        evaluateInput cfg (depth + 2) (fuel + 1) ((s.seen (byteLen pre') tk' wp').code y) := by
  induction hS with
  | done =>
    intro x y pre tk wp hg hk hi hlt
    cases hg
    exact ⟨pre, tk, wp, rfl, hk, fun _ => rfl⟩
  | @token bs t text rest i l hb hne hnb he hs _ ih =>
    intro x y pre tk wp hg hk hi hlt
    cases hg with
    | @cons _ _ _ z _ K e g1 g2 g3 g4 g5 =>
      have hk' := hk.next g2 g3 g4
      obtain ⟨wp', e1⟩ := spells_compile (depth := depth + 1) hT.composing hk hs hfl g1 (byteLen (pre ++ (bs ++ t))) wp
      have ht := fun fuel => turn_compile (depth := depth + 1) hT g2
        (seen_parseWord (x := x) (tk := tk) (wp := wp) hi hlt hb hne hnb he) hne e1 hk'.same.start hk'.same.cap fuel
      have ea : (pre ++ (bs ++ t)) ++ text = pre ++ (bs ++ (t ++ text)) := by simp
      obtain ⟨pre', tk', wp'', f1, f2, f3⟩ := ih (pre := pre ++ (bs ++ t)) (tk := t) (wp := wp') g5 hk'
        (by rw [ea]; exact hi) (by rw [ea]; exact hlt)
      refine ⟨pre', tk', wp'', by rw [← ea]; exact f1, f2, fun fuel => ?_⟩
      rw [← f3 fuel, List.length_cons]
      have := ht (fuel + l.length)
      rw [show fuel + l.length + 2 = fuel + 1 + (l.length + 1) by omega,
        show fuel + l.length + 1 = fuel + 1 + l.length by omega] at this
      exact this
  | @string bs t cs text rest b i w l hb hne hnb hbl hn hw him ha hq _ ih =>
    intro x y pre tk wp hg hk hi hlt
    cases hg with
    | @cons _ _ _ z _ K e g1 g2 g3 g4 g5 =>
      have hk' := hk.next g2 g3 g4
      have ea : (pre ++ (bs ++ t)) ++ (b :: (cs ++ '"' :: text)) = pre ++ (bs ++ (t ++ (b :: (cs ++ '"' :: text)))) := by
        simp
      have hc : ((s.seen (byteLen (pre ++ (bs ++ t))) t wp).code x).task.st.isCompiling = true := by
        rw [VM.code_task, VM.seen_task]; exact hT.compiling
      have e1 : evalToken (ctx cfg (depth + 2)) ((s.seen (byteLen (pre ++ (bs ++ t))) t wp).code x) =
          .ok ((), (s.seen (byteLen ((pre ++ (bs ++ t)) ++ (b :: (cs ++ ['"'])))) t i).code z) := by
        simp only [evalToken, M.bind_apply, getSt_apply, hc, if_true]
        rw [compileToken_found hT.composing hk hn hw, him]
        simp only [if_true, ctx]
        rw [execWord_seen hw, ha]
        exact sQuote_compile (by rw [ea]; exact hi) (by rw [ea]; exact hlt) hbl hq (g1 _ rfl)
      have ht := fun fuel => turn_compile (depth := depth + 1) hT g2
        (seen_parseWord (x := x) (tk := tk) (wp := wp) hi hlt hb hne hnb
          (fun ch cs h => by cases h; exact hbl)) hne e1 hk'.same.start hk'.same.cap fuel
      have eb : (pre ++ (bs ++ t)) ++ (b :: (cs ++ ['"'])) ++ text = pre ++ (bs ++ (t ++ (b :: (cs ++ '"' :: text)))) := by
        simp
      obtain ⟨pre', tk', wp'', f1, f2, f3⟩ := ih (pre := (pre ++ (bs ++ t)) ++ (b :: (cs ++ ['"']))) (tk := t)
        (wp := i) g5 hk' (by rw [eb]; exact hi) (by rw [eb]; exact hlt)
      refine ⟨pre', tk', wp'', by rw [← eb]; exact f1, f2, fun fuel => ?_⟩
      rw [← f3 fuel, List.length_cons]
      have := ht (fuel + l.length)
      rw [show fuel + l.length + 2 = fuel + 1 + (l.length + 1) by omega,
        show fuel + l.length + 1 = fuel + 1 + l.length by omega] at this
      exact this

end

end Verif
