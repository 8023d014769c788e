import Verif.Lemmas.Definition
import Verif.Lemmas.Run
import Verif.Lemmas.Quoting
import Verif.Spec.Script

/-!
# Compiling definitions with all that core.fth makes use of
-/

namespace Verif
open Spec Stack

section
variable {s t u : VM}

theorem Twin.task (h : Twin s t) : t.task = { s.task with s := t.task.s, r := t.task.r } := by
  have := congrArg VM.task h.eq
  rwa [VM.task_setTask] at this
theorem Twin.ds (h : Twin s t) : t.ds = s.ds := by rw [h.eq]; rfl
theorem Twin.wl (h : Twin s t) : t.wl = s.wl := by rw [h.eq]; rfl
theorem Twin.refs (h : Twin s t) : t.refs = s.refs := by rw [h.eq]; rfl
theorem Twin.err (h : Twin s t) : t.lastError = s.lastError := by rw [h.eq]; rfl
theorem Twin.dat (h : Twin s t) : Spec.data t = Spec.data s := h.data.items
theorem Twin.rets (h : Twin s t) : Spec.ret t = Spec.ret s := h.ret.items

theorem Twin.trans (h : Twin s t) (k : Twin t u) : Twin s u := by
  refine ⟨?_, k.data.trans h.data, k.ret.trans h.ret⟩
  have e := k.eq
  rw [h.task, h.eq, VM.setTask_setTask] at e
  exact e

theorem Twin.mk' {a b : Stack Cell} (h1 : LikeStack a s.task.s) (h2 : LikeStack b s.task.r) :
    Twin s (s.setTask { s.task with s := a, r := b }) :=
  ⟨by rw [VM.task_setTask], by rw [VM.task_setTask]; exact h1, by rw [VM.task_setTask]; exact h2⟩

theorem Twin.newest (h : Twin s t) (nm : List Byte) (r : Option Nat) : Newest t nm r ↔ Newest s nm r :=
  newest_same_words h.wl (fun i w _ => by rw [h.ds]) nm r

theorem Twin.typing (h : Twin s t) (hT : Typing s) : Typing t := by
  have e := h.task
  refine ⟨by rw [e]; exact hT.compiling, by rw [h.err]; exact hT.noError, ?_, hT.dict.congr h.wl h.ds, by rw [h.ds]; exact hT.space,
    h.data.calm hT.data, h.ret.calm hT.ret, by rw [e]; exact hT.floats, by rw [e]; exact hT.control⟩
  have e : pc t = pc s := by simp only [pc]; rw [h.task]
  have := hT.idle
  rw [Idle, ← e, ← h.ds] at this
  exact this

theorem Twin.kept (h : Twin s t) {x : Buf} (hk : Kept s.task.c s x) : Kept t.task.c t x := by
  have e : t.task.c = s.task.c := by rw [h.task]
  rw [e]
  exact ⟨by rw [h.ds, e]; exact hk.same, by rw [h.ds]; exact hk.here, hk.ready⟩

theorem Twin.kept' (h : Twin s t) {x : Buf} (hk : Kept t.task.c t x) : Kept s.task.c s x := by
  have e : t.task.c = s.task.c := by rw [h.task]
  rw [← e]
  exact ⟨by rw [← h.ds, ← e]; exact hk.same, by rw [← h.ds]; exact hk.here, hk.ready⟩

end

/-- What a push and a pop leave behind. -/
theorem like_push_pop {α : Type} (st : Stack α) (v : α) (h : st.items.length < capacity) :
    LikeStack (st.push v).pop.2 st := by
  simp only [capacity] at h
  have e := push_holding st v (by omega)
  have hi : (st.push v).items = v :: st.items := by rw [e, holding_items _ (by simp; omega)]
  have hl := items_length st
  refine ⟨?_, ?_, fun i hi => ?_⟩
  · simp only [Stack.push, Stack.pop, setSlot]
    bv_omega
  · simp [Stack.push, Stack.pop, setSlot]
  · simp only [Stack.push, Stack.pop, setSlot]
    rw [if_neg]
    intro hh
    have : i.toNat = st.len.toNat := by rw [hh]; bv_omega
    rcases hi with hi | hi
    · omega
    · simp only [capacity] at hi; omega

/-- `parse` inside a text. -/
theorem parse_reading' {c : Ctx} {s : VM} {pre rest taken after old : List Char} {found : Bool}
    {v : Cell} {l : List Cell} (hr : Reading s.task pre rest) (ht : s.tkn = some old)
    (hi : s.task.s.items = v :: l) (hd : Delimited v rest taken after found) :
    ∃ mid, rest = taken ++ (mid ++ after) ∧
      parse c s = .ok ((), (s.setTask
        { atPosition s.task (byteLen (pre ++ (taken ++ mid))) with s := s.task.s.pop.2 }).setTkn (some taken)) := by
  obtain ⟨mid, hm1, hm2, hm3⟩ := scanTo_delimited hd
  obtain ⟨t, h1, h2, h3, h4, _⟩ := takeInput_ok hr.buffer
  have hother := setInputBuffer_other h1
  have hrep := items_eq_iff.1 hi
  have hpos := hr.position
  refine ⟨mid, hm1, ?_⟩
  have hle : byteLen pre + byteLen (taken ++ mid) < usizeMod := by
    have := hr.bounded
    rw [hm1] at this
    simp only [byteLen_append, usizeMod] at *
    omega
  vm_simp [parse, takeInputE, h2, h3, h4, hrep.pop_fst]
  rw [takeToken_run (t := old) (by vm_simp [ht])]
  vm_simp [h3, hpos, sourceFrom, splitAtByte_append, hm2, uadd_ok hle]
  rw [putInput_back' h1 hr.buffer (by vm_simp) (by vm_simp) (by vm_simp)]
  vm_simp
  have e3 : ({ t with st := { s.task.st with sourceIndex := byteLen pre + byteLen (taken ++ mid) },
                      s := s.task.s.pop.2, lines := s.task.lines, inbuf := s.task.inbuf } : Task) =
      { atPosition s.task (byteLen (pre ++ (taken ++ mid))) with s := s.task.s.pop.2 } := by
    rw [hother]; simp only [atPosition, byteLen_append]
  rw [e3]

/-- The machine at a place of its text, put together from its parts. -/
theorem VM.seen_code (s : VM) (n wp : Nat) (tk : List Char) (x : Buf) :
    (s.seen n tk wp).code x = { s.setTask { s.task with
      st := { s.task.st with sourceIndex := n, wp := wp }, c := x.2 } with ds := x.1, tkn := some tk } := by
  have e : (s.seen n tk wp).code x = { (s.setTask { s.task with
      st := { s.task.st with sourceIndex := n, wp := wp } }).setTask { (s.seen n tk wp).task with c := x.2 } with
      ds := x.1, tkn := some tk } := rfl
  rw [e, VM.setTask_setTask, VM.seen_task]

/-- The machine with other stacks. -/
def VM.stacked (s : VM) (a b : Stack Cell) : VM := s.setTask { s.task with s := a, r := b }

/-- Replacing the data and return stack of a machine at a place of its text. -/
theorem VM.seen_code_stacks (s : VM) (n m wp wp' : Nat) (tk : List Char) (x : Buf) (a b : Stack Cell) {T : Task}
    (hT : T = { s.task with st := { s.task.st with sourceIndex := m, wp := wp' }, c := x.2, s := a, r := b }) :
    ((s.seen n tk wp).code x).setTask T =
    ((s.stacked a b).seen m tk wp').code x := by
  subst hT
  rw [VM.seen_code, VM.seen_code, VM.stacked]
  have e1 : ∀ A B : Task, ({ s.setTask A with ds := x.1, tkn := some tk } : VM).setTask B =
      { (s.setTask A).setTask B with ds := x.1, tkn := some tk } := fun _ _ => rfl
  rw [e1, VM.setTask_setTask, VM.setTask_setTask, VM.task_setTask]

theorem VM.seen_code_full (s : VM) (n wp : Nat) (tk : List Char) (x : Buf) : ((s.seen n tk wp).code x).task =
    { s.task with st := { s.task.st with sourceIndex := n, wp := wp }, c := x.2 } := by
  rw [VM.code_task, VM.seen_task]

theorem VM.stacked_task (s : VM) (a b : Stack Cell) : (s.stacked a b).task = { s.task with s := a, r := b } :=
  VM.task_setTask _ _
theorem VM.stacked_stacked (s : VM) (a b a' b' : Stack Cell) : (s.stacked a b).stacked a' b' = s.stacked a' b' := by
  simp only [VM.stacked, VM.setTask_setTask, VM.task_setTask]

theorem Twin.stacked {s : VM} {a b : Stack Cell} (h1 : LikeStack a s.task.s) (h2 : LikeStack b s.task.r) :
    Twin s (s.stacked a b) := Twin.mk' h1 h2

theorem LikeStack.rfl' {α : Type} (a : Stack α) : LikeStack a a := ⟨rfl, rfl, fun _ _ => rfl⟩

section
variable {s : VM} {n wp : Nat} {tk : List Char} {x y : Buf}

theorem push_at (v : Cell) : sPush v ((s.seen n tk wp).code x) =
    .ok ((), ((s.stacked (s.task.s.push v) s.task.r).seen n tk wp).code x) := by
  have e : sPush v ((s.seen n tk wp).code x) = .ok ((), ((s.seen n tk wp).code x).setTask
      { ((s.seen n tk wp).code x).task with s := ((s.seen n tk wp).code x).task.s.push v }) := by vm_simp
  rw [e, VM.seen_code_stacks s n n wp wp tk x (s.task.s.push v) s.task.r (by rw [VM.seen_code_full])]

theorem pop_at {v : Cell} (h : s.task.s.pop.1 = v) : sPop ((s.seen n tk wp).code x) =
    .ok (v, ((s.stacked s.task.s.pop.2 s.task.r).seen n tk wp).code x) := by
  have e : sPop ((s.seen n tk wp).code x) = .ok (((s.seen n tk wp).code x).task.s.pop.1, ((s.seen n tk wp).code x).setTask
      { ((s.seen n tk wp).code x).task with s := ((s.seen n tk wp).code x).task.s.pop.2 }) := by vm_simp
  rw [e, VM.seen_code_stacks s n n wp wp tk x s.task.s.pop.2 s.task.r (by rw [VM.seen_code_full])]
  rw [VM.seen_code_full, h]

theorem push_pop_fst {α : Type} (st : Stack α) (v : α) : (st.push v).pop.1 = v := by
  simp [Stack.push, Stack.pop, setSlot]

/-- A comment. -/
theorem comment_compile {c : Ctx} {pre text taken rest : List Char} {found : Bool} {v : Cell}
    (hr : s.task.s.items.length < capacity) (hi : inputBuffer s.task = .ok (some (pre ++ text)))
    (hlt : byteLen (pre ++ text) < 2 ^ 63) (hd : Delimited v text taken rest found) :
    ∃ s2 pre' tk', Twin s s2 ∧ pre ++ text = pre' ++ rest ∧
      (do sPush v; parse c) ((s.seen (byteLen pre) tk wp).code x) = .ok ((), (s2.seen (byteLen pre') tk' wp).code x) := by
  have hrd : Reading (((s.stacked (s.task.s.push v) s.task.r).seen (byteLen pre) tk wp).code x).task pre text :=
    ⟨by rw [VM.seen_code_full, VM.stacked_task, ← hi]; simp only [inputBuffer], by rw [VM.seen_code_full], hlt⟩
  have hit : (((s.stacked (s.task.s.push v) s.task.r).seen (byteLen pre) tk wp).code x).task.s.items = v :: s.task.s.items := by
    rw [VM.seen_code_full, VM.stacked_task]
    have : (256 : Nat) = 256 := rfl
    simp only [capacity] at hr
    exact items_eq_iff.2 ((rep_items s.task.s).push (by omega) v)
  obtain ⟨mid, h1, h2⟩ := parse_reading' (c := c) hrd (old := tk) rfl hit hd
  refine ⟨_, pre ++ (taken ++ mid), taken, Twin.stacked (like_push_pop s.task.s v hr) (LikeStack.rfl' _), by rw [h1]; simp, ?_⟩
  rw [M.bind_ok (push_at v), h2]
  rw [VM.seen_code_stacks _ _ (byteLen (pre ++ (taken ++ mid))) wp wp tk x (s.task.s.push v).pop.2 s.task.r]
  · rw [VM.stacked_stacked, VM.code_setTkn, VM.seen_setTkn]
  · rw [VM.seen_code_full, VM.stacked_task]; simp only [atPosition]

/-- A word laid down as `does>` does it. -/
theorem pushComma_compile {c : Ctx} {j : Nat} (hp : Plain s.wl j)
    (hg : Gen s.refs s.wl (Item.run c (.word j)) x y) :
    (do sPush (toCell j); compileComma c) ((s.seen n tk wp).code x) = .ok ((),
      ((s.stacked (s.task.s.push (toCell j)).pop.2 s.task.r).seen n tk wp).code y) := by
  obtain ⟨w, h1, h2⟩ := hp
  rw [M.bind_ok (push_at _), compileComma]
  rw [M.bind_ok (pop_at (s := s.stacked (s.task.s.push (toCell j)) s.task.r) (v := toCell j)
    (by rw [VM.stacked_task]; exact push_pop_fst _ _)), VM.stacked_task, VM.stacked_stacked]
  have := hg ((s.stacked (s.task.s.push (toCell j)).pop.2 s.task.r).seen n tk wp) rfl rfl
  simp only [Item.run, M.bind_apply] at this
  rw [wordAt_ok (w := w) (by exact h1)] at this
  simp only [h2] at this
  exact this

theorem word_compile {c : Ctx} {j : Nat} (hp : Plain s.wl j) (hg : Gen s.refs s.wl (Item.run c (.word j)) x y) :
    compileWord c j ((s.seen n tk wp).code x) = .ok ((), (s.seen n tk wp).code y) := by
  obtain ⟨w, h1, h2⟩ := hp
  have := hg (s.seen n tk wp) rfl rfl
  simp only [Item.run, M.bind_apply] at this
  rw [wordAt_ok (w := w) (by exact h1)] at this
  simp only [h2] at this
  exact this

/-- What an immediate word does with the text after it. -/
theorem quoted_compile {oc : Bool} {c : Ctx} (hc : c.oc = oc) (hT : Typing s) (hk : Kept s.task.c s x)
    {p : Prim} {text rest pre : List Char} {l : List Item} (hQ : Quoted s p text l rest)
    (hg : Gens oc s.refs s.wl s.task.c s.ds.here l x y)
    (hi : inputBuffer s.task = .ok (some (pre ++ text))) (hlt : byteLen (pre ++ text) < 2 ^ 63) :
    ∃ s2 pre' tk', Twin s s2 ∧ pre ++ text = pre' ++ rest ∧ Kept s.task.c s y ∧
      action c p ((s.seen (byteLen pre) tk wp).code x) = .ok ((), (s2.seen (byteLen pre') tk' wp).code y) := by
  cases hQ with
  | paren h1 h2 =>
    cases hg
    obtain ⟨s2, pre', tk', a1, a2, a3⟩ := comment_compile (c := c) (tk := tk) (wp := wp) (x := x) h1 hi hlt h2
    exact ⟨s2, pre', tk', a1, a2, hk, a3⟩
  | backslash h1 h2 =>
    cases hg
    obtain ⟨s2, pre', tk', a1, a2, a3⟩ := comment_compile (c := c) (tk := tk) (wp := wp) (x := x) h1 hi hlt h2
    exact ⟨s2, pre', tk', a1, a2, hk, a3⟩
  | @char _ tok _ ch h1 h2 =>
    cases hg with
    | @cons _ _ _ z _ K e g1 g2 g3 g4 g5 =>
      cases g5
      obtain ⟨bs, rfl, hb, hne, hnb, he⟩ := h2
      have hp := seen_parseWord (x := x) (tk := tk) (wp := wp) hi hlt hb hne hnb he
      refine ⟨_, pre ++ (bs ++ (ch :: tok)), ch :: tok, Twin.stacked (like_push_pop s.task.s (BitVec.ofNat 64 ch.toNat) h1)
        (LikeStack.rfl' _), by simp, hk.next g2 g3 g4, ?_⟩
      show bracketChar c _ = _
      have hch : pChar c ((s.seen (byteLen pre) tk wp).code x) = .ok ((), ((s.stacked (s.task.s.push (BitVec.ofNat 64 ch.toNat))
          s.task.r).seen (byteLen (pre ++ (bs ++ (ch :: tok)))) (ch :: tok) wp).code x) := by
        rw [pChar, M.bind_ok hp, M.bind_ok (takeToken_run (t := ch :: tok) rfl)]
        exact push_at (s := s) (n := byteLen (pre ++ (bs ++ (ch :: tok)))) (tk := ch :: tok) (wp := wp) (x := x) _
      rw [bracketChar, M.bind_ok hch]
      simp only [M.bind_apply, getError_apply]
      rw [show (((s.stacked (s.task.s.push (BitVec.ofNat 64 ch.toNat))
          s.task.r).seen (byteLen (pre ++ (bs ++ (ch :: tok)))) (ch :: tok) wp).code x).lastError = none from hT.noError]
      simp only [M.bind_apply]
      rw [pop_at (s := s.stacked (s.task.s.push (BitVec.ofNat 64 ch.toNat)) s.task.r) (v := BitVec.ofNat 64 ch.toNat)
        (by rw [VM.stacked_task]; exact push_pop_fst _ _)]
      simp only [VM.stacked_task, VM.stacked_stacked]
      exact g1 c hc _ rfl rfl
  | @tick _ tok _ i h1 h2 =>
    cases hg with
    | @cons _ _ _ z _ K e g1 g2 g3 g4 g5 =>
      cases g5
      obtain ⟨bs, rfl, hb, hne, hnb, he⟩ := h1
      have hp := seen_parseWord (x := x) (tk := tk) (wp := wp) hi hlt hb hne hnb he
      refine ⟨s, pre ++ (bs ++ tok), tok, Twin.refl s, by simp, hk.next g2 g3 g4, ?_⟩
      show bracketTick c _ = _
      have hf := hk.find hT.dict c h2 (u := ((s.seen (byteLen (pre ++ (bs ++ tok))) tok wp).code x).setTkn none) rfl rfl
      have hg' := g1 c hc ((s.seen (byteLen (pre ++ (bs ++ tok))) tok wp).setTkn none) rfl rfl
      rw [bracketTick, M.bind_ok hp, M.bind_ok (takeToken_run (t := tok) rfl)]
      rw [show tok.isEmpty = false by cases tok with | nil => exact absurd rfl hne | cons a l => rfl]
      simp only [Bool.false_eq_true, if_false]
      rw [M.bind_ok hf]
      simp only [Item.run] at hg'
      dsimp only
      rw [VM.code_setTkn, M.bind_ok hg']
      rfl
  | @postpone _ tok _ i h1 h2 h3 =>
    cases hg with
    | @cons _ _ _ z _ K e g1 g2 g3 g4 g5 =>
    cases g5 with
    | @cons _ _ _ z' _ K' e' f1 f2 f3 f4 f5 =>
      cases f5
      obtain ⟨bs, rfl, hb, hne, hnb, he⟩ := h1
      have hp := seen_parseWord (x := x) (tk := tk) (wp := wp) hi hlt hb hne hnb he
      refine ⟨s, pre ++ (bs ++ tok), tok, Twin.refl s, by simp, (hk.next g2 g3 g4).next f2 f3 f4, ?_⟩
      show postpone c _ = _
      have hf := hk.find hT.dict c h2 (u := ((s.seen (byteLen (pre ++ (bs ++ tok))) tok wp).code x).setTkn none) rfl rfl
      have hg' := g1 c hc (s.seen (byteLen (pre ++ (bs ++ tok))) tok wp) rfl rfl
      rw [postpone, M.bind_ok hp, M.bind_ok (takeToken_run (t := tok) rfl)]
      rw [show tok.isEmpty = false by cases tok with | nil => exact absurd rfl hne | cons a l => rfl]
      simp only [Bool.false_eq_true, if_false]
      rw [M.bind_ok hf]
      simp only [Item.run] at hg'
      dsimp only
      rw [M.bind_ok (putToken_run ..)]
      rw [show (((s.seen (byteLen (pre ++ (bs ++ tok))) tok wp).code x).setTkn none).setTkn (some tok) =
        (s.seen (byteLen (pre ++ (bs ++ tok))) tok wp).code x from rfl]
      rw [M.bind_ok hg', M.bind_ok (getRefs_apply _)]
      exact word_compile h3 (f1 c hc)
  | does h1 h2 h3 =>
    cases hg with
    | @cons _ _ _ z _ K e g1 g2 g3 g4 g5 =>
    cases g5 with
    | @cons _ _ _ z' _ K' e' f1 f2 f3 f4 f5 =>
      cases f5
      have hl1 := like_push_pop s.task.s (toCell s.refs.doesRt) h1
      have hr2 : (s.stacked (s.task.s.push (toCell s.refs.doesRt)).pop.2 s.task.r).task.s.items.length < capacity := by
        rw [VM.stacked_task]; simp only; rw [hl1.items]; exact h1
      have hl2 := like_push_pop _ (toCell s.refs.exit) hr2
      refine ⟨_, pre, tk, (Twin.stacked hl1 (LikeStack.rfl' _)).trans (Twin.stacked hl2 (LikeStack.rfl' _)), rfl,
        (hk.next g2 g3 g4).next f2 f3 f4, ?_⟩
      show does c _ = _
      have e1 := pushComma_compile (n := byteLen pre) (tk := tk) (wp := wp) h2 (g1 c hc)
      have e2 := pushComma_compile (s := s.stacked (s.task.s.push (toCell s.refs.doesRt)).pop.2 s.task.r)
        (n := byteLen pre) (tk := tk) (wp := wp) h3 (f1 c hc)
      rw [does, M.bind_ok (getRefs_apply _)]
      rw [M.bind_ok (push_at _)] at e1
      rw [VM.code_refs, VM.seen_refs, M.bind_ok (push_at _)]
      rw [M.bind_ok e1, M.bind_ok (getRefs_apply _)]
      exact e2
  | @sQuote cs _ b h1 h2 =>
    cases hg with
    | @cons _ _ _ z _ K e g1 g2 g3 g4 g5 =>
      cases g5
      refine ⟨s, pre ++ (b :: (cs ++ ['"'])), tk, Twin.refl s, by simp, hk.next g2 g3 g4, ?_⟩
      exact sQuote_compile hi hlt h1 h2 (g1 c hc)
  | @dotQuote cs _ b h1 h2 h3 =>
    cases hg with
    | @cons _ _ _ z _ K e g1 g2 g3 g4 g5 =>
    cases g5 with
    | @cons _ _ _ z' _ K' e' f1 f2 f3 f4 f5 =>
      cases f5
      refine ⟨s, pre ++ (b :: (cs ++ ['"'])), tk, Twin.refl s, by simp, (hk.next g2 g3 g4).next f2 f3 f4, ?_⟩
      show dotQuote c _ = _
      rw [dotQuote, M.bind_ok (sQuote_compile hi hlt h1 h2 (g1 c hc)), M.bind_ok (getRefs_apply _)]
      exact word_compile h3 (f1 c hc)

end

/-- One step at a cell that holds the number of a word. -/
theorem step_cell {cfg : Cfg} {n : Nat} {u : VM} {a i : Nat} {w : Word} (hip : pc u = a) (h1 : u.ds.start ≤ a)
    (h2 : a + 8 ≤ u.ds.limit) (hs : u.ds.limit < 2 ^ 63) (hc : CellIs u.ds a i) (hw : u.wl.words[i]? = some w) :
    step cfg (n + 1) u = (do action ⟨cfg, execWord cfg n⟩ w.action; pure true) (u.at (a + 8) i) := by
  simp only [pc] at hip
  subst hip
  have hu : usizeMod = 2 ^ 64 := rfl
  have hr : ipOk cfg.overflowChecks u.ds u.task.st.ip = .ok true := by
    simp only [ipOk, rangeOk]
    rw [if_pos h1, uadd_ok (by omega)]
    simp; omega
  have hg : u.ds.getCell u.task.st.ip = .ok (u.ds.cellAt u.task.st.ip) := by
    rw [DataSpace.getCell, if_pos ⟨h1, h2⟩]
  simp only [CellIs] at hc
  simp only [step, M.bind_apply, getSt_apply]
  rw [dsRd_ok hr]
  simp only [if_true, M.bind_apply]
  rw [dsRd_ok hg]
  simp only [uadd_ok (show u.task.st.ip + 8 < usizeMod by omega), liftE_ok, setIp, modSt_apply]
  rw [hc, exec_word (w := w) (by exact hw)]
  simp only [VM.at, VM.setTask_setTask, VM.task_setTask]

section
variable {cfg : Cfg} {depth : Nat} {s : VM} {x y : Buf}

/-- An immediate colon definition with nothing in it. -/
theorem quiet_turn (hT : Typing s) (hk : Kept s.task.c s x) {t : List Char} {i n n' wp : Nat} {tk : List Char} {w e : Word}
    (hp : parseWord ((s.seen n tk wp).code x) = .ok ((), (s.seen n' t wp).code x)) (hne : t ≠ [])
    (h1 : Newest s (utf8 t) (some i)) (h2 : s.wl.words[i]? = some w) (h3 : w.isImmediate = true)
    (h4 : w.action = .core .nest) (h5 : CellIs s.ds w.dfa s.refs.exit) (h6 : s.ds.start ≤ w.dfa)
    (h7 : w.dfa + 8 ≤ s.ds.here) (h8 : s.wl.words[s.refs.exit]? = some e) (h9 : e.action = .core .exit)
    (h10 : (ret s).length < capacity) :
    ∃ s2, Twin s s2 ∧ Leads cfg (depth + 2) ((s.seen n tk wp).code x) ((s2.seen n' t s.refs.exit).code x) := by
  have hl := like_push_pop s.task.r (toCell s.task.st.ip) h10
  have hTw : Twin s (s.stacked s.task.s (s.task.r.push (toCell s.task.st.ip)).pop.2) := Twin.stacked (LikeStack.rfl' _) hl
  refine ⟨_, hTw, 3, 2, fun fuel => ?_⟩
  have hip : s.task.st.ip + 8 < 2 ^ 64 := hT.idle.2
  have hc : ((s.seen n' t wp).code x).task.st.isCompiling = true := by
    rw [VM.code_task, VM.seen_task]; exact hT.compiling
  obtain ⟨K, ee, hr⟩ := hk.ready
  have hst := hk.same.start
  have hcap := hk.same.cap
  have hlim : x.1.limit = s.ds.limit := by simp only [DataSpace.limit]; rw [hst, hcap]
  have hsm := hT.space.small
  have hin := hT.space.inside
  have hle : s.ds.here ≤ s.ds.limit := by simp only [DataSpace.here, DataSpace.limit]; omega
  -- the word itself
  obtain ⟨u, hu⟩ : ∃ u, u = ((s.seen n' t i).code x).setTask { ((s.seen n' t i).code x).task with
      r := s.task.r.push (toCell s.task.st.ip), st := { ((s.seen n' t i).code x).task.st with ip := w.dfa } } := ⟨_, rfl⟩
  have hut : u.task = { s.task with
      st := { s.task.st with sourceIndex := n', wp := i, ip := w.dfa }, c := x.2, r := s.task.r.push (toCell s.task.st.ip) } := by rw [hu, VM.task_setTask, VM.seen_code_full]
  have hev : evalToken (ctx cfg (depth + 2)) ((s.seen n' t wp).code x) = .ok ((), u) := by
    simp only [evalToken, M.bind_apply, getSt_apply, hc, if_true]
    rw [compileToken_found hT.composing hk h1 h2, h3]
    simp only [if_true, ctx]
    rw [execWord_seen h2, h4]
    show nest _ = _
    rw [hu]
    have hwp : ((s.seen n' t i).code x).task.st.wp = i := by rw [VM.seen_code_full]
    simp only [nest, M.bind_apply, getSt_apply, rPush_apply]
    rw [wordAt_ok (w := w) (by rw [hwp]; exact h2)]
    simp only [setIp, modSt_apply, VM.task_setTask, VM.setTask_setTask]
    rw [VM.seen_code_full]
  -- running it
  have hud : u.ds = x.1 := by rw [hu]; rfl
  have huw : u.wl = s.wl := by rw [hu]; rfl
  have hstep : step cfg (depth + 2) u = .ok (true, ((s.stacked s.task.s (s.task.r.push (toCell s.task.st.ip)).pop.2).seen n' t
      s.refs.exit).code x) := by
    rw [step_cell (a := w.dfa) (w := e) (by simp only [pc]; rw [hut]) (by rw [hud, hst]; exact h6) (by rw [hud, hlim]; omega)
      (by rw [hud, hlim]; simp only [DataSpace.limit]; omega)
      (by rw [hud]; exact cellIs_congr h5 fun z _ hz => hk.same.bytes z (by omega)) (by rw [huw]; exact h8)]
    rw [h9]
    show (exit >>= fun _ => pure true) _ = _
    have hr1 : ∀ T : Task, u.setTask T = ((s.seen n' t i).code x).setTask T := by
      intro T; rw [hu, VM.setTask_setTask]
    simp only [VM.at, hr1]
    simp only [exit, M.bind_apply, rPop_apply, setIp, modSt_apply, VM.task_setTask, VM.setTask_setTask, M.pure_apply]
    rw [VM.seen_code_stacks s n' n' i s.refs.exit t x s.task.s (s.task.r.push (toCell s.task.st.ip)).pop.2]
    rw [hut]
    simp only [push_pop_fst]
    rw [toNat_toCell (by omega)]
  have hid : Idle (((s.stacked s.task.s (s.task.r.push (toCell s.task.st.ip)).pop.2).seen n' t s.refs.exit).code x) := by
    have := hT.idle
    simp only [Idle, pc] at this ⊢
    rw [VM.seen_code_full, VM.stacked_task, VM.code_ds, hlim, hst]
    exact this
  have hT2 := hTw.typing hT
  have hck : checkStacks (ctx cfg (depth + 2)) (((s.stacked s.task.s (s.task.r.push (toCell s.task.st.ip)).pop.2).seen n' t s.refs.exit).code x) =
      .ok ((), ((s.stacked s.task.s (s.task.r.push (toCell s.task.st.ip)).pop.2).seen n' t s.refs.exit).code x) := by
    apply calm_check <;> rw [VM.seen_code_full]
    · exact hT2.data
    · exact hT2.ret
    · exact hr.calm hT.control
    · exact hT2.floats
  have hrun : run cfg (depth + 2) (fuel + 2) u = .ok ((), ((s.stacked s.task.s (s.task.r.push (toCell s.task.st.ip)).pop.2).seen n' t
      s.refs.exit).code x) := by
    rw [run, M.bind_ok hstep]
    exact idle_run hid fuel
  have hE : u.lastError = none := by rw [hu]; exact hT.noError
  have hE2 : (((s.stacked s.task.s (s.task.r.push (toCell s.task.st.ip)).pop.2).seen n' t s.refs.exit).code x).lastError = none :=
    hT2.noError
  have hne' : ¬ ((s.seen n' t wp).code x).tkn = some [] := by simp [hne]
  conv => lhs; unfold evaluateInput
  simp only [M.bind_apply, hp, getVM_apply]
  rw [if_neg hne']
  simp only [M.bind_apply, hev, getError_apply, hE, Option.isSome_none, Bool.false_eq_true, if_false, hrun, hck, hE2]

theorem Gens.split {oc : Bool} {R : Refs} {wl : Wordlist} {base : Stack Control} {a0 : Nat} : ∀ {l m : List Item} {x y : Buf},
    Gens oc R wl base a0 (l ++ m) x y → ∃ z, Gens oc R wl base a0 l x z ∧ Gens oc R wl base a0 m z y
  | [], _, x, _, h => ⟨x, .nil, h⟩
  | _ :: _, _, _, _, h => by
    cases h with
    | cons h1 h2 h3 h4 h5 =>
      obtain ⟨z, k1, k2⟩ := Gens.split h5
      exact ⟨z, .cons h1 h2 h3 h4 k1, k2⟩

/-- What the text of a definition is read against is still there. -/
structure Persists (s t : VM) : Prop where
  names : ∀ nm r, Newest s nm r → Newest t nm r
  words : ∀ (i : Nat) (w : Word), s.wl.words[i]? = some w → t.wl.words[i]? = some w
  base : baseOf t = baseOf s
  data : Spec.data t = Spec.data s
  ret : Spec.ret t = Spec.ret s
  refs : t.refs = s.refs
  start : t.ds.start = s.ds.start
  bytes : ∀ z, z < s.ds.here → t.ds.bytes z = s.ds.bytes z
  here : s.ds.here ≤ t.ds.here

theorem Persists.plain {s t : VM} (h : Persists s t) {i : Nat} (k : Plain s.wl i) : Plain t.wl i := by
  obtain ⟨w, h1, h2⟩ := k
  exact ⟨w, h.words _ _ h1, h2⟩

theorem Spec.Quoted.mono {s t : VM} (h : Persists s t) {p : Prim} {text rest : List Char} {l : List Item}
    (hq : Quoted s p text l rest) : Quoted t p text l rest := by
  cases hq with
  | paren h1 h2 => exact .paren (by rw [h.data]; exact h1) h2
  | backslash h1 h2 => exact .backslash (by rw [h.data]; exact h1) h2
  | char h1 h2 => exact .char (by rw [h.data]; exact h1) h2
  | tick h1 h2 => exact .tick h1 (h.names _ _ h2)
  | postpone h1 h2 h3 =>
    rw [← h.refs]
    exact .postpone h1 (h.names _ _ h2) (by rw [h.refs]; exact h.plain h3)
  | does h1 h2 h3 =>
    rw [← h.refs]
    exact .does (by rw [h.data]; exact h1) (by rw [h.refs]; exact h.plain h2) (by rw [h.refs]; exact h.plain h3)
  | sQuote h1 h2 => exact .sQuote h1 h2
  | dotQuote h1 h2 h3 =>
    rw [← h.refs]
    exact .dotQuote h1 h2 (by rw [h.refs]; exact h.plain h3)

theorem Spec.Prose.mono {f : FloatOps} {s t : VM} (h : Persists s t) {text rest : List Char} {l : List Item}
    (hp : Prose f s text l rest) : Prose f t text l rest := by
  induction hp with
  | done => exact .done
  | token h1 h2 _ ih => exact .token h1 (h2.mono h.names h.words h.base) ih
  | quoted h1 h2 h3 h4 h5 _ ih => exact .quoted h1 (h.names _ _ h2) (h.words _ _ h3) h4 (h5.mono h) ih
  | quiet h1 h2 h3 h4 h5 h6 h7 h8 h9 h10 h11 _ ih =>
    refine .quiet h1 (h.names _ _ h2) (h.words _ _ h3) h4 h5 ?_ (by rw [h.start]; exact h7) ?_ (by rw [h.refs]; exact h.words _ _ h9)
      h10 (by rw [h.ret]; exact h11) ih
    · rw [h.refs]; exact cellIs_congr h6 fun z _ hz => h.bytes z (by omega)
    · have := h.here; omega

theorem Twin.persists {s t : VM} (h : Twin s t) : Persists s t :=
  ⟨fun nm r => (h.newest nm r).2, fun i w hw => by rw [h.wl]; exact hw, by simp only [baseOf, h.ds], h.dat, h.rets, h.refs,
    by rw [h.ds], fun z _ => by rw [h.ds], by rw [h.ds]; exact Nat.le_refl _⟩

/-- Compiling from text compiles the items the text spells. -/
theorem prose_compile (hfl : s.refs.flit ≠ 0) {text rest : List Char} {items : List Item}
    (hS : Prose cfg.fops s text items rest) : ∀ {s1 : VM} {x y : Buf} {pre tk : List Char} {wp : Nat}, Twin s s1 → Typing s1 →
    Gens cfg.overflowChecks s1.refs s1.wl s1.task.c s1.ds.here items x y → Kept s1.task.c s1 x →
    inputBuffer s1.task = .ok (some (pre ++ text)) → byteLen (pre ++ text) < 2 ^ 63 →
    ∃ s2 pre' tk' wp', Twin s1 s2 ∧ pre ++ text = pre' ++ rest ∧ Kept s1.task.c s1 y ∧
      Leads cfg (depth + 2) ((s1.seen (byteLen pre) tk wp).code x) ((s2.seen (byteLen pre') tk' wp').code y) := by
  induction hS with
  | done =>
    intro s1 x y pre tk wp _ _ hg hk hi hlt
    cases hg
    exact ⟨s1, pre, tk, wp, .refl s1, rfl, hk, 0, 0, fun _ => rfl⟩
  | @token t text mid rest i l hrd hs _ ih =>
    intro s1 x y pre tk wp hTw hT hg hk hi hlt
    obtain ⟨bs, rfl, hb, hne, hnb, he⟩ := hrd
    cases hg with
    | @cons _ _ _ z _ K e g1 g2 g3 g4 g5 =>
      have hk' := hk.next g2 g3 g4
      have hst := hTw.persists
      obtain ⟨wp', e1⟩ := spells_compile (depth := depth + 1) hT.composing hk (hs.mono hst.names hst.words hst.base) (by rw [hst.refs]; exact hfl)
        g1 (byteLen (pre ++ (bs ++ t))) wp
      have ht := fun fuel => turn_compile (depth := depth + 1) hT g2
        (seen_parseWord (x := x) (tk := tk) (wp := wp) hi hlt hb hne hnb he) hne e1 hk'.same.start hk'.same.cap fuel
      have ea : (pre ++ (bs ++ t)) ++ mid = pre ++ (bs ++ (t ++ mid)) := by simp
      obtain ⟨s2, pre', tk', wp'', f0, f1, f2, f3⟩ := ih (pre := pre ++ (bs ++ t)) (tk := t) (wp := wp') hTw hT g5 hk'
        (by rw [ea]; exact hi) (by rw [ea]; exact hlt)
      exact ⟨s2, pre', tk', wp'', f0, by rw [← ea]; exact f1, f2, Spec.Leads.trans ⟨2, 1, ht⟩ f3⟩
  | @quoted t text mid mid' rest i w l m hrd hn hw him hq _ ih =>
    intro s1 x y pre tk wp hTw hT hg hk hi hlt
    obtain ⟨bs, rfl, hb, hne, hnb, he⟩ := hrd
    obtain ⟨z, g1, g2⟩ := hg.split
    have hst := hTw.persists
    have ea : (pre ++ (bs ++ t)) ++ mid = pre ++ (bs ++ (t ++ mid)) := by simp
    obtain ⟨s2, pre1, tk1, q1, q2, q3, q4⟩ := quoted_compile (c := ⟨cfg, execWord cfg (depth + 1)⟩) (tk := t) (wp := i) rfl hT hk (hq.mono hst) g1
      (pre := pre ++ (bs ++ t)) (by rw [ea]; exact hi) (by rw [ea]; exact hlt)
    have hc : ((s1.seen (byteLen (pre ++ (bs ++ t))) t wp).code x).task.st.isCompiling = true := by
      rw [VM.code_task, VM.seen_task]; exact hT.compiling
    have e1 : evalToken (ctx cfg (depth + 2)) ((s1.seen (byteLen (pre ++ (bs ++ t))) t wp).code x) =
        .ok ((), (s2.seen (byteLen pre1) tk1 i).code z) := by
      simp only [evalToken, M.bind_apply, getSt_apply, hc, if_true]
      rw [compileToken_found hT.composing hk (hst.names _ _ hn) (hst.words _ _ hw), him]
      simp only [if_true, ctx]
      rw [execWord_seen (hst.words _ _ hw)]
      exact q4
    have hT2 := q1.typing hT
    obtain ⟨K, ee, hr⟩ := q3.ready
    have ht := fun fuel => turn (cfg := cfg) (depth := depth + 2)
      (seen_parseWord (x := x) (tk := tk) (wp := wp) hi hlt hb hne hnb he) rfl hne e1 hT2.noError
      (by
        have := hT2.idle
        have h1 := q3.same.start; have h2 := q3.same.cap
        have h3 := q1.ds
        simp only [Idle, pc] at this ⊢
        rw [VM.seen_code_full, VM.code_ds]
        simp only [DataSpace.limit, h3] at this ⊢
        rw [h1, h2]
        exact this)
      (by rw [VM.seen_code_full]; exact hT2.data) (by rw [VM.seen_code_full]; exact hT2.ret)
      (by rw [VM.seen_code_full]; exact hr.calm hT.control) (by rw [VM.seen_code_full]; exact hT2.floats) fuel
    have hi2 : inputBuffer s2.task = .ok (some (pre1 ++ mid')) := by
      rw [← q2, ea, ← hi]
      have := q1.task
      rw [this]
      rfl
    obtain ⟨s3, pre', tk', wp'', f0, f1, f2, f3⟩ := ih (tk := tk1) (wp := i) (hTw.trans q1) hT2
      (by rw [q1.refs, q1.wl, q1.ds, show s2.task.c = s1.task.c by rw [q1.task]]; exact g2) (q1.kept q3) hi2 (by rw [← q2, ea]; exact hlt)
    exact ⟨s3, pre', tk', wp'', q1.trans f0, by rw [← ea, q2]; exact f1, q1.kept' f2, Spec.Leads.trans ⟨2, 1, ht⟩ f3⟩
  | @quiet t text mid rest i w e l hrd hn hw him ha h5 h6 h7 h8 h9 h10 _ ih =>
    intro s1 x y pre tk wp hTw hT hg hk hi hlt
    obtain ⟨bs, rfl, hb, hne, hnb, he⟩ := hrd
    have hst := hTw.persists
    have ea : (pre ++ (bs ++ t)) ++ mid = pre ++ (bs ++ (t ++ mid)) := by simp
    obtain ⟨s2, q1, q2⟩ := quiet_turn (cfg := cfg) (depth := depth) hT hk (seen_parseWord (x := x) (tk := tk) (wp := wp) hi hlt hb hne hnb he) hne
      (hst.names _ _ hn) (hst.words _ _ hw) him ha (by rw [hst.refs, hTw.ds]; exact h5) (by rw [hst.start]; exact h6)
      (by rw [hTw.ds]; exact h7) (by rw [hst.refs]; exact hst.words _ _ h8) h9 (by rw [hst.ret]; exact h10)
    have hT2 := q1.typing hT
    have hi2 : inputBuffer s2.task = .ok (some ((pre ++ (bs ++ t)) ++ mid)) := by
      rw [ea, ← hi]
      have := q1.task
      rw [this]
      rfl
    obtain ⟨s3, pre', tk', wp'', f0, f1, f2, f3⟩ := ih (pre := pre ++ (bs ++ t)) (tk := t) (wp := s1.refs.exit) (hTw.trans q1) hT2
      (by rw [q1.refs, q1.wl, q1.ds, show s2.task.c = s1.task.c by rw [q1.task]]; exact hg) (q1.kept hk) hi2 (by rw [ea]; exact hlt)
    exact ⟨s3, pre', tk', wp'', q1.trans f0, by rw [← ea]; exact f1, q1.kept' f2, q2.trans f3⟩

/-- The body of a definition that is written as prose is compiled. -/
theorem prose_body (hfl : s.refs.flit ≠ 0) {t2 t3 : List Char} {items : List Item} (h : Prose cfg.fops s t2 items t3) :
    BodyCompiles cfg depth s t2 t3 items := by
  intro s1 x y pre tk wp hT hrefs hnew hold hbase h1 h2 h3 h4 h5 h6 hg hk hi hlt
  refine prose_compile (by rw [hrefs]; exact hfl) (h.mono ⟨hnew, hold, hbase, by simp only [data, h1], by simp only [ret, h2], hrefs, h3, h5, h6⟩)
    (.refl s1) hT hg hk hi hlt

end

end Verif
