import Verif.Spec.Sources
import Verif.Lemmas.LibraryCalls
import Verif.Props.Errors

/-!
# Saving and restoring the input source
-/

namespace Verif
open Spec Stack

section
variable {R : Refs} {wl : Wordlist} {lv lo hi n i : Nat} {k : Fin 5} {d : DataSpace} {s : VM} {cfg : Cfg}
  {l r : List Cell} {m : DataSpace} {ix : String → Nat}

local notation "Do" => Doing cfg n R lv wl lo hi k d

theorem doing_var {w : Word} (hw : wl.words[i]? = some w) (ha : w.action = .core .pVar) (hl : l.length < capacity)
    (hr : r.length ≤ capacity) : Do i (shape s l r m) (shape s (toCell w.dfa :: l) r m) := by
  simp only [capacity] at hl
  refine doing_data hw (by simp [capacity]; omega) hr (by simp [capacity]; omega)
    (fun u v k1 k2 k3 k4 k5 k6 _ _ => ?_)
  refine ⟨u.task.s.push (toCell w.dfa), ?_, by rw [push_holding _ _ (by rw [k1]; omega), k1]; exact .refl _⟩
  rw [ha]
  simp only [action, coreAction, pVar, M.bind_apply, getSt_apply, k6]
  rw [wordAt_ok k4]
  simp [k5]

theorem doing_sourceId (hb : Builtin wl i "source-id") (hl : l.length < capacity) (hr : r.length ≤ capacity) :
    Do i (shape s l r m) (shape s (s.task.st.sourceId :: l) r m) := by
  obtain ⟨w, hw, hp⟩ := hb
  have hp' := prim_inj hp (p := .core .sourceId) rfl
  simp only [capacity] at hl
  refine doing_data hw (by simp [capacity]; omega) hr (by simp [capacity]; omega)
    (fun u v k1 k2 k3 k4 k5 k6 _ k8 => ?_)
  refine ⟨u.task.s.push s.task.st.sourceId, ?_, by rw [push_holding _ _ (by rw [k1]; omega), k1]; exact .refl _⟩
  rw [hp']
  have : u.task.st.sourceId = s.task.st.sourceId := by
    obtain ⟨_, _, _, _, _, _, _, _, e⟩ := k8.task
    rw [e, shape_task]
  simp [action, coreAction, pSourceId, this]

theorem doing_sourceIdx (hb : Builtin wl i "source-idx") (hl : l.length < capacity) (hr : r.length ≤ capacity) :
    Do i (shape s l r m) (shape s (toCell s.task.st.sourceIndex :: l) r m) := by
  obtain ⟨w, hw, hp⟩ := hb
  have hp' := prim_inj hp (p := .core .sourceIdx) rfl
  simp only [capacity] at hl
  refine doing_data hw (by simp [capacity]; omega) hr (by simp [capacity]; omega)
    (fun u v k1 k2 k3 k4 k5 k6 _ k8 => ?_)
  refine ⟨u.task.s.push (toCell s.task.st.sourceIndex), ?_, by rw [push_holding _ _ (by rw [k1]; omega), k1]; exact .refl _⟩
  rw [hp']
  have : u.task.st.sourceIndex = s.task.st.sourceIndex := by
    obtain ⟨_, _, _, _, _, _, _, _, e⟩ := k8.task
    rw [e, shape_task]
  simp [action, coreAction, pSourceIdx, this]

theorem Spec.Like.reading {s t : VM} (h : Like s t) (e : Cell × Cell) : Like (reading s e) (reading t e) := by
  obtain ⟨ip, wp, ds, rs, fs, h1, h2, h3, rfl⟩ := h
  refine ⟨ip, wp, ds, rs, fs, ?_, ?_, ?_, ?_⟩
  all_goals simp only [Spec.reading, VM.task_setTask, VM.setTask_setTask]
  all_goals assumption

theorem reading_shape (e : Cell × Cell) : reading (shape s l r m) e = shape (reading s e) l r m := by
  rw [shape_eq (reading s e)]
  simp only [reading, shape_task, VM.task_setTask, VM.setTask_setTask]
  rw [shape_eq, VM.setTask_with_ds, VM.setTask_setTask]

/-- A word that pops an item and goes to another source or another place in it. -/
theorem doing_reading {x : Cell} {e : Cell × Cell} {w : Word} (hw : wl.words[i]? = some w) (hl : l.length < capacity) (hr : r.length ≤ capacity)
    (h : ∀ u : VM, u.task.s.items = x :: l → Like u (shape s (x :: l) r m) →
      action ⟨cfg, execWord cfg n⟩ w.action u = .ok ((), reading (u.setTask { u.task with s := u.task.s.pop.2 }) e)) :
    Do i (shape s (x :: l) r m) (shape (reading s e) l r m) := by
  intro hL
  have hc : capacity = 64 := rfl
  refine ⟨?_, hL.congr rfl rfl rfl⟩
  intro s1 hli
  obtain ⟨v, e1, e2, e3⟩ := (hL.like hli).kept i w hw
  have k1 : s1.task.s.items = x :: l := hli.data.trans (shape_data (by simp; omega))
  have k2 : s1.task.r.items = r := hli.ret.trans (shape_ret hr)
  have ex : execWord cfg (n + 1) i s1 = .ok ((), reading (s1.setTask { s1.task with
      s := s1.task.s.pop.2, r := s1.task.r, st := { s1.task.st with ip := pc s1, wp := i } }) e) := by
    rw [exec_word e1, e2, h _ (by rw [VM.at_task]; exact k1) (hli.at _ _)]
    simp [VM.at, pc]
  refine ⟨_, ex, ?_, ?_⟩
  · have := like_shape (m' := m) (l' := l) (r' := r) (by simp; omega) hr (by omega) hr hli
      (ds := s1.task.s.pop.2) (rs := s1.task.r) (by rw [pop_holding k1]; exact .refl _)
      (by rw [← k2, holding_self]; exact .refl _) (pc s1) i
    have hds : s1.ds = m := hli.ds
    rw [← hds] at this ⊢
    rw [← reading_shape]
    exact Like.reading this _
  · simp [reading, pc]

theorem doing_setSourceIdx {x : Cell} (hb : Builtin wl i "source-idx!") (hl : l.length < capacity) (hr : r.length ≤ capacity) :
    Do i (shape s (x :: l) r m) (shape (reading s (s.task.st.sourceId, x)) l r m) := by
  obtain ⟨w, hw, hp⟩ := hb
  have hp' := prim_inj hp (p := .core .setSourceIdx) rfl
  refine doing_reading hw hl hr fun u k1 k2 => ?_
  have e : u.task.s.pop.1 = x := (items_eq_iff.mp k1).pop_fst
  have : u.task.st.sourceId = s.task.st.sourceId := by
    obtain ⟨_, _, _, _, _, _, _, _, e⟩ := k2.task
    rw [e, shape_task]
  rw [hp']
  simp [action, coreAction, pSetSourceIdx, M.bind_apply, sPop_apply, e, reading, ← this]

theorem doing_setSourceId {x : Cell} (hb : Builtin wl i "source-id!") (hl : l.length < capacity) (hr : r.length ≤ capacity)
    (hx : Readable s x) (hi : s.task.st.sourceIndex < 2 ^ 64) :
    Do i (shape s (x :: l) r m) (shape (reading s (x, toCell s.task.st.sourceIndex)) l r m) := by
  obtain ⟨w, hw, hp⟩ := hb
  have hp' := prim_inj hp (p := .core .setSourceId) rfl
  refine doing_reading hw hl hr fun u k1 k2 => ?_
  have e : u.task.s.pop.1 = x := (items_eq_iff.mp k1).pop_fst
  obtain ⟨ip, wp, ds, rs, fs, -, -, -, hu⟩ := k2.task
  have h1 : u.task.sources = s.task.sources := by rw [hu, shape_task]
  have h2 : u.task.lines = s.task.lines := by rw [hu, shape_task]
  have h3 : u.task.st.sourceIndex = s.task.st.sourceIndex := by rw [hu, shape_task]
  have hn : (toCell s.task.st.sourceIndex).toNat = s.task.st.sourceIndex := by simp [toCell]; omega
  rw [hp']
  simp only [action, coreAction, pSetSourceId, setSourceId, M.bind_apply, sPop_apply, e, getTask_apply, VM.task_setTask, h1, h2]
  obtain rfl | ⟨x1, ⟨f, x2⟩, ⟨b, x3⟩⟩ := hx
  · simp [reading, h3, hn]
  · simp [reading, x1, x2, x3, h3, hn]

/-- The task after an abort. -/
def quiet (x : Task) : Task :=
  { x with s := x.s.reset, f := x.f.reset, c := x.c.reset, st := { x.st with abortedWp := x.st.wp } }

/-- The machine with another task, memory and exception. -/
def remade (s : VM) (x : Task) (m : DataSpace) (e : Option Exn) : VM := { s.setTask x with ds := m, lastError := e }

theorem task_remade (s : VM) (x : Task) (m : DataSpace) (e : Option Exn) : (remade s x m e).task = x := VM.task_setTask s x
theorem remade_remade (s : VM) (x y : Task) (m m' : DataSpace) (e e' : Option Exn) :
    remade (remade s x m e) y m' e' = remade s y m' e' := by
  have := VM.setTask_setTask s x y
  rw [remade, remade, remade, ← this]; rfl
theorem raised_remade (s : VM) (e : Exn) : raised s e = remade s (quiet s.task) s.ds (some e) := rfl
theorem setTask_remade (s : VM) (x : Task) : s.setTask x = remade s x s.ds s.lastError := rfl
theorem shape_remade (s : VM) (l r : List Cell) (m : DataSpace) :
    shape s l r m = remade s { s.task with s := holding s.task.s l, r := holding s.task.r r } m s.lastError := by
  rw [shape_eq]; rfl

theorem doing_abort (hb : Builtin wl i "abort") {v : Word} (hh : s.wl.words[s.handler]? = some v) (hv : v.action = .core .noop) :
    Doing cfg (n + 1) R lv wl lo hi k d i (shape s l r m) (shape (raised (s.at (pc s) i) .abort) [] r m) := by
  obtain ⟨w, hw, hp⟩ := hb
  have hp' := prim_inj hp (p := .core .abort) rfl
  intro hL
  refine ⟨?_, hL.congr rfl rfl rfl⟩
  intro s1 hli
  obtain ⟨v', e1, e2, e3⟩ := (hL.like hli).kept i w hw
  have hhe : s1.handler = s.handler := by obtain ⟨_, _, _, _, _, _, _, _, rfl⟩ := hli; rfl
  have hhw : s1.wl = s.wl := by obtain ⟨_, _, _, _, _, _, _, _, rfl⟩ := hli; rfl
  have ex : execWord cfg (n + 1 + 1) i s1 = .ok ((), remade s1 { quiet s1.task with
      st := { s1.task.st with ip := pc s1, wp := s.handler, abortedWp := i } } s1.ds (some .abort)) := by
    rw [exec_word e1, e2, hp']
    simp only [action, coreAction]
    have := abort_runs (cfg := cfg) (depth := n) (e := Exn.abort) (s := s1.at (pc s1) i) (w := v)
      (by rw [show (s1.at (pc s1) i).handler = s.handler from hhe]; exact hhw ▸ hh) hv
    refine this.trans ?_
    simp only [action, coreAction, M.pure_apply]
    rw [show (s1.at (pc s1) i).handler = s.handler from hhe, setTask_remade, raised_remade, remade_remade, task_remade, VM.at,
      setTask_remade, remade_remade, task_remade]
    rfl
  refine ⟨_, ex, ?_, ?_⟩
  · obtain ⟨ip, wp, ds, rs, fs, h1, h2, h3, h4⟩ := hli
    have h5 : s1 = remade s { s.task with s := ds, r := rs, f := fs, st := { s.task.st with ip := ip, wp := wp } } m s.lastError := by
      rw [h4, setTask_remade, shape_task, shape_remade, remade_remade]
      rfl
    have h6 : shape (raised (s.at (pc s) i) .abort) [] r m = remade s { quiet s.task with
        st := { s.task.st with wp := i, abortedWp := i }, s := holding s.task.s.reset [], r := holding s.task.r r } m (some .abort) := by
      rw [shape_remade, raised_remade, remade_remade, task_remade, VM.at, setTask_remade, remade_remade, task_remade]
      rfl
    rw [shape_task] at h1 h2 h3
    refine ⟨ip, s.handler, ds.reset, rs, fs.reset, ?_, ?_, ?_, ?_⟩
    case refine_4 =>
      rw [h5, h6, remade_remade, pc, task_remade, setTask_remade, remade_remade, task_remade]
      rfl
    all_goals rw [h6, task_remade]
    · have : ds.canary = s.task.s.canary := h1.canary
      exact ⟨rfl, this, fun j _ => by simp [Stack.reset, holding, this]⟩
    · exact h2
    · have : fs.canary = s.task.f.canary := h3.canary
      exact ⟨rfl, this, fun j _ => by simp [Stack.reset, quiet, this]⟩
  · rw [pc, task_remade]

theorem wrap_twice (x : Cell) : wrap (2 * x.toInt) = 2 * x := by
  simp only [wrap, BitVec.ofInt_mul, BitVec.ofInt_toInt]; rfl

/-- The address of an entry, as it is computed. -/
theorem entry_address {A c : Nat} (hc : c ≤ 16) (hA : A + 272 < 2 ^ 63) :
    (wrap ((wrap (2 * (BitVec.ofNat 64 c : Cell).toInt) * 8).toInt + (toCell A).toInt)).toNat = A + 16 * c := by
  rw [wrap_twice, wrap_near, wrap, BitVec.ofInt_toInt]
  have h1 : (2 * BitVec.ofNat 64 c * 8 : Cell).toNat = 16 * c := by
    rw [BitVec.toNat_mul, BitVec.toNat_mul, BitVec.toNat_ofNat, show (2 : Cell).toNat = 2 from rfl, show (8 : Cell).toNat = 8 from rfl]
    omega
  have h2 : (toCell A).toNat = A := toNat_toCell (by omega)
  rw [BitVec.toNat_add, h1, h2]; omega

theorem entry_cells {c : Nat} (hc : c ≤ 16) : inIsize ((wrap (2 * (BitVec.ofNat 64 c : Cell).toInt)).toInt * 8) := by
  rw [wrap_twice]
  have h1 : (2 * BitVec.ofNat 64 c : Cell).toNat = 2 * c := by
    rw [BitVec.toNat_mul, BitVec.toNat_ofNat, show (2 : Cell).toNat = 2 from rfl]
    omega
  have : (2 * BitVec.ofNat 64 c : Cell).toInt = 2 * c := by
    rw [BitVec.toInt_eq_toNat_cond, h1]; split <;> omega
  rw [this]; simp only [inIsize]; omega

theorem count_toInt {c : Nat} (hc : c ≤ 16) : (BitVec.ofNat 64 c : Cell).toInt = c := by
  rw [BitVec.toInt_eq_toNat_cond]; simp only [BitVec.toNat_ofNat]; split <;> omega

variable {lo1 hi1 A : Nat} {e : List (Cell × Cell)}

theorem call_save (h : SavesSources lv lo1 hi1 lo hi A ix s) (hS : Saved s.ds A e) (he : e.length < 16)
    (hl : l.length + 7 ≤ capacity) (hr : r.length + 3 ≤ capacity) :
    Calling cfg n s.refs lv s.wl lo hi s.cur s.ds (ix "save-source") (shape s l r s.ds)
      (shape s l r (withEntry s.ds A (e.length + 1) (source s).1 (source s).2)) := by
  have g := h.region
  have B := h.equipped.library
  obtain ⟨w, hw, ha, hA⟩ := h.place
  have hlow := h.lower; have hup := h.upper; have hs := g.small
  have hlim : s.ds.limit < 2 ^ 63 := g.small
  have a1 := h.apart1; have a2 := h.apart2
  have eA : (toCell A).toNat = A := toNat_toCell (by omega)
  have eA8 : (toCell A + 8).toNat = A + 8 := by rw [toNat_eight (by omega), eA]
  have hL1 : ∀ (l r : List Cell) (m : DataSpace), Outside lo1 hi1 s.ds m → Loaded s.refs lv s.wl lo1 hi1 s.cur s.ds (shape s l r m) := by
    intro l r m ho
    refine Loaded.store (l := data s) (r := ret s) (m := s.ds) ?_ ho
    rw [shape_self]
    exact ⟨rfl, rfl, rfl, fun _ _ _ => rfl, h.equipped.words, fun _ w hw => ⟨w, hw, rfl, rfl⟩⟩
  refine h.coded.call g 0 rfl (by len) (by len) (by len) fun z q => ?_
  steps
  calls doing_sourceId (h.uses _ (by simp [sourceUses])) (by len) (by len)
  calls doing_sourceIdx (h.uses _ (by simp [sourceUses])) (by len) (by len)
  calls doing_var hw ha (by len) (by len)
  rw [hA]
  colon (call_twoFetch B hlim (by len) (by len) (by omega) (by omega)).elsewhere (hL1 _ _ _ (.refl _)) rfl rfl (.refl _)
  rw [eA, hS.capacity, hS.count]
  calls doing_effect 4 rfl (h.uses _ (by simp [sourceUses])) rfl (by len) (by len) (by len)
  try dsimp only
  calls doing_effect 26 rfl (h.uses _ (by simp [sourceUses])) rfl (by len) (by len) (by len)
  try dsimp only
  refine Going.seq (Going.elseTrue g (by len) (by len) (truth_ne ?_) ?_) (.last rfl)
  · rw [count_toInt (by omega)]
    show (16 : Cell).toInt > _
    rw [show (16 : Cell).toInt = 16 from rfl]; omega
  calls doing_effect 16 rfl (h.uses _ (by simp [sourceUses])) rfl (by len) (by len) (by len)
  try dsimp only
  have e1 : wrap ((BitVec.ofNat 64 e.length : Cell).toInt + 1) = BitVec.ofNat 64 (e.length + 1) := by
    rw [wrap_near]; apply BitVec.eq_of_toNat_eq; simp [wrap]
  rw [e1]
  calls doing_effect 1 rfl (h.uses _ (by simp [sourceUses])) rfl (by len) (by len) (by len)
  try dsimp only
  calls doing_var hw ha (by len) (by len)
  rw [hA]
  calls doing_cellPlus (h.uses _ (by simp [sourceUses])) (by len) (by len) (inIsize_near (c := 8) (by omega))
  calls doing_store g (h.uses _ (by simp [sourceUses])) (by len) (by len) (by omega) (by omega) (by omega)
  have ho1 : Outside lo1 hi1 s.ds (s.ds.setCell (A + 8) (BitVec.ofNat 64 (e.length + 1))) := outside_setCell (by omega)
  rw [eA8]
  colon (call_twoStar B (by len) (by len)).elsewhere (hL1 _ _ _ ho1) rfl rfl (.refl _)
  calls doing_cells (h.uses _ (by simp [sourceUses])) (by len) (by len) (entry_cells (by omega))
  calls doing_var hw ha (by len) (by len)
  rw [hA]
  calls doing_effect 18 rfl (h.uses _ (by simp [sourceUses])) rfl (by len) (by len) (by len)
  try dsimp only
  have eE := entry_address (A := A) (c := e.length + 1) (by omega) (by omega)
  colon (call_twoStore B (by simpa using hlim) (by len) (by len) (by rw [eE]; simp only [DataSpace.setCell_start]; omega)
    (by rw [eE]; simp only [DataSpace.setCell_limit]; omega) (by rw [eE]; omega)).elsewhere (hL1 _ _ _ ho1) rfl rfl
    ⟨rfl, rfl, fun x h1 h2 => by
      rw [eE, DataSpace.setCell_bytes_out (by omega), DataSpace.setCell_bytes_out (by omega)]⟩
  refine .last ?_
  rw [eE]; rfl

/-- The code of the library is untouched. -/
theorem Spec.SavesSources.loaded1 (h : SavesSources lv lo1 hi1 lo hi A ix s) (l r : List Cell) (m : DataSpace) (ho : Outside lo1 hi1 s.ds m) :
    Loaded s.refs lv s.wl lo1 hi1 s.cur s.ds (shape s l r m) := by
  refine Loaded.store (l := data s) (r := ret s) (m := s.ds) ?_ ho
  rw [shape_self]
  exact ⟨rfl, rfl, rfl, fun _ _ _ => rfl, h.equipped.words, fun _ w hw => ⟨w, hw, rfl, rfl⟩⟩

theorem call_restore {x : Cell × Cell} (h : SavesSources lv lo1 hi1 lo hi A ix s) (hS : Saved s.ds A (x :: e)) (hx : Readable s x.1)
    (hl : l.length + 4 ≤ capacity) (hr : r.length + 3 ≤ capacity) :
    Calling cfg n s.refs lv s.wl lo hi s.cur s.ds (ix "restore-source") (shape s l r s.ds)
      (shape (reading s x) l r (s.ds.setCell (A + 8) (BitVec.ofNat 64 e.length))) := by
  have g := h.region
  have B := h.equipped.library
  obtain ⟨w, hw, ha, hA⟩ := h.place
  have hlow := h.lower; have hup := h.upper; have hs := g.small
  have hlim : s.ds.limit < 2 ^ 63 := g.small
  have a1 := h.apart1; have a2 := h.apart2
  have eA : (toCell A).toNat = A := toNat_toCell (by omega)
  have eA8 : (toCell A + 8).toNat = A + 8 := by rw [toNat_eight (by omega), eA]
  have hroom : e.length + 1 ≤ 16 := hS.room
  have hent := hS.entry e.length x (by simp)
  refine h.coded.call g 1 rfl (by len) (by len) (by len) fun z q => ?_
  steps
  calls doing_var hw ha (by len) (by len)
  rw [hA]
  colon (call_twoFetch B hlim (by len) (by len) (by omega) (by omega)).elsewhere (h.loaded1 _ _ _ (.refl _)) rfl rfl (.refl _)
  rw [eA, hS.capacity, hS.count, List.length_cons]
  calls doing_effect 2 rfl (h.uses _ (by simp [sourceUses])) rfl (by len) (by len) (by len)
  try dsimp only
  calls doing_effect 1 rfl (h.uses _ (by simp [sourceUses])) rfl (by len) (by len) (by len)
  try dsimp only
  number
  calls doing_effect 26 rfl (h.uses _ (by simp [sourceUses])) rfl (by len) (by len) (by len)
  try dsimp only
  refine Going.seq (Going.elseTrue g (by len) (by len) (truth_ne ?_) ?_) (.last rfl)
  · rw [count_toInt (by omega), show (BitVec.ofNat 64 0 : Cell).toInt = 0 from rfl]; omega
  calls doing_effect 1 rfl (h.uses _ (by simp [sourceUses])) rfl (by len) (by len) (by len)
  try dsimp only
  calls doing_effect 17 rfl (h.uses _ (by simp [sourceUses])) rfl (by len) (by len) (by len)
  try dsimp only
  have e1 : wrap ((BitVec.ofNat 64 (e.length + 1) : Cell).toInt - 1) = BitVec.ofNat 64 e.length := by
    rw [count_toInt (by omega)]
    apply BitVec.eq_of_toInt_eq
    rw [count_toInt (by omega), wrap, BitVec.toInt_ofInt_eq_self (by omega) (by omega) (by omega)]
    omega
  rw [e1]
  calls doing_var hw ha (by len) (by len)
  rw [hA]
  calls doing_cellPlus (h.uses _ (by simp [sourceUses])) (by len) (by len) (inIsize_near (c := 8) (by omega))
  calls doing_store g (h.uses _ (by simp [sourceUses])) (by len) (by len) (by omega) (by omega) (by omega)
  have ho1 : Outside lo1 hi1 s.ds (s.ds.setCell (A + 8) (BitVec.ofNat 64 e.length)) := outside_setCell (by omega)
  rw [eA8]
  colon (call_twoStar B (by len) (by len)).elsewhere (h.loaded1 _ _ _ ho1) rfl rfl (.refl _)
  calls doing_cells (h.uses _ (by simp [sourceUses])) (by len) (by len) (entry_cells (by omega))
  calls doing_var hw ha (by len) (by len)
  rw [hA]
  calls doing_effect 18 rfl (h.uses _ (by simp [sourceUses])) rfl (by len) (by len) (by len)
  try dsimp only
  have eE := entry_address (A := A) (c := e.length + 1) (by omega) (by omega)
  colon (call_twoFetch B (by simpa using hlim) (by len) (by len) (by rw [eE]; simp only [DataSpace.setCell_start]; omega)
    (by rw [eE]; simp only [DataSpace.setCell_limit]; omega)).elsewhere (h.loaded1 _ _ _ ho1) rfl rfl (.refl _)
  rw [eE, DataSpace.cellAt_setCell_ne (by omega), DataSpace.cellAt_setCell_ne (by omega), hent.1, hent.2]
  calls doing_setSourceIdx (h.uses _ (by simp [sourceUses])) (by len) (by len)
  calls doing_setSourceId (h.uses _ (by simp [sourceUses])) (by len) (by len) (by simpa only [Readable, reading, VM.task_setTask] using hx)
    (by simp only [reading, VM.task_setTask]; omega)
  refine .last ?_
  congr 1
  simp only [reading, VM.task_setTask, VM.setTask_setTask]
  rw [toNat_toCell (by omega)]

theorem call_full (h : SavesSources lv lo1 hi1 lo hi A ix s) (hS : Saved s.ds A e) (he : e.length = 16)
    {v : Word} (hh : s.wl.words[s.handler]? = some v) (hv : v.action = .core .noop)
    (hl : l.length + 5 ≤ capacity) (hr : r.length + 2 ≤ capacity) :
    Calling cfg (n + 1) s.refs lv s.wl lo hi s.cur s.ds (ix "save-source") (shape s l r s.ds)
      (shape (raised (s.at (pc s) (ix "abort")) .abort) [] r s.ds) := by
  have g := h.region
  have B := h.equipped.library
  obtain ⟨w, hw, ha, hA⟩ := h.place
  have hlow := h.lower; have hup := h.upper; have hs := g.small
  have hlim : s.ds.limit < 2 ^ 63 := g.small
  have eA : (toCell A).toNat = A := toNat_toCell (by omega)
  refine h.coded.call g 0 rfl (by len) (by len) (by len) fun z q => ?_
  steps
  calls doing_sourceId (h.uses _ (by simp [sourceUses])) (by len) (by len)
  calls doing_sourceIdx (h.uses _ (by simp [sourceUses])) (by len) (by len)
  calls doing_var hw ha (by len) (by len)
  rw [hA]
  colon (call_twoFetch B hlim (by len) (by len) (by omega) (by omega)).elsewhere (h.loaded1 _ _ _ (.refl _)) rfl rfl (.refl _)
  rw [eA, hS.capacity, hS.count, he]
  calls doing_effect 4 rfl (h.uses _ (by simp [sourceUses])) rfl (by len) (by len) (by len)
  try dsimp only
  calls doing_effect 26 rfl (h.uses _ (by simp [sourceUses])) rfl (by len) (by len) (by len)
  try dsimp only
  rw [truth_zero (by decide)]
  refine Going.seq (Going.elseFalse g (by len) (by len) ?_) (.last rfl)
  calls doing_abort (h.uses _ (by simp [sourceUses])) hh hv
  exact .last rfl

theorem call_empty (h : SavesSources lv lo1 hi1 lo hi A ix s) (hS : Saved s.ds A [])
    {v : Word} (hh : s.wl.words[s.handler]? = some v) (hv : v.action = .core .noop)
    (hl : l.length + 3 ≤ capacity) (hr : r.length + 2 ≤ capacity) :
    Calling cfg (n + 1) s.refs lv s.wl lo hi s.cur s.ds (ix "restore-source") (shape s l r s.ds)
      (shape (raised (s.at (pc s) (ix "abort")) .abort) [] r s.ds) := by
  have g := h.region
  have B := h.equipped.library
  obtain ⟨w, hw, ha, hA⟩ := h.place
  have hlow := h.lower; have hup := h.upper; have hs := g.small
  have hlim : s.ds.limit < 2 ^ 63 := g.small
  have eA : (toCell A).toNat = A := toNat_toCell (by omega)
  refine h.coded.call g 1 rfl (by len) (by len) (by len) fun z q => ?_
  steps
  calls doing_var hw ha (by len) (by len)
  rw [hA]
  colon (call_twoFetch B hlim (by len) (by len) (by omega) (by omega)).elsewhere (h.loaded1 _ _ _ (.refl _)) rfl rfl (.refl _)
  rw [eA, hS.capacity, hS.count]
  calls doing_effect 2 rfl (h.uses _ (by simp [sourceUses])) rfl (by len) (by len) (by len)
  try dsimp only
  calls doing_effect 1 rfl (h.uses _ (by simp [sourceUses])) rfl (by len) (by len) (by len)
  try dsimp only
  number
  calls doing_effect 26 rfl (h.uses _ (by simp [sourceUses])) rfl (by len) (by len) (by len)
  try dsimp only
  rw [truth_zero (by decide)]
  refine Going.seq (Going.elseFalse g (by len) (by len) ?_) (.last rfl)
  calls doing_abort (h.uses _ (by simp [sourceUses])) hh hv
  exact .last rfl

end
end Verif
