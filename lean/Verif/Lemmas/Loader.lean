import Verif.Lemmas.Beside

/-!
# Running the loader of core.fth
-/

namespace Verif
open Spec Stack

section
variable {lv n A V room : Nat} {s s0 t u : VM} {cfg : Cfg} {l r : List Cell} {m : DataSpace} {ix : String → Nat}
  {g1 g2 g3 g : Nat × Nat} {ls : List (List Char)}

theorem Spec.Works.mono {L L' : VM → Prop} (hLL : ∀ b, L b → L' b) {toks : List (List Char)} (h : Works cfg n room L toks s t) :
    Works cfg n room L' toks s t := by
  induction h with
  | done hn => exact .done hn
  | token hn hne he hL _ ih => exact .token hn hne he (hLL _ hL) ih

theorem Spec.StillLoaded.loaded {gs : List (Nat × Nat)} (h : StillLoaded lv gs s0 t) {g : Nat × Nat} (hg : g ∈ gs) :
    Loaded s0.refs lv s0.wl g.1 g.2 s0.cur s0.ds t := h.code g hg

theorem Spec.StillLoaded.beside {gs : List (Nat × Nat)} (h : StillLoaded lv gs s0 t) (x : Side) : StillLoaded lv gs s0 (beside t x) :=
  ⟨h.refs, fun g hg => (h.code g hg).congr rfl rfl rfl⟩

theorem Spec.StillLoaded.flushed {gs : List (Nat × Nat)} (h : StillLoaded lv gs s0 t) : StillLoaded lv gs s0 (flushed t) := by
  rw [flushed_beside]; exact h.beside _

theorem Spec.StillLoaded.stored {gs : List (Nat × Nat)} (h : StillLoaded lv gs s0 t) {m : DataSpace} (hm : ∀ g, g ∈ gs → Outside g.1 g.2 t.ds m) :
    StillLoaded lv gs s0 { t with ds := m } := by
  refine ⟨h.refs, fun g hg => ?_⟩
  have h1 := h.code g hg
  obtain ⟨a, b, c⟩ := hm g hg
  exact ⟨h1.cur, a.trans h1.start, b.trans h1.cap, fun x k1 k2 => (c x k1 k2).trans (h1.code x k1 k2), h1.words, h1.kept⟩

theorem Spec.HasLoader.kept (h : HasLoader lv g1 g2 g3 g A V ix s) (gs : List (Nat × Nat)) : StillLoaded lv gs s s :=
  ⟨rfl, fun _ _ => ⟨rfl, rfl, rfl, fun _ _ _ => rfl, h.reader.words, fun _ w hw => ⟨w, hw, rfl, rfl⟩⟩⟩

theorem shape_of_setRet (s : VM) (r : List Cell) : setRet s r = shape s (data s) r s.ds := (shape_setRet s r).symm

theorem shape_counted (V : Nat) (s : VM) (l r : List Cell) :
    shape s l r (s.ds.setCell V (s.ds.cellAt V + 1)) = shape (counted V s) l r (counted V s).ds := by
  rw [shape_eq, shape_eq]; rfl

set_option quotPrecheck false
local notation "Go" => Going cfg n s0.refs lv s0.wl g.1 g.2 s0.cur s0.ds
local notation "Call" => Calling cfg n s0.refs lv s0.wl g.1 g.2 s0.cur s0.ds

theorem going_nextLine {j : Nat} {more : Bool} (h : HasLoader lv g1 g2 g3 g A V ix s0)
    (hl : loadLine (ctx cfg n) s.task.st.sourceId.toNat s = .ok (.ok (j, more), u)) (hd : (data s).length + 2 ≤ capacity)
    (hr : r.length ≤ capacity) :
    Go (code ix ["source-id", "load-line"]) (setRet s r) (shape u (truth (more = true) :: toCell j :: data u) r u.ds) := by
  have hc : capacity = 64 := rfl
  rw [← shape_setRet]
  have e := (loadLine_beside hl).1
  have e1 : data u = data s := by rw [e, data, beside_task]; rfl
  have e2 : u.ds = s.ds := by rw [e]; rfl
  rw [e1, e2]
  steps
  refine .seq (.doing h.region (doing_sourceId (h.uses _ (by simp [loaderUses])) (by omega) hr)) ?_
  refine .seq (.doing h.region (doing_loadLine (h.uses _ (by simp [loaderUses])) hl (by omega) hr)) ?_
  exact .skip

theorem wrap_one (x : Cell) : wrap (x.toInt + (1#64 : Cell).toInt) = x + 1 := by
  rw [wrap]; apply BitVec.eq_of_toInt_eq; simp [BitVec.toInt_add]

theorem going_load (h : HasLoader lv g1 g2 g3 g A V ix s0) (hL : Loads cfg n room (StillLoaded lv [g1, g2, g3, g] s0) V ls s t)
    (hk0 : StillLoaded lv [g1, g2, g3, g] s0 s) (hr : r.length + 1 + room ≤ capacity) : ∃ j, (data t).length + 1 ≤ capacity ∧ 
    Go (.whileLoop (code ix ["source-id", "load-line"])
      (code ix ["drop", 0, "source-idx!", "evaluate-input", "flush-output", 1, "load-line#", "+!"])) (setRet s r)
      (shape t (j :: data t) r t.ds) := by
  have hc : capacity = 64 := rfl
  have gg := h.region
  induction hL with
  | @done s u k hl hd =>
    have e := (loadLine_beside hl).1
    have e1 : data u = data s := by rw [e, data, beside_task]; rfl
    refine ⟨toCell k, by rw [e1]; omega, .whileEnd gg (by simp [e1]; omega) (by omega) ?_⟩
    have := going_nextLine (cfg := cfg) (n := n) (r := r) h hl hd (by omega)
    rw [show truth (false = true) = 0 from truth_zero (by simp)] at this
    exact this
  | @line s u t v l ls toks hl _ hd hw hk hd' _ ih =>
    obtain ⟨w, hV1, hV2, hV⟩ := h.place
    have hap : ∀ x, x ∈ [g1, g2, g3, g] → Outside x.1 x.2 (flushed t).ds ((flushed t).ds.setCell V ((flushed t).ds.cellAt V + 1)) := by
      intro x hx
      exact outside_setCell (h.apart x (List.mem_append_left [(A, A + 272)] hx))
    obtain ⟨j, ih1, ih2⟩ := ih (hk.flushed.stored hap)
    have e := (loadLine_beside hl).1
    have e1 : data u = data s := by rw [e, data, beside_task]; rfl
    refine ⟨j, ih1, .whileNext gg (by simp [e1]; omega) (by omega) (truth_ne rfl) (going_nextLine h hl hd (by omega)) ?_ ih2⟩
    steps
    refine .seq (.doing gg (doing_effect 2 rfl (h.uses _ (by simp [loaderUses])) rfl (by simp [e1]; omega) (by simp [e1]; omega) (by omega))) ?_
    refine .seq (.lit gg (by simp [e1]; omega) (by omega)) ?_
    refine .seq (.doing gg (doing_setSourceIdx (h.uses _ (by simp [loaderUses])) (by simp [e1]; omega) (by omega))) ?_
    have e3 : reading u (u.task.st.sourceId, 0#64) = lineStart u := rfl
    have e4 : data u = data (lineStart u) := by simp [data, lineStart]
    have e5 : u.ds = (lineStart u).ds := rfl
    rw [e3, e4, e5, shape_setRet]
    have hread : Call (ix "evaluate-input") (setRet (lineStart u) r) (setRet t r) := by
      intro hL1
      have hL3 : Loaded s0.refs lv s0.wl g3.1 g3.2 s0.cur s0.ds (setRet (lineStart u) r) := by
        rw [e]
        exact (hk0.loaded (g := g3) (by simp)).congr rfl rfl rfl
      refine ⟨(call_reader h.reader.region h.reader.uses h.reader.coded (hw.mono fun b hb => hb.loaded (g := g3) (by simp))
        (by rw [← e4, e1]; omega) (by omega) (by omega) hL3).1, (hk.loaded (g := g) (by simp)).congr rfl rfl rfl⟩
    refine .seq (.word gg hread) ?_
    rw [← shape_setRet]
    refine .seq (.doing gg (doing_flush (h.uses _ (by simp [loaderUses])) (by omega) (by omega))) ?_
    refine .seq (.lit gg (by omega) (by omega)) ?_
    refine .seq (.doing gg (doing_var hV1 hV2 (by simp; omega) (by omega))) ?_
    have hL1 := hk.loaded (g := g1) (by simp)
    have hlo := h.lower; have hup := h.upper; have hsm := gg.small
    have eV : (toCell V).toNat = V := toNat_toCell (by simp only [DataSpace.limit] at hup; omega)
    have ea := h.apart g1 (by simp)
    have edt : data (flushed t) = data t := by rw [flushed_beside, data, beside_task]; rfl
    have eds : (flushed t).ds = t.ds := by rw [flushed_beside]; rfl
    have hplus := call_plusStore (cfg := cfg) (n := n) (k := s0.cur) (s := flushed t) (l := data t) (r := r) (m := t.ds)
      (a := toCell V) (x := 1#64) h.saves.equipped.library (by omega) (by omega)
      (by rw [eV, hL1.start]; exact hlo) (by rw [eV, DataSpace.limit, hL1.start, hL1.cap]; exact hup) (by rw [eV]; exact ea)
    rw [eV, wrap_one] at hplus
    rw [hV]
    refine .seq (.word gg (hplus.elsewhere ?_ rfl rfl ?_)) ?_
    · exact (hk.flushed.loaded (g := g1) (by simp)).congr rfl (by rw [eds]; rfl) rfl
    · have := hap g (by simp); rw [eds] at this; exact this
    · rw [← eds, shape_counted, show data t = data (counted V (flushed t)) from edt.symm, shape_setRet]
      exact .skip

theorem call_load (h : HasLoader lv g1 g2 g3 g A V ix s0) (hL : Loads cfg n room (StillLoaded lv [g1, g2, g3, g] s0) V ls s t)
    (hk0 : StillLoaded lv [g1, g2, g3, g] s0 s) (hd : (data s).length ≤ capacity) (hr : r.length + 2 + room ≤ capacity) :
    Call (ix "load-source-file") (setRet s r) (setRet t r) := by
  have hc : capacity = 64 := rfl
  rw [← shape_setRet, ← shape_setRet]
  obtain ⟨-, hd', -⟩ := going_load (r := r) h hL hk0 (by omega)
  refine h.coded.call h.region 0 rfl hd (by omega) (by omega) fun z q => ?_
  obtain ⟨j, hd', hg⟩ := going_load (r := z :: r) h hL hk0 (by simp; omega)
  rw [shape_setRet]
  simp only [code, Stmt.all, List.map, Part.code] at hg
  steps
  refine .seq hg (.seq (.doing h.region (doing_effect 2 rfl (h.uses _ (by simp [loaderUses])) rfl (by simp; omega) (by omega) (by simp; omega))) .skip)

theorem Spec.Loads.still (h : HasLoader lv g1 g2 g3 g A V ix s0) (hL : Loads cfg n room (StillLoaded lv [g1, g2, g3, g] s0) V ls s t)
    (hk0 : StillLoaded lv [g1, g2, g3, g] s0 s) : StillLoaded lv [g1, g2, g3, g] s0 t := by
  induction hL with
  | done hl hd => rw [(loadLine_beside hl).1]; exact hk0.beside _
  | line _ _ _ _ hk _ _ ih =>
    exact ih (hk.flushed.stored fun x hx => outside_setCell (h.apart x (List.mem_append_left [(A, A + 272)] hx)))

/-! ### A file given by its path -/

theorem Spec.Coded.moved {R : Refs} {wl : Wordlist} {lo hi : Nat} {k : Fin 5} {d : DataSpace} {defs : List (String × Stmt)}
    (h : Coded R lv wl lo hi d ix defs) (hL : Loaded R lv wl lo hi k d t) : Coded R lv t.wl lo hi t.ds ix defs := by
  intro e he
  obtain ⟨w, h1, h2, h3, h4, h5⟩ := h e he
  obtain ⟨v, k1, k2, k3⟩ := hL.kept _ _ h1
  refine ⟨v, k1, k2.trans h2, by rw [k3]; exact h3, by rw [k3]; exact h4, ?_⟩
  rw [k3]
  exact h5.congr fun z z1 z2 => hL.code z (by omega) (by omega)

theorem Spec.Builtin.moved {wl v : Wordlist} (h : SameCode wl v) {i : Nat} {name : String} (hb : Builtin wl i name) : Builtin v i name := by
  obtain ⟨w, h1, h2⟩ := hb
  obtain ⟨x, k1, k2, -⟩ := h _ _ h1
  exact ⟨x, k1, by rw [k2]; exact h2⟩

theorem Spec.Region.moved {d e : DataSpace} {lo hi : Nat} (h : Region d lo hi) (h1 : e.start = d.start) (h2 : e.cap = d.cap) : Region e lo hi :=
  ⟨by rw [h1]; exact h.lower, by rw [h1, h2]; exact h.upper, by rw [h1, h2]; exact h.small⟩

theorem Spec.SavesSources.moved (h : SavesSources lv g1.1 g1.2 g2.1 g2.2 A ix s0) (hk : StillLoaded lv [g1, g2, g3, g] s0 t) :
    SavesSources lv g1.1 g1.2 g2.1 g2.2 A ix t := by
  have k1 := hk.loaded (g := g1) (by simp)
  have k2 := hk.loaded (g := g2) (by simp)
  have hR := hk.refs
  obtain ⟨w, w1, w2, w3⟩ := h.place
  obtain ⟨v, v1, v2, v3⟩ := k1.kept _ _ w1
  refine ⟨⟨by rw [hR]; exact k1.words, ⟨h.equipped.library.region.moved k1.start k1.cap, fun name hn =>
    (h.equipped.library.uses name hn).moved k1.kept, by rw [hR]; exact h.equipped.library.coded.moved k1⟩⟩,
    h.region.moved k2.start k2.cap, fun name hn => (h.uses name hn).moved k1.kept, by rw [hR]; exact h.coded.moved k2,
    ⟨v, v1, v2.trans w2, v3.trans w3⟩, by rw [k1.start]; exact h.lower, by rw [DataSpace.limit, k1.start, k1.cap]; exact h.upper,
    h.apart1, h.apart2⟩

theorem doing_const {R : Refs} {wl : Wordlist} {lo hi i : Nat} {k : Fin 5} {d : DataSpace} {w : Word} (hw : wl.words[i]? = some w)
    (ha : w.action = .core .pConst) (h1 : m.start ≤ w.dfa) (h2 : w.dfa + 8 ≤ m.limit) (hl : l.length < capacity)
    (hr : r.length ≤ capacity) : Doing cfg n R lv wl lo hi k d i (shape s l r m) (shape s (m.cellAt w.dfa :: l) r m) := by
  simp only [capacity] at hl
  refine doing_data hw (by simp [capacity]; omega) hr (by simp [capacity]; omega)
    (fun u v k1 k2 k3 k4 k5 k6 _ _ => ?_)
  refine ⟨u.task.s.push (m.cellAt w.dfa), ?_, by rw [push_holding _ _ (by rw [k1]; omega), k1]; exact .refl _⟩
  rw [ha]
  simp only [action, coreAction, pConst, M.bind_apply, getSt_apply, k6]
  rw [wordAt_ok k4]
  simp [k5, k3, dsRd_apply, DataSpace.getCell, DataSpace.valid, h1, h2]

theorem outside_trans {lo hi : Nat} {m m' m'' : DataSpace} (h : Outside lo hi m m') (h' : Outside lo hi m' m'') : Outside lo hi m m'' := by
  obtain ⟨a, b, c⟩ := h
  obtain ⟨a', b', c'⟩ := h'
  exact ⟨a'.trans a, b'.trans b, fun x k1 k2 => (c' x k1 k2).trans (c x k1 k2)⟩

theorem outside_withEntry {lo hi : Nat} {c : Nat} {x y : Cell} (hc : c ≤ 16) (h : A + 272 ≤ lo ∨ hi ≤ A) :
    Outside lo hi m (withEntry m A c x y) :=
  outside_trans (outside_trans (outside_setCell (by omega)) (outside_setCell (by omega))) (outside_setCell (by omega))

theorem text_withEntry {a u : Cell} {c : Nat} {x y : Cell} (hc : c ≤ 16) (h : a.toNat + u.toNat ≤ A ∨ A + 272 ≤ a.toNat) :
    textAt (withEntry m A c x y) a u = textAt m a u := by
  unfold textAt
  refine List.map_congr_left fun i hi => ?_
  have := List.mem_range.mp hi
  exact (outside_withEntry (A := A) (lo := a.toNat) (hi := a.toNat + u.toNat) hc (by omega)).bytes _ (by omega) (by omega)

theorem placed_cleared {α : Type} (l : List (Option α)) (x : α) : (placed l x).set (freePlace l) none =
    if freePlace l < l.length then l else l ++ [none] := by
  unfold placed
  split
  · next h =>
    have := freePlace_free h
    rw [List.getElem?_eq_some_iff] at this
    rw [List.set_set]
    obtain ⟨h1, h2⟩ := this
    conv => rhs; rw [← List.set_getElem_self h1]
    rw [h2]
  · next h =>
    have := freePlace_le l
    have e : freePlace l = l.length := by omega
    rw [e, List.set_append]; simp

theorem fileOpened_task (s : VM) (ino : Nat) :
    (fileOpened s ino).task = { s.task with files := placed s.task.files ⟨ino, 0, true, false⟩ } := by
  show (s.setTask _).task = _
  rw [VM.task_setTask]

theorem fileOpened_setTask (s : VM) (ino : Nat) (x : Task) :
    (fileOpened s ino).setTask x = { s.setTask x with host := { s.host with calls := s.host.calls + 1 } } := by
  have : (fileOpened s ino).setTask x = { (s.setTask { s.task with files := placed s.task.files ⟨ino, 0, true, false⟩ }).setTask x with
    host := { s.host with calls := s.host.calls + 1 } } := rfl
  rw [this, VM.setTask_setTask]

/-- Turning to the file just opened. -/
theorem turned {id : Nat} {path : List Byte} {ino : Nat} (hid : id = freePlace s.task.files + 1) (hidx : s.task.st.sourceIndex < 2 ^ 64) :
    reading (sourceOpened (fileOpened s ino) id ⟨ino, 0, true, false⟩ path)
      (toCell (nextSource s), toCell (sourceOpened (fileOpened s ino) id ⟨ino, 0, true, false⟩ path).task.st.sourceIndex) =
      opened s ino path := by
  have e : (toCell s.task.st.sourceIndex).toNat = s.task.st.sourceIndex := toNat_toCell hidx
  subst hid
  simp only [reading, sourceOpened, VM.setTask_setTask, VM.task_setTask, fileOpened_task, opened, e, Nat.add_sub_cancel, placed_cleared]
  exact fileOpened_setTask s ino _

theorem outside_appended {lo hi : Nat} {x : Cell} (ho : m.here + 8 ≤ lo ∨ hi ≤ m.here) : Outside lo hi m (appended m x) := by
  obtain ⟨a, b, c⟩ := outside_setCell (m := m) (a := m.here) (x := x) ho
  exact ⟨a, b, c⟩

/-- `_postpone` of a word compiles a call of it, even if the word is immediate. -/
theorem doing_postpone {R : Refs} {wl : Wordlist} {lo hi i : Nat} {k : Fin 5} {d : DataSpace} {x : Cell} {w : Word}
    (hb : Builtin wl i "_postpone") (hw : s.wl.words[x.toNat]? = some w) (hc : w.compSem = .word) (hs : SoundSpace m)
    (hro : m.here + 8 ≤ m.limit) (ho : m.here + 8 ≤ lo ∨ hi ≤ m.here) (hl : l.length + 1 ≤ capacity) (hr : r.length ≤ capacity) :
    Doing cfg n R lv wl lo hi k d i (shape s (x :: l) r m) (shape s l r (appended m x)) := by
  obtain ⟨w0, hw0, hp⟩ := hb
  have hp' := prim_inj hp (p := .core .postponeRt) rfl
  simp only [capacity] at hl
  refine doing_shape hw0 (by simp [capacity]; omega) hr (by simp [capacity]; omega) hr (outside_appended ho) (fun u v k1 k2 k3 k4 k5 k6 k7 k8 => ?_)
  refine ⟨u.task.s.pop.2, u.task.r, ?_, by rw [pop_holding k1]; exact .refl _, by rw [← k2, holding_self]; exact .refl _⟩
  rw [hp']
  show postponeRt _ u = _
  have e : u.task.s.pop.1 = x := (items_eq_iff.mp k1).pop_fst
  have hwl : u.wl = s.wl := k8.wl
  unfold postponeRt
  rw [M.bind_ok (sPop_apply _), e, M.bind_ok (wordAt_ok (w := w) (by rw [← hw, ← hwl]; rfl)), hc]
  show compileWord _ x.toNat _ = _
  rw [compileWord, show toCell x.toNat = x by simp [toCell]]
  subst k3
  exact dsOp_ok (s := u.setTask { u.task with s := u.task.s.pop.2 }) (ds_compileCell (d := u.ds) hs x hro)

theorem call_included {a u : Cell} {path : List Byte} {ino : Nat} {e : List (Cell × Cell)} {f : Source}
    (h : HasLoader lv g1 g2 g3 g A V ix s) (hd : data s = u :: a :: l) (ho : Opens cfg s a u path ino) (hli : Lined s)
    (hS : Saved s.ds A e) (he : e.length < 16) (hap : a.toNat + u.toNat ≤ A ∨ A + 272 ≤ a.toNat)
    (hidx : s.task.st.sourceIndex < 2 ^ 64) (hfr : FreeAbove s.ds [g1, g2, g3, g])
    (hL : Loads cfg n room (StillLoaded lv [g1, g2, g3, g] s) V ls
      (leaving (opened s ino path) l (loadingSpace s A V (e.length + 1) ix)) t)
    (hid : t.task.st.sourceId = toCell (nextSource s))
    (hf : t.task.sources[freePlace s.task.sources]? = some (some f)) (hSt : Saved t.ds A (source s :: e))
    (hRt : Readable t (source s).1) (hne : (source s).1 ≠ toCell (nextSource s)) (hl : l.length + 10 ≤ capacity)
    (hdt : (data t).length + 5 ≤ capacity) (hr : r.length + 3 + room ≤ capacity) (hr2 : r.length + 4 ≤ capacity) :
    Calling cfg n s.refs lv s.wl g.1 g.2 s.cur s.ds (ix "included") (setRet s r)
      (shape (closed (reading t (source s)) (nextSource s)) (data t) r (t.ds.setCell (A + 8) (BitVec.ofNat 64 e.length))) := by
  have hc : capacity = 64 := rfl
  have gg := h.region
  obtain ⟨w, w1, w2, w3, w4, w5⟩ := h.readOnly
  obtain ⟨x, x1, x2, x3⟩ := h.place
  have hsm : s.ds.limit < 2 ^ 63 := gg.small
  rw [← shape_setRet, hd]
  refine h.coded.call gg 1 rfl (by simp; omega) (by omega) (by omega) fun z q => ?_
  steps
  calls doing_effect 9 rfl (h.uses _ (by simp [loaderUses])) rfl (by len) (by len) (by len)
  try dsimp only
  calls doing_const w1 w2 w3 w4 (by len) (by len)
  rw [w5]
  calls doing_openFile (h.uses _ (by simp [loaderUses])) ho hsm (by len) (by len)
  calls doing_effect 27 rfl (h.uses _ (by simp [loaderUses])) rfl (by len) (by len) (by len)
  try dsimp only
  refine Going.seq (Going.elseTrue gg (by len) (by len) (truth_ne (by decide)) ?_) (.last rfl)
  have k1 : StillLoaded lv [g1, g2, g3, g] s (fileOpened s ino) := (h.kept _).beside
    { sideOf s with files := placed s.task.files ⟨ino, 0, true, false⟩, host := { s.host with calls := s.host.calls + 1 } }
  have esrc : source (fileOpened s ino) = source s := by rw [source, fileOpened_task]; rfl
  have o1 : Outside g.1 g.2 s.ds (withEntry s.ds A (e.length + 1) (source s).1 (source s).2) := outside_withEntry (by omega) (h.apartA g (by simp))
  refine .seq (.word gg (Calling.elsewhere (call_save (h.saves.moved k1) hS he (by simp; omega) (by simp; omega)) ?_ rfl rfl (by rw [esrc]; exact o1))) ?_
  · exact (k1.loaded (g := g2) (by simp)).congr rfl rfl rfl
  rw [esrc, show (fileOpened s ino).ds = s.ds from rfl]
  have hp1 := freePlace_le s.task.files
  have hp2 := freePlace_le s.task.sources
  have hsm2 := hli.small
  have ef : (toCell (freePlace s.task.files + 1)).toNat = freePlace s.task.files + 1 := toNat_toCell (by omega)
  have es : (toCell (nextSource s)).toNat = nextSource s := toNat_toCell (by rw [nextSource]; omega)
  have efi : 0 < (toCell (freePlace s.task.files + 1)).toInt := by rw [BitVec.toInt_eq_toNat_cond, ef]; split <;> omega
  have esi : 0 < (toCell (nextSource s)).toInt := by rw [BitVec.toInt_eq_toNat_cond, es, nextSource]; split <;> omega
  refine .seq (.doing gg (doing_openSource (h := ⟨ino, 0, true, false⟩) (h.uses _ (by simp [loaderUses])) efi ?_ ho.inside (by len) (by len))) ?_
  · rw [ef, fileOpened_task]; exact placed_at _ _
  rw [text_withEntry (by omega) hap, ho.bytes, show nextSource (fileOpened s ino) = nextSource s by rw [nextSource, fileOpened_task]; rfl]
  have eln : ∃ b, (if freePlace s.task.sources < s.task.sources.length then s.task.lines else s.task.lines ++ [some []])[freePlace s.task.sources]? = some (some b) := by
    split
    · next hlt => exact hli.some _ hlt
    · next hlt =>
      have e1 : freePlace s.task.sources = s.task.lines.length := by rw [hli.length]; omega
      rw [e1]; exact ⟨[], by simp⟩
  refine .seq (.doing gg (doing_setSourceId (h.uses _ (by simp [loaderUses])) (by len) (by len) (.inr ⟨esi, ⟨⟨⟨ino, 0, true, false⟩, path⟩, ?_⟩, ?_⟩) ?_)) ?_
  · rw [es, nextSource, sourceOpened, VM.task_setTask, fileOpened_task]; simp only [Nat.add_sub_cancel]; exact placed_at _ _
  · rw [es, nextSource, sourceOpened, VM.task_setTask, fileOpened_task]; simp only [Nat.add_sub_cancel]; exact eln
  · rw [sourceOpened, VM.task_setTask, fileOpened_task]; exact hidx
  rw [turned ef hidx]
  obtain ⟨wb, b1, b2, b3⟩ := h.bracket
  have eb : (toCell (ix "[")).toNat = ix "[" := toNat_toCell b3
  have hfg := hfr.above g (by simp)
  have hroom : s.ds.here + 8 ≤ s.ds.limit := hfr.room
  refine .seq (.lit gg (by len) (by len)) ?_
  refine .seq (.doing gg (doing_postpone (h.uses _ (by simp [loaderUses])) (w := wb) (by rw [eb]; exact b1) b2 ⟨hfr.sound.pos, hfr.sound.aligned, hfr.sound.small, hfr.sound.vars, hfr.sound.inside⟩ hroom (.inr hfg)
    (by len) (by len))) ?_
  refine .seq (.lit gg (by len) (by len)) ?_
  refine .seq (.doing gg (doing_var x1 x2 (by len) (by len))) ?_
  rw [x3]
  have hlo := h.lower; have hup := h.upper
  have eV : (toCell V).toNat = V := toNat_toCell (by omega)
  refine .seq (.doing gg (doing_store gg (h.uses _ (by simp [loaderUses])) (by len) (by len) (by rw [eV]; exact hlo) (by rw [eV]; exact hup) (by rw [eV]; exact h.apart g (by simp)))) ?_
  rw [eV]
  have eL : ∀ r, shape (opened s ino path) l r ((appended (withEntry s.ds A (e.length + 1) (source s).1 (source s).2) (toCell (ix "["))).setCell V 1#64) =
      setRet (leaving (opened s ino path) l (loadingSpace s A V (e.length + 1) ix)) r := by
    intro r
    rfl
  rw [eL]
  have k2 : StillLoaded lv [g1, g2, g3, g] s (leaving (opened s ino path) l (loadingSpace s A V (e.length + 1) ix)) := by
    refine ⟨rfl, fun x hx => ?_⟩
    have ha : A + 272 ≤ x.1 ∨ x.2 ≤ A := by
      simp only [List.mem_cons, List.not_mem_nil, or_false] at hx
      rcases hx with rfl | rfl | rfl | rfl
      · exact h.saves.apart1
      · exact h.saves.apart2
      · exact h.apartA _ (by simp)
      · exact h.apartA _ (by simp)
    have o := outside_trans (m := s.ds) (outside_trans (outside_withEntry (c := e.length + 1) (x := (source s).1) (y := (source s).2) (by omega) ha)
      (outside_appended (x := toCell (ix "[")) (.inr (hfr.above x (List.mem_append_left [] hx))))) (outside_setCell (a := V) (x := 1) (h.apart x (List.mem_append_left [(A, A + 272)] hx)))
    have := (h.kept [x]).code x (by simp)
    exact ⟨rfl, o.start, o.cap, o.bytes, this.words, this.kept⟩
  have hk := hL.still h k2
  refine .seq (.word gg (call_load h hL k2 ?_ (by simp; omega))) ?_
  · have : data (setData (opened s ino path) l) = l := data_setData (by omega)
    show (data (setData (opened s ino path) l)).length ≤ capacity
    rw [this]; omega
  rw [← shape_setRet]
  refine .seq (.doing gg (doing_sourceId (h.uses _ (by simp [loaderUses])) (by omega) (by len))) ?_
  rw [hid]
  have hR : Calling cfg n s.refs lv s.wl g.1 g.2 s.cur s.ds (ix "restore-source") (shape t (toCell (nextSource s) :: data t) (z :: r) t.ds)
      (shape (reading t (source s)) (toCell (nextSource s) :: data t) (z :: r) (t.ds.setCell (A + 8) (BitVec.ofNat 64 e.length))) := by
    intro hL1
    have hc := call_restore (cfg := cfg) (n := n) (l := toCell (nextSource s) :: data t) (r := z :: r) (h.saves.moved hk) hSt hRt (by len) (by len)
    have hw : Runtime t.refs lv t.wl := by rw [hk.refs]; exact hL1.words
    refine ⟨(hc ⟨rfl, rfl, rfl, fun _ _ _ => rfl, hw, fun _ w hw => ⟨w, hw, rfl, rfl⟩⟩).1, ?_⟩
    have o := outside_setCell (m := t.ds) (a := A + 8) (x := BitVec.ofNat 64 e.length) (lo := g.1) (hi := g.2) (by have := h.apartA g (by simp); omega)
    exact ((hL1.store o (l' := toCell (nextSource s) :: data t) (r' := z :: r)).congr rfl rfl rfl)
  refine .seq (.word gg hR) ?_
  have hcl := doing_closeSource (cfg := cfg) (n := n) (R := s.refs) (lv := lv) (lo := g.1) (hi := g.2) (k := s.cur) (d := s.ds)
    (m := t.ds.setCell (A + 8) (BitVec.ofNat 64 e.length)) (s := reading t (source s)) (f := f) (l := data t) (r := z :: r)
    (h.uses "close-source" (by simp [loaderUses])) esi (by rw [reading, VM.task_setTask]; exact hne)
    (by rw [reading, VM.task_setTask, es, nextSource, Nat.add_sub_cancel]; exact hf) (by omega) (by len)
  rw [es] at hcl
  exact .seq (.doing gg hcl) .skip

/-- The machine after asking the host. -/
def Spec.asked (s : VM) : VM := { s with host := { s.host with calls := s.host.calls + 1 } }

theorem doing_openMissing {R : Refs} {wl : Wordlist} {lo hi i : Nat} {k : Fin 5} {d : DataSpace} {a u : Cell} {path : List Byte}
    (hb : Builtin wl i "open-file") (hu : u.toNat ≤ 256) (hin : Inside m a u) (ht : textAt m a u = path)
    (hd : s.host.dir path = none ∨ cfg.ioFails s.host.calls = true) (hs : m.limit < 2 ^ 63) (hl : l.length + 3 ≤ capacity)
    (hr : r.length ≤ capacity) :
    Doing cfg n R lv wl lo hi k d i (shape s (0 :: u :: a :: l) r m) (shape (asked s) (Exn.fileIO.toCell :: -1 :: l) r m) := by
  obtain ⟨w, hw, hp⟩ := hb
  have hp' := prim_inj hp (p := .file .openFile) rfl
  have h1 : asked s = beside s { sideOf s with host := { s.host with calls := s.host.calls + 1 } } := by
    refine Eq.trans (b := asked (beside s (sideOf s))) ?_ rfl
    rw [beside_self]
  rw [h1]
  simp only [capacity] at hl
  refine doing_beside hw (by simp [capacity]; omega) hr (by simp [capacity]; omega) fun v k1 k2 k3 k4 => ?_
  have hrep := items_eq_iff.mp k1
  have hf : v.task.files = s.task.files := congrArg Side.files k3
  have hh : v.host = s.host := congrArg Side.host k3
  have hlim : a.toNat + u.toNat < 2 ^ 64 := by have := hin.2; omega
  refine ⟨v.task.s.pop3.2.push2 (-1) Exn.fileIO.toCell, ?_, ?_⟩
  · rw [hp']
    show openFile _ v = _
    refine Eq.trans (b := .ok ((), withFiles v (v.task.s.pop3.2.push2 (-1) Exn.fileIO.toCell)
      v.task.files { v.host with calls := v.host.calls + 1 } m)) ?_ ?_
    rotate_left
    · rw [← k3, ← k2, ← hh, beside, VM.task_setTask, VM.setTask_setTask]
      rfl
    unfold openFile
    rw [M.bind_ok (Files.pop3 v), hrep.pop3_fst]
    dsimp only
    rw [if_neg (by omega), if_pos rfl, openWith, M.bind_ok (Files.rd (Files.range_ok hlim)), k2,
      if_pos (by simpa using hin), M.bind_ok (Files.rd (Files.text_ok hin)), ht]
    have ho : hostOpen ⟨cfg, execWord cfg n⟩ path true false (withFiles v v.task.s.pop3.2 v.task.files v.host m) =
        .ok (none, withFiles v v.task.s.pop3.2 v.task.files { v.host with calls := v.host.calls + 1 } m) := by
      unfold hostOpen
      rw [M.bind_ok (Files.call _), M.bind_ok (getVM_apply _)]
      split
      · rfl
      · next hn =>
        rw [Files.host_eq]
        dsimp only
        rcases hd with hd | hd
        · rw [hh, hd]; rfl
        · exact absurd (.inl (by rw [hh]; exact hd)) hn
    rw [M.bind_ok ho]
    dsimp only
    rw [Files.push2]
  · rw [pop3_holding k1, push2_holding _ _ _ (by rw [holding_items _ (by omega)]; omega), holding_items _ (by omega)]
    exact LikeStack.holding2 _ (by simp [capacity]; omega) (by simp; omega)

/-- A path with no file makes `included` abort. -/
theorem call_missing {a u : Cell} {path : List Byte} {v : Word}
    (h : HasLoader lv g1 g2 g3 g A V ix s) (hd : data s = u :: a :: l) (hu : u.toNat ≤ 256) (hin : Inside s.ds a u)
    (ht : textAt s.ds a u = path) (hm : s.host.dir path = none ∨ cfg.ioFails s.host.calls = true)
    (hh : s.wl.words[s.handler]? = some v) (hv : v.action = .core .noop)
    (hl : l.length + 10 ≤ capacity) (hr : r.length + 2 ≤ capacity) :
    Calling cfg (n + 1) s.refs lv s.wl g.1 g.2 s.cur s.ds (ix "included") (setRet s r)
      (shape (raised ((asked s).at (pc (asked s)) (ix "abort")) .abort) [] r s.ds) := by
  have hc : capacity = 64 := rfl
  have gg := h.region
  obtain ⟨w, w1, w2, w3, w4, w5⟩ := h.readOnly
  have hsm : s.ds.limit < 2 ^ 63 := gg.small
  rw [← shape_setRet, hd]
  refine h.coded.call gg 1 rfl (by simp; omega) (by omega) (by simp) fun z q => ?_
  steps
  calls doing_effect 9 rfl (h.uses _ (by simp [loaderUses])) rfl (by len) (by len) (by len)
  try dsimp only
  calls doing_const w1 w2 w3 w4 (by len) (by len)
  rw [w5]
  calls doing_openMissing (h.uses _ (by simp [loaderUses])) hu hin ht hm hsm (by len) (by len)
  calls doing_effect 27 rfl (h.uses _ (by simp [loaderUses])) rfl (by len) (by len) (by len)
  try dsimp only
  rw [truth_zero (by decide)]
  refine Going.seq (Going.elseFalse gg (by len) (by len) ?_) (.last rfl)
  calls doing_abort (h.uses _ (by simp [loaderUses])) hh hv
  exact .last rfl

end
end Verif
