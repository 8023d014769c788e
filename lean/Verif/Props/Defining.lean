import Verif.Lemmas.Defining
import Verif.Props.Quoting

/-!
# C60: constants and created words
-/

namespace Verif
open Spec Stack

variable {s t : VM} {pre bs tok more : List Char}

private theorem next_withData (h : Next s pre bs tok more) (st : Stack Cell) : Next (withData s st) pre bs tok more := by
  refine ⟨⟨?_, ?_, h.reading.bounded⟩, h.blank, h.solid, h.ends, h.last, h.old⟩
  · rw [withData, VM.task_setTask]; exact h.reading.buffer
  · rw [withData, VM.task_setTask]; exact h.reading.position

private theorem body_above (d : DataSpace) (name : List Byte) : d.here ≤ bodyOf d name ∧ roundUp8 (bodyOf d name) = bodyOf d name := by
  simp only [bodyOf, roundUp8]; omega

/-- C60. `create` defines a word that pushes the address of the memory after its name. -/
theorem C60_create (c : Ctx) (h : Next s pre bs tok more) (ht : tok ≠ []) (hd : Dict s) (hs : SoundSpace s.ds)
    (h1 : s.wl.words ≠ []) (hr : bodyOf s.ds (utf8 (tok.map lowerChar)) ≤ s.ds.limit) :
    ∃ p t, primOf "create" = some p ∧ action c p s = .ok ((), t) ∧
      Defines s t pre bs tok (.core .pVar) (bodyOf s.ds (utf8 (tok.map lowerChar))) ∧
      Variable t s.wl.words.length t.ds.here := by
  obtain ⟨t, e1, e2⟩ := define_run c (.core .pVar) nofun h ht hd hs h1 hr
  refine ⟨_, t, rfl, e1, e2, ?_⟩
  obtain ⟨w, w1, w2, w3, -⟩ := e2.word
  exact ⟨w, by rw [w1, List.getElem?_concat_length], w2, w3.trans e2.top.symm⟩

/-- C60. `constant` takes a value and defines a word with that value, when no error is pending. -/
theorem C60_constant (c : Ctx) {v : Cell} {l : List Cell} (hv : s.task.s.items = v :: l) (he : s.lastError = none)
    (h : Next s pre bs tok more) (ht : tok ≠ []) (hd : Dict s) (hs : SoundSpace s.ds) (h1 : s.wl.words ≠ [])
    (hr : bodyOf s.ds (utf8 (tok.map lowerChar)) + 8 ≤ s.ds.limit) :
    ∃ p st t, primOf "constant" = some p ∧ action c p s = .ok ((), t) ∧ st.items = l ∧
      Defines (withData s st) t pre bs tok (.core .pConst) (bodyOf s.ds (utf8 (tok.map lowerChar)) + 8) ∧
      Constant t s.wl.words.length v := by
  obtain ⟨p1, p2⟩ := popped hv
  obtain ⟨t, e1, e2⟩ := define_run c (.core .pConst) nofun (next_withData h s.task.s.pop.2) ht (hd.congr rfl rfl) hs h1
    (by show bodyOf s.ds _ ≤ s.ds.limit; omega)
  have htop : t.ds.here = bodyOf s.ds (utf8 (tok.map lowerChar)) := e2.top
  have hst : t.ds.start = s.ds.start := e2.start
  have hcap : t.ds.cap = s.ds.cap := e2.cap
  have hroom : RoomFor t.ds 1 := by
    simp only [RoomFor, htop, DataSpace.limit, hst, hcap] at hr ⊢
    omega
  obtain ⟨d, e3, e4⟩ := compileCell_run (c := c) (s := t) (vs := []) e2.space (extends_nil _) hroom v
  refine ⟨_, s.task.s.pop.2, { t with ds := d }, rfl, ?_, p2,
    e2.cells e4 hroom (by rw [htop]; exact (body_above _ _).1), ?_⟩
  · show constant c s = _
    have e : sPop s = .ok (v, withData s s.task.s.pop.2) := by vm_simp [withData, p1]
    rw [constant, M.bind_ok e, M.bind_ok e1]
    have e5 : getError t = .ok (none, t) := by
      show Except.ok (t.lastError, t) = _
      obtain ⟨_, -, k⟩ := e2.frame
      rw [k]
      show Except.ok (s.lastError, _) = _
      rw [he]
    rw [M.bind_ok e5]
    exact e3
  · obtain ⟨w, w1, w2, w3, -⟩ := e2.word
    have w3 : w.dfa = t.ds.here := w3.trans htop.symm
    have hlim : d.limit = t.ds.limit := by simp only [DataSpace.limit, e4.start, e4.cap]
    refine ⟨w, ?_, w2, ?_, ?_, ?_⟩
    · show t.wl.words[(withData s s.task.s.pop.2).wl.words.length]? = _
      rw [w1, List.getElem?_concat_length]
    · rw [w3]
      exact e4.cells 0 v rfl
    · show d.start ≤ w.dfa
      rw [e4.start, w3]; simp [DataSpace.here]
    · show w.dfa + 8 ≤ d.limit
      simp only [RoomFor] at hroom
      omega

/-- C60. A constant pushes its value, and changes nothing else but the mark of the running word. -/
theorem C60_constant_word (cfg : Cfg) (n i : Nat) (v : Cell) (h : Constant s i v) (hr : s.task.s.items.length < 255) :
    ∃ st, execWord cfg (n + 1) i s = .ok ((), s.setTask { s.task with s := st, st := { s.task.st with wp := i } }) ∧
      st.items = v :: s.task.s.items := by
  obtain ⟨w, h1, h2, h3, h4, h5⟩ := h
  refine ⟨s.task.s.push v, ?_, items_eq_iff.2 ((rep_items s.task.s).push hr _)⟩
  have hg : s.ds.getCell w.dfa = .ok v := by rw [DataSpace.getCell, if_pos ⟨h4, h5⟩, h3]
  rw [execWord]
  vm_simp [h1, h2, action, coreAction, pConst, wordAt, dsRd, hg]

/-- C60. A created word pushes its address. -/
theorem C60_create_word (cfg : Cfg) (n i a : Nat) (h : Variable s i a) (hr : s.task.s.items.length < 255) :
    ∃ st, execWord cfg (n + 1) i s = .ok ((), s.setTask { s.task with s := st, st := { s.task.st with wp := i } }) ∧
      st.items = toCell a :: s.task.s.items := by
  obtain ⟨w, h1, h2, h3⟩ := h
  refine ⟨s.task.s.push (toCell a), ?_, items_eq_iff.2 ((rep_items s.task.s).push hr _)⟩
  rw [execWord]
  vm_simp [h1, h2, action, coreAction, pVar, wordAt, h3]

/-- Same machine, float stack replaced. -/
private def withFloats (s : VM) (f : Stack F64) : VM := s.setTask { s.task with f := f }

private theorem next_withFloats (h : Next s pre bs tok more) (f : Stack F64) : Next (withFloats s f) pre bs tok more := by
  refine ⟨⟨?_, ?_, h.reading.bounded⟩, h.blank, h.solid, h.ends, h.last, h.old⟩
  · rw [withFloats, VM.task_setTask]; exact h.reading.buffer
  · rw [withFloats, VM.task_setTask]; exact h.reading.position

/-- C60. `fconstant` takes a float and defines a word with that value. -/
theorem C60_fconstant (c : Ctx) {v : F64} {l : List F64} (hv : s.task.f.items = v :: l)
    (h : Next s pre bs tok more) (ht : tok ≠ []) (hd : Dict s) (hs : SoundSpace s.ds) (h1 : s.wl.words ≠ [])
    (hr : bodyOf s.ds (utf8 (tok.map lowerChar)) + 8 ≤ s.ds.limit) :
    ∃ p f t, primOf "fconstant" = some p ∧ action c p s = .ok ((), t) ∧ f.items = l ∧
      Defines (s.setTask { s.task with f := f }) t pre bs tok (.flt .pFconst) (bodyOf s.ds (utf8 (tok.map lowerChar)) + 8) ∧
      FConstant t s.wl.words.length v := by
  have hrep : Rep s.task.f (v :: l) := hv ▸ rep_items s.task.f
  obtain ⟨t, e1, e2⟩ := define_run c (.flt .pFconst) nofun (next_withFloats h s.task.f.pop.2) ht (hd.congr rfl rfl) hs h1
    (by show bodyOf s.ds _ ≤ s.ds.limit; omega)
  have htop : t.ds.here = bodyOf s.ds (utf8 (tok.map lowerChar)) := e2.top
  have hst : t.ds.start = s.ds.start := e2.start
  have hcap : t.ds.cap = s.ds.cap := e2.cap
  have hup : roundUp8 t.ds.here = t.ds.here := by rw [htop]; exact (body_above _ _).2
  have hroom : RoomFor t.ds 1 := by
    simp only [RoomFor, htop, DataSpace.limit, hst, hcap] at hr ⊢
    omega
  have hal : t.ds.align c.oc = .ok t.ds := by
    rw [align_ok ⟨e2.space.small, e2.space.inside⟩ (by rw [hup]; simp only [RoomFor] at hroom; omega), hup]
    simp [DataSpace.here]
  obtain ⟨d, e3, e4⟩ := compileCell_run (c := c) (s := t) (vs := []) e2.space (extends_nil _) hroom v
  refine ⟨_, s.task.f.pop.2, { t with ds := d }, rfl, ?_, items_eq_iff.2 hrep.pop_snd,
    e2.cells e4 hroom (by rw [htop]; exact (body_above _ _).1), ?_⟩
  · show fconstant c s = _
    have e : fPop s = .ok (v, withFloats s s.task.f.pop.2) := by
      have := hrep.pop_fst
      vm_simp [withFloats, this]
    rw [fconstant, M.bind_ok e, M.bind_ok e1, M.bind_ok (dsOp_ok hal)]
    exact e3
  · obtain ⟨w, w1, w2, w3, -⟩ := e2.word
    have w3 : w.dfa = t.ds.here := w3.trans htop.symm
    have hlim : d.limit = t.ds.limit := by simp only [DataSpace.limit, e4.start, e4.cap]
    refine ⟨w, ?_, w2, ?_, ?_, ?_⟩
    · show t.wl.words[(withFloats s s.task.f.pop.2).wl.words.length]? = _
      rw [w1, List.getElem?_concat_length]
    · rw [w3, hup]
      exact e4.cells 0 v rfl
    · show d.start ≤ w.dfa
      rw [e4.start, w3]; simp [DataSpace.here]
    · show roundUp8 w.dfa + 8 ≤ d.limit
      rw [w3, hup]
      simp only [RoomFor] at hroom
      omega

/-- C60. A float constant pushes its value. -/
theorem C60_fconstant_word (cfg : Cfg) (n i : Nat) (v : F64) (h : FConstant s i v) (hs : SoundSpace s.ds)
    (hr : s.task.f.items.length < 255) :
    ∃ f, execWord cfg (n + 1) i s = .ok ((), s.setTask { s.task with f := f, st := { s.task.st with wp := i } }) ∧
      f.items = v :: s.task.f.items := by
  obtain ⟨w, h1, h2, h3, h4, h5⟩ := h
  refine ⟨s.task.f.push v, ?_, items_eq_iff.2 ((rep_items s.task.f).push hr _)⟩
  have h6 := roundUp8_le w.dfa
  have hg : s.ds.getCell (roundUp8 w.dfa) = .ok v := by rw [DataSpace.getCell, if_pos ⟨by omega, h5⟩, h3]
  have ha : DataSpace.aligned cfg.overflowChecks w.dfa = .ok (roundUp8 w.dfa) := by
    refine aligned_eq ?_
    have := hs.small
    simp only [DataSpace.limit, usizeMod] at *
    omega
  rw [execWord]
  vm_simp [h1, h2, action, floatAction, pFconst, wordAt, dsRd, hg, Ctx.oc, ha]

/-- C60. Whatever else is defined later, and as long as nothing is stored in memory, a constant keeps its value,
even if its name is defined again: `i` is its number, and word `k`, which lies above it, stays. -/
theorem C60_kept {cfg : Cfg} {i k : Nat} {v : Cell} {wk : Word}
    (h : Orderly cfg k (fun p => (flagsOf p).writes = false) s t) (hd : Dict s) (hi : InSpace s) (hik : i < k)
    (hk : s.wl.words[k]? = some wk) (hc : Constant s i v)
    (above : ∀ w, s.wl.words[i]? = some w → w.dfa + 8 ≤ wk.nfa) : Constant t i v := by
  obtain ⟨w, c1, c2, c3, c4, c5⟩ := hc
  obtain ⟨d1, i1, ed, hlt⟩ := h.edits (b := ⟨.any, false⟩) (fun p hp => ⟨fun _ _ _ => trivial, fun _ => hp⟩) hd hi
  have hcode := ed.code rfl hd hk
  obtain ⟨-, -, u, hu, st⟩ := ed.still hd (Nat.le_of_lt hik) c1
  obtain ⟨a, b, rfl⟩ := st.same hik
  obtain ⟨-, -, x, hx, sx⟩ := ed.still hd (Nat.le_refl _) hk
  have ha := above w c1
  refine ⟨_, hu, c2, ?_, ?_, ?_⟩
  · rw [← c3]
    exact cellAt_same fun y h1 h2 => hcode y (by show y < wk.nfa; have : y < w.dfa + 8 := h2; omega)
  · have h1 := d1.low i _ hu
    have h2 := d1.high i _ hu
    simp only at h1 h2 ⊢
    omega
  · have h1 := d1.top k x hx
    have h2 := d1.high k x hx
    have h3 := sx.nfa
    have h4 := i1.2
    show w.dfa + 8 ≤ t.ds.start + t.ds.cap
    simp only [DataSpace.here] at h1
    omega

/-- C60. Without a name `create` raises an error and defines nothing. -/
theorem C60_unnamed (c : Ctx) (h : Next s pre bs [] []) (hd : Dict s) (hi : InSpace s) (hn : Newest s [] none) :
    ∃ p, primOf "create" = some p ∧ action c p s = abortWith c .unexpectedEOF (took s pre bs []) := by
  refine ⟨_, rfl, ?_⟩
  show define c _ s = _
  rw [define, M.bind_ok h.parse, M.bind_ok takeToken_took]
  rw [M.bind_ok (show find c (utf8 ([].map lowerChar)) _ = _ from find_took (tok := []) hd hi pre bs hn none)]
  rfl

/-- Non-vacuity: with the machine of `quoting_demo`, there is room, and a value. -/
example : let s := demo " Exit more"
    let t := s.setTask { s.task with s := s.task.s.push 5, f := s.task.f.push 7 }
    t.task.s.items = [5] ∧ t.task.f.items = [7] ∧ t.wl.words ≠ [] ∧
      bodyOf t.ds (utf8 ("Exit".toList.map lowerChar)) + 8 ≤ t.ds.limit := by decide +kernel

/-- Two words defined with `constant` and `create`. -/
def twoDefined : VM :=
  let s := demo " five six"
  after (create (ctx demoCfg 2)) (after (constant (ctx demoCfg 2)) (s.setTask { s.task with s := s.task.s.push 5 }))

/-- Non-vacuity: the first of them is a constant below the second. -/
theorem twoDefined_constant : Constant twoDefined 6 5 ∧ Variable twoDefined 7 twoDefined.ds.here ∧
    ∃ w k, twoDefined.wl.words[6]? = some w ∧ twoDefined.wl.words[7]? = some k ∧ w.dfa + 8 ≤ k.nfa := by
  have h : (match twoDefined.wl.words[6]?, twoDefined.wl.words[7]? with
    | some w, some k => decide (w.action = .core .pConst ∧ twoDefined.ds.cellAt w.dfa = 5 ∧ twoDefined.ds.start ≤ w.dfa ∧
        w.dfa + 8 ≤ twoDefined.ds.limit ∧ k.action = .core .pVar ∧ k.dfa = twoDefined.ds.here ∧ w.dfa + 8 ≤ k.nfa)
    | _, _ => false) = true := by decide +kernel
  revert h
  generalize twoDefined = s
  intro h
  split at h
  · rename_i w k h1 h2
    simp only [decide_eq_true_eq] at h
    obtain ⟨a1, a2, a3, a4, a5, a6, a7⟩ := h
    exact ⟨⟨w, h1, a1, a2, a3, a4⟩, ⟨k, h2, a5, a6⟩, w, k, h1, h2, a7⟩
  · cases h

end Verif
