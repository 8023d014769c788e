import Verif.Lemmas.Stand
import Verif.Lemmas.MemoryWords

/-!
# What interpreted words do to an outline is what they do to the machine
-/

namespace Verif
open Spec Stack

section
variable {G : Ground} {l l' : Outline} {s t : VM} {c : Ctx}

theorem fit_some (h : fit l = some l') : l.here ≤ outlineRoom ∧ l' = l := by
  unfold fit at h
  split at h
  · cases h; exact ⟨‹_›, rfl⟩
  · cases h

/-- The action leads to a machine that is as the outline says, and does not go anywhere else. -/
def Does' (c : Ctx) (p : Prim) (G : Ground) (l : Outline) (s : VM) : Prop :=
  ∃ t, action c p s = .ok ((), t) ∧ Stand G l t ∧ t.task.st.ip = s.task.st.ip ∧ t.task.r = s.task.r

theorem Stand.withData (h : Stand G l s) {st : Stack Cell} {vs : List Val} (hc : Calm st)
    (hi : st.items = vs.map (Val.cell G.start)) : Stand G { l with stack := vs } (Spec.withData s st) := by
  have e : (Spec.withData s st).task = { s.task with s := st } := VM.task_setTask s _
  refine h.tweak (text := l.text) rfl rfl rfl h.noError h.token rfl (by rw [e]) (by rw [e]) (by rw [e]; exact h.ret)
    (by rw [e]; exact h.interpreting) (by rw [e]; exact hc) (by rw [e]; exact hi) h.ascii ?_
    ⟨h.steady.cur, h.steady.output, by rw [e]; exact h.steady.source, h.steady.stdout, h.steady.calls, by rw [e]; exact h.steady.line⟩
  rw [e]
  obtain ⟨pre, h1, h2, h3⟩ := h.reading
  exact ⟨pre, h1, h2, h3⟩

theorem Stand.took (h : Stand G l s) {pre bs tok : List Char} {rest : List Nat} (ha : Ascii rest)
    (hr : ∃ pre', Reading (atPosition s.task (byteLen (pre ++ bs ++ tok))) pre' (spelt rest)) :
    Stand G { l with text := rest } (Spec.took s pre bs tok) := by
  have e : (Spec.took s pre bs tok).task = _ := took_task s pre bs tok
  refine h.tweak (st := l.stack) rfl rfl rfl h.noError rfl rfl (by rw [e]; rfl) (by rw [e]; rfl) (by rw [e]; exact h.ret)
    (by rw [e]; exact h.interpreting) (by rw [e]; exact h.data) (by rw [e]; exact h.items) ha ?_
    ⟨h.steady.cur, h.steady.output, by rw [e]; exact h.steady.source, h.steady.stdout, h.steady.calls, by rw [e]; exact h.steady.line⟩
  rw [e]
  exact hr

theorem Stand.pop (h : Stand G l s) {v : Val} {st : List Val} (hst : l.stack = v :: st) :
    sPop s = .ok (v.cell G.start, Spec.withData s s.task.s.pop.2) ∧ Stand G { l with stack := st } (Spec.withData s s.task.s.pop.2) := by
  have hi := h.items
  rw [hst, List.map_cons] at hi
  obtain ⟨h1, h2, h3⟩ := calm_pop h.data hi
  refine ⟨?_, h.withData h1 h3⟩
  show Except.ok (s.task.s.pop.1, _) = _
  rw [h2]
  rfl

theorem Stand.push (h : Stand G l s) {v : Val} (hl : pushVal v l = some l') :
    sPush (v.cell G.start) s = .ok ((), Spec.withData s (s.task.s.push (v.cell G.start))) ∧
      Stand G l' (Spec.withData s (s.task.s.push (v.cell G.start))) := by
  unfold pushVal at hl
  split at hl
  case isFalse => cases hl
  rename_i hlt
  cases hl
  have hlen : s.task.s.items.length < 60 := by rw [h.items, List.length_map]; exact hlt
  obtain ⟨h1, h2⟩ := calm_push h.data (v.cell G.start) (by omega)
  exact ⟨rfl, h.withData h1 (by rw [h2, h.items]; rfl)⟩

theorem withData_task (s : VM) (st : Stack Cell) : (Spec.withData s st).task = { s.task with s := st } := VM.task_setTask s _

theorem does_push (h : Stand G l s) {p : Prim} {v : Val} (hl : pushVal v l = some l')
    (ha : action c p s = sPush (v.cell G.start) s) : Does' c p G l' s := by
  obtain ⟨h1, h2⟩ := h.push hl
  exact ⟨_, ha.trans h1, h2, by rw [withData_task], by rw [withData_task]⟩

theorem Spec.Defines.task {pre bs tok : List Char} {p : Prim} {top : Nat} (D : Defines s t pre bs tok p top) :
    t.task = atPosition s.task (byteLen (pre ++ bs ++ tok)) := by
  obtain ⟨k, -, hk⟩ := D.frame
  rw [hk]
  exact took_task s pre bs tok

variable (g : G.Ok)
include g

theorem Stand.shallow (h : Stand G l s) : G.start + l.here ≤ s.ds.limit ∧ s.ds.limit < 2 ^ 63 := by
  have h1 := g.room; have h2 := h.room; have h3 := g.small
  rw [h.limit]
  omega

theorem Stand.nonempty (h : Stand G l s) : s.wl.words ≠ [] := by
  have h1 := h.many g
  have h2 := h.count
  intro e
  rw [e] at h2
  simp only [List.length_nil, outlineBase] at h1 h2
  omega

theorem does_create (h : Stand G l s) {i : Nat} (hl : primStep i (.core .create) l = some l') : Does' c (.core .create) G l' s := by
  simp only [primStep, Option.bind_eq_bind, Option.bind_eq_some_iff] at hl
  obtain ⟨⟨tok, l1⟩, h1, h2⟩ := hl
  obtain ⟨hnew, h2⟩ := anew_some h2
  obtain ⟨pre, bs, n1, n2, n3, n4, n5, n6⟩ := h.next h1
  generalize l1.text = rest at *
  subst n5
  obtain ⟨hfit, rfl⟩ := fit_some h2
  replace hfit : roundUp8 (l.here + 8 + tok.length) ≤ outlineRoom := hfit
  have hb := bodyOf_shift h g n2
  obtain ⟨p, t, e1, e2, e3, -⟩ := C60_create c n1 n4 h.dict h.space (h.nonempty g) (by
    rw [hb, h.limit]; have := g.room; omega)
  have e1' : p = .core .create := (Option.some.inj (e1.symm.trans rfl))
  subst e1'
  rw [hb] at e3
  refine ⟨t, e2, ?_, by rw [e3.task]; rfl, by rw [e3.task]; rfl⟩
  exact h.define g (facts := []) n2 n3 nofun hnew e3 rfl (Nat.le_refl _) hfit n6 (by simp)

/-- Laying down a cell. -/
theorem Stand.lay (h : Stand G l s) {v : Val} (hl : addCell v l = some l') :
    ∃ d, compileCell c (v.cell G.start) s = .ok ((), { s with ds := d }) ∧ Stand G l' { s with ds := d } := by
  have hfit : l.here + 8 ≤ outlineRoom := (fit_some hl).1
  obtain ⟨d, e3, e4⟩ := compileCell_run (c := c) (s := s) (vs := []) h.space (extends_nil _) (by
    have := g.room
    simp only [RoomFor, h.here, h.limit, List.length_nil]; omega) (v.cell G.start)
  exact ⟨d, e3, h.cell g e4 hl⟩

theorem does_constant (h : Stand G l s) {i : Nat} (hl : primStep i (.core .constant) l = some l') :
    Does' c (.core .constant) G l' s := by
  simp only [primStep] at hl
  split at hl
  case h_2 => cases hl
  rename_i v st hst
  simp only [Option.bind_eq_bind, Option.bind_eq_some_iff] at hl
  obtain ⟨⟨tok, l1⟩, h1, h2⟩ := hl
  obtain ⟨hnew, h2⟩ := anew_some h2
  obtain ⟨p1, hp⟩ := h.pop hst
  obtain ⟨pre, bs, n1, n2, n3, n4, n5, n6⟩ := hp.next h1
  generalize l1.text = rest at *
  subst n5
  have hfit : roundUp8 (l.here + 8 + tok.length) + 8 ≤ outlineRoom := (fit_some h2).1
  have hb : bodyOf s.ds _ = _ := bodyOf_shift hp g n2
  generalize hs1 : Spec.withData s s.task.s.pop.2 = s1 at *
  have htask : s1.task = { s.task with s := s.task.s.pop.2 } := by rw [← hs1, withData_task]
  have hds : s1.ds = s.ds := by rw [← hs1]; rfl
  rw [← hds] at hb
  obtain ⟨t, e1, e2⟩ := define_run c (.core .pConst) nofun n1 n4 hp.dict hp.space (hp.nonempty g) (by
    rw [hb, hp.limit]; have := g.room; simp only; omega)
  rw [hb] at e2
  have hS := hp.define g (p := .core .pConst) (facts := []) n2 n3 nofun hnew e2 rfl (Nat.le_refl _) (by simp only; omega) n6 (by simp)
  obtain ⟨d, e3, e4⟩ := hS.lay g (c := c) (v := v) (l' := l') h2
  refine ⟨_, ?_, e4, ?_, ?_⟩
  · show constant c s = _
    rw [constant, M.bind_ok p1, M.bind_ok e1]
    have e5 : getError t = .ok (none, t) := by
      show Except.ok (t.lastError, t) = _
      rw [hS.noError]
    rw [M.bind_ok e5]
    exact e3
  · show t.task.st.ip = _
    rw [e2.task, htask]; rfl
  · show t.task.r = _
    rw [e2.task, htask]; rfl

theorem does_comma (h : Stand G l s) {i : Nat} (hl : primStep i (.core .comma) l = some l') :
    Does' c (.core .comma) G l' s := by
  simp only [primStep] at hl
  split at hl
  case h_2 => cases hl
  rename_i v st hst
  obtain ⟨p1, hp⟩ := h.pop hst
  obtain ⟨d, e3, e4⟩ := hp.lay g (c := c) hl
  refine ⟨_, ?_, e4, ?_, ?_⟩
  · show comma c s = _
    rw [comma, M.bind_ok p1]
    exact e3
  · show (Spec.withData s _).task.st.ip = _
    rw [withData_task]
  · show (Spec.withData s _).task.r = _
    rw [withData_task]

theorem does_allot (h : Stand G l s) {i : Nat} (hl : primStep i (.core .allot) l = some l') :
    Does' c (.core .allot) G l' s := by
  simp only [primStep] at hl
  split at hl
  case h_2 => cases hl
  rename_i n st hst
  obtain ⟨hfit, rfl⟩ := fit_some hl
  replace hfit : l.here + n ≤ outlineRoom := hfit
  obtain ⟨p1, hp⟩ := h.pop hst
  have hs := g.small
  have hr := g.room
  have hh := h.here
  have hst' := h.start
  have hcap := h.cap
  have hroom : outlineRoom = 12288 := rfl
  have e : s.ds.allot c.oc (Val.cell G.start (.num n)) = .ok { s.ds with len := l.here + n } := by
    have hn : (BitVec.ofNat 64 n).toInt = n := by
      rw [BitVec.toInt_eq_toNat_cond, BitVec.toNat_ofNat, Nat.mod_eq_of_lt (by omega), if_pos (by omega)]
    have hm : (toCell s.ds.here).toInt = (s.ds.here : Int) := by
      rw [BitVec.toInt_eq_toNat_cond, toNat_toCell (by omega), if_pos (by omega)]
    simp only [DataSpace.allot, Val.cell]
    rw [iadd_eq (fun _ => by rw [hn, hm]; omega), hn, hm]
    simp only [Except.ok.injEq, bind, Except.bind]
    have e2 : (wrap ((s.ds.here : Int) + n)).toNat = s.ds.here + n := by
      simp only [wrap]
      rw [show ((s.ds.here : Int) + (n : Int)) = ((s.ds.here + n : Nat) : Int) by omega, BitVec.ofInt_natCast,
        BitVec.toNat_ofNat]
      omega
    rw [e2, DataSpace.setHere, if_pos (by simp only [DataSpace.limit]; omega), hh, hst']
    congr 1
    omega
  refine ⟨{ Spec.withData s s.task.s.pop.2 with ds := { s.ds with len := l.here + n } }, ?_, ?_, ?_, ?_⟩
  · show allot c s = _
    rw [allot, M.bind_ok p1]
    exact dsOp_ok (s := Spec.withData s s.task.s.pop.2) e
  · have := h.top
    refine hp.memory (d := { s.ds with len := l.here + n }) rfl rfl ?_ (by show l.top ≤ l.here + n; omega) hfit g (fun _ _ => rfl) ?_
    · show s.ds.start + (l.here + n) = _
      omega
    · intro f hf
      obtain ⟨a1, a2⟩ := h.facts f hf
      exact ⟨a1, by omega⟩
  · show (Spec.withData s _).task.st.ip = _
    rw [withData_task]
  · show (Spec.withData s _).task.r = _
    rw [withData_task]

theorem does_store (h : Stand G l s) {i : Nat} (hl : primStep i (.core .store) l = some l') :
    Does' c (.core .store) G l' s := by
  simp only [primStep] at hl
  split at hl
  case h_2 => cases hl
  rename_i a v st hst
  split at hl
  case isFalse => cases hl
  rename_i hcond
  simp only [Bool.and_eq_true, Nat.ble_eq] at hcond
  obtain ⟨⟨c1, c2⟩, c3⟩ := hcond
  cases hl
  have hi := h.items
  rw [hst, List.map_cons, List.map_cons] at hi
  have hr : Rep s.task.s _ := items_eq_iff.1 hi
  have hp2 := hr.pop2_fst
  have hlow := h.low
  have hsh := h.shallow g
  have ha : (Val.cell G.start (.addr a)).toNat = G.start + a := toNat_toCell (by omega)
  have hk := store_ok c s (by rw [hp2, ha, h.start]; omega) (by rw [hp2, ha]; omega) hsh.2
  rw [hp2] at hk
  simp only [ha] at hk
  have hcalm : Calm s.task.s.pop2.2 := by
    have hd := h.data.depth
    have e := items_eq_iff.2 hr.pop2_snd
    rw [hi] at hd
    simp only [List.length_cons] at hd
    exact ⟨by rw [e]; omega, h.data.over, h.data.under⟩
  have hw := h.withData hcalm (items_eq_iff.2 hr.pop2_snd)
  refine ⟨_, hk, ?_, ?_, ?_⟩
  · have hst' := h.start
    refine hw.memory (d := s.ds.setCell (G.start + a) (v.cell G.start)) rfl rfl h.here h.top h.room g
      (fun x hx => DataSpace.setCell_bytes_out (by simp only at hx; omega)) ?_
    intro f hf
    rcases List.mem_append.1 hf with hf | hf
    · cases v with
      | num n =>
        simp only [known, List.mem_singleton] at hf
        subst hf
        exact ⟨DataSpace.cellAt_setCell _ _ _, c2⟩
      | addr _ => cases hf
    · obtain ⟨f1, f2⟩ := List.mem_filter.1 hf
      simp only [Bool.or_eq_true, Nat.ble_eq] at f2
      obtain ⟨a1, a2⟩ := h.facts f f1
      refine ⟨?_, a2⟩
      rw [DataSpace.cellAt_setCell_ne (by omega)]
      exact a1
  · show (Spec.withData s _).task.st.ip = _
    rw [withData_task]
  · show (Spec.withData s _).task.r = _
    rw [withData_task]

omit g in
theorem does_tick (h : Stand G l s) {i : Nat} (hl : primStep i (.core .tick) l = some l') :
    Does' c (.core .tick) G l' s := by
  simp only [primStep, Option.bind_eq_bind, Option.bind_eq_some_iff] at hl
  obtain ⟨⟨tok, l1⟩, h1, k, h2, h3⟩ := hl
  obtain ⟨pre, bs, n1, n2, n3, n4, n5, n6⟩ := h.next h1
  have hS := h.took n3 n6
  generalize l1.text = rest at *
  subst n5
  have hn := h.name n2
  rw [show lookup (keyOf tok 0) l.rows = some k from h2] at hn
  obtain ⟨e1, e2⟩ := hS.push h3
  refine ⟨_, ?_, e2, by rw [withData_task, took_task]; rfl, by rw [withData_task, took_task]; rfl⟩
  have hne : (spelt tok).isEmpty = false := by cases hh : spelt tok with | nil => exact absurd hh n4 | cons _ _ => rfl
  show tick c s = _
  rw [tick, M.bind_ok n1.parse, M.bind_ok takeToken_took]
  simp only [hne, Bool.false_eq_true, if_false]
  rw [M.bind_ok (find_took h.dict h.inSpace pre bs (spelt tok) hn none)]
  rfl

omit g in
theorem does_replace (h : Stand G l s) {p : Prim} {v w : Val} {st : List Val} (hst : l.stack = v :: st)
    (ha : action c p s = (do let _ ← sPop; sPush (w.cell G.start)) s) : Does' c p G { l with stack := w :: st } s := by
  obtain ⟨p1, hp⟩ := h.pop hst
  have hlen : st.length < 64 := by
    have := h.data.depth
    rw [h.items, hst] at this
    simp only [List.length_map, List.length_cons, capacity] at this
    omega
  have hi := h.items
  rw [hst, List.map_cons] at hi
  obtain ⟨q1, -, q3⟩ := calm_pop h.data hi
  obtain ⟨hcalm, hi2⟩ := calm_push q1 (w.cell G.start) (by rw [q3, List.length_map]; exact hlen)
  rw [q3] at hi2
  have hS := h.withData hcalm (vs := w :: st) hi2
  refine ⟨_, ?_, hS, by rw [withData_task], by rw [withData_task]⟩
  rw [ha, M.bind_ok p1]
  simp only [sPush_apply, Spec.withData, VM.setTask_setTask, VM.task_setTask]

omit g in
theorem does_cells (h : Stand G l s) {i : Nat} (hl : primStep i (.core .cells) l = some l') :
    Does' c (.core .cells) G l' s := by
  simp only [primStep] at hl
  split at hl
  case h_2 => cases hl
  rename_i n st hst
  split at hl
  case isFalse => cases hl
  rename_i hcond
  rw [Nat.ble_eq] at hcond
  cases hl
  obtain ⟨p1, hp⟩ := h.pop hst
  refine does_replace h hst ?_
  show cells c s = _
  rw [cells, M.bind_ok p1, M.bind_ok p1]
  have hn : (BitVec.ofNat 64 n).toInt = n := by
    rw [BitVec.toInt_eq_toNat_cond, BitVec.toNat_ofNat, Nat.mod_eq_of_lt (by omega), if_pos (by omega)]
  have h8 : (8 : Cell).toInt = 8 := by decide
  simp only [Val.cell]
  rw [imul_eq (fun _ => by rw [hn, h8]; omega), hn, h8, M.bind_ok (liftE_ok _ _), ← BitVec.ofInt_natCast]
  simp only [wrap]
  congr 2

omit g in
theorem does_star (h : Stand G l s) {i : Nat} (hl : primStep i (.core .star) l = some l') :
    Does' c (.core .star) G l' s := by
  simp only [primStep] at hl
  split at hl
  case h_2 => cases hl
  rename_i m n st hst
  cases hl
  have hi := h.items
  rw [hst, List.map_cons, List.map_cons] at hi
  have hr : Rep s.task.s _ := items_eq_iff.1 hi
  have hi2 := items_eq_iff.2 (hr.binop (· * ·))
  have hd := h.data.depth
  have hn := items_length s.task.s
  rw [hi] at hd hn
  simp only [List.length_cons, List.length_map, capacity] at hd hn
  have hcalm : Calm (s.task.s.binop (· * ·)) := by
    refine ⟨by rw [hi2]; simp [capacity]; omega, ?_, ?_⟩ <;> simp only [Stack.binop, setSlot]
    · rw [if_neg ?_]; · exact h.data.over
      bv_omega
    · rw [if_neg ?_]; · exact h.data.under
      bv_omega
  have hS := h.withData hcalm (vs := .num (n * m) :: st) (by
    rw [hi2, List.map_cons]
    simp only [Val.cell, BitVec.ofNat_mul])
  exact ⟨Spec.withData s (s.task.s.binop (· * ·)), rfl, hS, by rw [withData_task], by rw [withData_task]⟩

omit g in
theorem does_toBody (h : Stand G l s) {i : Nat} (hl : primStep i (.core .toBody) l = some l') (hc : l.count < 2 ^ 64) :
    Does' c (.core .toBody) G l' s := by
  simp only [primStep] at hl
  split at hl
  case h_2 => cases hl
  rename_i n st hst
  simp only [Option.bind_eq_bind, Option.bind_eq_some_iff] at hl
  obtain ⟨r, h1, h2⟩ := hl
  cases h2
  obtain ⟨w, w1, w2, w3, w4⟩ := h.row h1
  have hlt := h.low_rows w3
  obtain ⟨p1, hp⟩ := h.pop hst
  refine does_replace h hst ?_
  show toBody c s = _
  rw [toBody, M.bind_ok p1, M.bind_ok p1]
  have e : getWl (Spec.withData s s.task.s.pop.2) = .ok (s.wl, Spec.withData s s.task.s.pop.2) := rfl
  rw [M.bind_ok e]
  have e2 : (Val.cell G.start (.num n)).toNat = n := by
    simp only [Val.cell, BitVec.toNat_ofNat]
    omega
  rw [e2, w1]
  simp only [w2.dfa]
  rfl

omit g in
theorem alterRow_some {f : Row → Row} (h : alterRow f l = some l') :
    ∃ r rs, l.rows = r :: rs ∧ r.ix + 1 = l.count ∧ outlineBase ≤ r.ix ∧ l' = { l with rows := f r :: rs } := by
  unfold alterRow at h
  split at h
  · rename_i r rs hr
    split at h
    · rename_i hc
      simp only [Bool.and_eq_true, Nat.ble_eq] at hc
      cases h
      exact ⟨r, rs, hr, Nat.eq_of_beq_eq_true hc.1, hc.2, rfl⟩
    · cases h
  · cases h

omit g in
theorem Stand.newest_word (h : Stand G l s) {r : Row} {rs : List Row} (hr : l.rows = r :: rs) (hi : r.ix + 1 = l.count) :
    s.wl.last = r.ix ∧ ∃ w, s.wl.words[r.ix]? = some w ∧ r.Is G.start w := by
  refine ⟨?_, h.rows r (by rw [hr]; exact List.mem_cons_self)⟩
  rw [h.dict.last, h.count]
  omega

omit g in
theorem does_immediate (h : Stand G l s) {i : Nat} (hl : primStep i (.core .immediate) l = some l') :
    Does' c (.core .immediate) G l' s := by
  simp only [primStep] at hl
  obtain ⟨r, rs, h1, h2, h3, rfl⟩ := alterRow_some hl
  obtain ⟨hlast, w, w1, w2⟩ := h.newest_word h1 h2
  obtain ⟨p, e1, e2⟩ := C59_immediate c w (by rw [hlast]; exact w1)
  have e1' : p = .core .immediate := (Option.some.inj (e1.symm.trans rfl))
  subst e1'
  rw [hlast] at e2
  exact ⟨_, e2, h.alter (r' := { r with imm := true }) h1 h3 w1 rfl rfl rfl rfl rfl (.inl rfl) rfl rfl ⟨w2.action, w2.comp, rfl, w2.co, w2.dfa⟩, rfl, rfl⟩

omit g in
theorem does_compileOnly (h : Stand G l s) {i : Nat} (hl : primStep i (.core .compileOnly) l = some l') :
    Does' c (.core .compileOnly) G l' s := by
  simp only [primStep] at hl
  obtain ⟨r, rs, h1, h2, h3, rfl⟩ := alterRow_some hl
  obtain ⟨hlast, w, w1, w2⟩ := h.newest_word h1 h2
  obtain ⟨p, e1, e2⟩ := C59_compileOnly c w (by rw [hlast]; exact w1)
  have e1' : p = .core .compileOnly := (Option.some.inj (e1.symm.trans rfl))
  subst e1'
  rw [hlast] at e2
  exact ⟨_, e2, h.alter (r' := { r with co := true }) h1 h3 w1 rfl rfl rfl rfl rfl (.inl rfl) rfl rfl ⟨w2.action, w2.comp, w2.imm, rfl, w2.dfa⟩, rfl, rfl⟩

theorem does_doesRt (h : Stand G l s) {i : Nat} (hip : s.task.st.ip + 8 < 2 ^ 64)
    (hl : primStep i (.core .doesRt) l = some l') : Does' c (.core .doesRt) G l' s := by
  simp only [primStep] at hl
  split at hl
  case h_2 => cases hl
  rename_i r0 rs0 hr0
  split at hl
  case isFalse => cases hl
  rename_i hact
  simp only [Option.bind_eq_bind, Option.bind_eq_some_iff] at hl
  obtain ⟨l1, k1, k2⟩ := hl
  obtain ⟨hfit, rfl⟩ := fit_some k1
  obtain ⟨r, rs, h1, h2, h3, rfl⟩ := alterRow_some k2
  replace h1 : l.rows = r :: rs := h1
  have h1' := h1
  rw [hr0] at h1'
  cases h1'
  obtain ⟨hlast, w, w1, w2⟩ := h.newest_word h1 h2
  have hu : usizeMod = 2 ^ 64 := rfl
  have e0 : uadd c.oc s.task.st.ip 8 = .ok (s.task.st.ip + 8) := uadd_ok (by omega)
  obtain ⟨d, d1, d2⟩ := compileCell_run (c := c) (s := s) (vs := []) h.space (extends_nil _) (by
    have := g.room
    have : l.here + 8 ≤ outlineRoom := hfit
    simp only [RoomFor, h.here, h.limit, List.length_nil]; omega) (toCell (s.task.st.ip + 8))
  have hhere := h.here
  have htop := h.top
  have hlen := d2.len
  have hst := d2.start
  have hS : Stand G { l with here := l.here + 8, facts := l.facts } { s with ds := d } := by
    refine h.memory hst d2.cap ?_ (by omega) hfit g (fun x hx => d2.rest x (.inl (by omega))) ?_
    · simp only [DataSpace.here, List.nil_append, List.length_singleton] at hlen hhere ⊢
      omega
    · intro f hf
      obtain ⟨a1, a2⟩ := h.facts f hf
      refine ⟨?_, by omega⟩
      rw [DataSpace.cellAt_congr (d := s.ds)]
      · exact a1
      · intro x _ hx
        exact d2.rest x (.inl (by omega))
  refine ⟨_, ?_, hS.alter (r' := { r0 with action := .core .doesAction }) (v := { w with
    action := .core .doesAction, doer := s.task.st.ip + 8 }) h1 h3 w1 rfl rfl rfl rfl rfl (.inr ⟨w2.action.trans hact, rfl⟩) rfl rfl
    ⟨rfl, w2.comp, w2.imm, w2.co, w2.dfa⟩, rfl, rfl⟩
  show doesRt c s = _
  simp only [doesRt, M.bind_apply, getSt_apply, e0, liftE_ok, d1, getWl_apply]
  rw [modWord_apply]
  simp only [hlast, w1, withWord]

omit g in
theorem does_backslash (h : Stand G l s) {i : Nat} (hl : primStep i (.core .backslash) l = some l') :
    Does' c (.core .backslash) G l' s := by
  simp only [primStep] at hl
  split at hl
  case isFalse => cases hl
  rename_i hlt
  cases hl
  obtain ⟨taken, found, hd⟩ := skipPast_spec (d := 10) (by decide) h.ascii
  obtain ⟨p1, hp⟩ := h.push (v := .num 10) (l' := { l with stack := .num 10 :: l.stack }) (by
    simp only [pushVal]; rw [if_pos hlt])
  obtain ⟨pre, hr⟩ := h.reading
  generalize hs1 : Spec.withData s (s.task.s.push (Val.cell G.start (.num 10))) = s1 at *
  have htask : s1.task = { s.task with s := s.task.s.push (Val.cell G.start (.num 10)) } := by rw [← hs1, withData_task]
  have hr1 : Reading s1.task pre (spelt l.text) := by
    rw [htask]; exact ⟨hr.buffer, hr.position, hr.bounded⟩
  obtain ⟨tk, ht⟩ := Option.isSome_iff_exists.1 hp.token
  have hi := hp.items
  simp only [List.map_cons] at hi
  obtain ⟨mid, m1, m2⟩ := parse_reading' (c := c) hr1 ht hi hd
  obtain ⟨q1, q2, q3⟩ := calm_pop hp.data hi
  refine ⟨(s1.setTask { atPosition s1.task (byteLen (pre ++ (taken ++ mid))) with s := s1.task.s.pop.2 }).setTkn (some taken),
    ?_, ?_, ?_, ?_⟩
  · show backslash c s = _
    rw [backslash]
    have : (sPush 10 s : Except Fault (Unit × VM)) = _ := p1
    rw [M.bind_ok this]
    exact m2
  · have e : ((s1.setTask { atPosition s1.task (byteLen (pre ++ (taken ++ mid))) with s := s1.task.s.pop.2 }).setTkn (some taken)).task =
        { atPosition s1.task (byteLen (pre ++ (taken ++ mid))) with s := s1.task.s.pop.2 } := VM.task_setTask s1 _
    refine hp.tweak (st := l.stack) (text := skipPast 10 l.text) rfl rfl rfl hp.noError rfl rfl (by rw [e]; rfl) (by rw [e]; rfl)
      (by rw [e]; exact hp.ret) (by rw [e]; exact hp.interpreting) (by rw [e]; exact q1) (by rw [e]; exact q3)
      (skipPast_suffix 10 h.ascii) ?_ ⟨hp.steady.cur, hp.steady.output, by rw [e]; exact hp.steady.source,
        hp.steady.stdout, hp.steady.calls, by rw [e]; exact hp.steady.line⟩
    rw [e]
    refine ⟨pre ++ (taken ++ mid), ?_, rfl, ?_⟩
    · have := hr1.buffer
      rw [m1] at this
      simp only [List.append_assoc] at this ⊢
      exact this
    · have := hr1.bounded
      rw [m1] at this
      simp only [List.append_assoc] at this ⊢
      exact this
  · have e : ((s1.setTask { atPosition s1.task (byteLen (pre ++ (taken ++ mid))) with s := s1.task.s.pop.2 }).setTkn (some taken)).task =
        { atPosition s1.task (byteLen (pre ++ (taken ++ mid))) with s := s1.task.s.pop.2 } := VM.task_setTask s1 _
    rw [e, htask]; rfl
  · have e : ((s1.setTask { atPosition s1.task (byteLen (pre ++ (taken ++ mid))) with s := s1.task.s.pop.2 }).setTkn (some taken)).task =
        { atPosition s1.task (byteLen (pre ++ (taken ++ mid))) with s := s1.task.s.pop.2 } := VM.task_setTask s1 _
    rw [e, htask]; rfl

omit g in
theorem does_pVar (h : Stand G l s) {i : Nat} (hwp : s.task.st.wp = i) (hl : primStep i (.core .pVar) l = some l') :
    Does' c (.core .pVar) G l' s := by
  simp only [primStep, Option.bind_eq_bind, Option.bind_eq_some_iff] at hl
  obtain ⟨r, h1, h2⟩ := hl
  obtain ⟨w, w1, w2, w3, w4⟩ := h.row h1
  refine does_push h h2 ?_
  show pVar s = _
  simp only [pVar, M.bind_apply, getSt_apply, hwp]
  rw [wordAt_ok w1]
  simp only [w2.dfa]
  rfl

/-- What the outline says of an interpreted word is right. -/
theorem prim_sound (h : Stand G l s) {i : Nat} {p : Prim} (hwp : s.task.st.wp = i) (hip : s.task.st.ip + 8 < 2 ^ 64)
    (hl : primStep i p l = some l') : Does' c p G l' s := by
  have hcount : l.count < 2 ^ 64 := by have := h.words_length; rw [h.count] at this; omega
  unfold primStep at hl
  split at hl
  · exact does_create g h (i := i) (by simpa only [primStep] using hl)
  · exact does_constant g h (i := i) (by simpa only [primStep] using hl)
  · exact does_comma g h (i := i) (by simpa only [primStep] using hl)
  · exact does_allot g h (i := i) (by simpa only [primStep] using hl)
  · exact does_store g h (i := i) (by simpa only [primStep] using hl)
  · exact does_tick h (i := i) (by simpa only [primStep] using hl)
  · exact does_cells h (i := i) (by simpa only [primStep] using hl)
  · exact does_star h (i := i) (by simpa only [primStep] using hl)
  · exact does_toBody h (i := i) (by simpa only [primStep] using hl) hcount
  · exact does_immediate h (i := i) (by simpa only [primStep] using hl)
  · exact does_compileOnly h (i := i) (by simpa only [primStep] using hl)
  · exact does_backslash h (i := i) (by simpa only [primStep] using hl)
  · exact does_pVar h hwp (by simpa only [primStep] using hl)
  · exact does_doesRt g h (i := i) hip (by simpa only [primStep] using hl)
  · cases hl

end

end Verif
