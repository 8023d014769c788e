import Verif.Lemmas.Labels
import Verif.Lemmas.Reject
import Verif.Lemmas.Alike
import Verif.Lemmas.Machine

/-!
# Labels and jumps

Theorems for property C28.
-/

namespace Verif
open Spec Stack

/-- C28. However many jumps there are, and in whatever order they and the labels come: the cell of every jump whose label
has been placed holds the address of the label. -/
theorem C28_resolve {c : Ctx} {J : List Jump} {P : List (Nat × Nat)} {s : VM} (h : Labels c J P s) {j : Jump} (hj : j ∈ J)
    {a : Nat} (ha : (j.label, a) ∈ P) : j.Code s.refs s.ds ∧ CellIs s.ds j.cell a :=
  ⟨(labels_inv h).code j hj, (labels_inv h).done j hj a ha⟩

/-- C28. With room in the data space and a number in range, `goto` compiles a jump. -/
theorem C28_goto {c : Ctx} {J : List Jump} {P : List (Nat × Nat)} {s : VM} {n : Cell} {l : List Cell} (h : Labels c J P s)
    (hd : data s = n :: l) (h0 : 0 < n.toNat) (hn : n.toNat < s.labels.length) (room : s.ds.here + 16 ≤ s.ds.limit) :
    ∃ t, coreAction c .immGoto s = .ok ((), t) ∧ Labels c (⟨n.toNat, s.ds.here + 8, false⟩ :: J) P t ∧ data t = l ∧
      t.lastError = s.lastError ∧ t.ds.here = s.ds.here + 16 ∧ t.labels.length = s.labels.length ∧ t.ds.limit = s.ds.limit := by
  obtain ⟨t, e, -, h2⟩ := goto_step (c := c) (labels_inv h) hd h0 hn room
  exact ⟨t, e, .goto h hd h0 hn room e, h2⟩

/-- C28. With room in the data space and a number in range, `call` compiles a jump that leaves a return address. -/
theorem C28_call {c : Ctx} {J : List Jump} {P : List (Nat × Nat)} {s : VM} {n : Cell} {l : List Cell} (h : Labels c J P s)
    (hd : data s = n :: l) (h0 : 0 < n.toNat) (hn : n.toNat < s.labels.length) (room : s.ds.here + 40 ≤ s.ds.limit) :
    ∃ t, coreAction c .immCall s = .ok ((), t) ∧ Labels c (⟨n.toNat, s.ds.here + 32, true⟩ :: J) P t ∧ data t = l ∧
      t.lastError = s.lastError ∧ t.ds.here = s.ds.here + 40 ∧ t.labels.length = s.labels.length ∧ t.ds.limit = s.ds.limit := by
  obtain ⟨t, e, -, h2⟩ := call_step (c := c) (labels_inv h) hd h0 hn room
  exact ⟨t, e, .call h hd h0 hn room e, h2⟩

/-- C28. `label` with a number in range that is not in use places a label: it never fails and never runs forever, however
many jumps wait for it. -/
theorem C28_label {c : Ctx} {J : List Jump} {P : List (Nat × Nat)} {s : VM} {n : Cell} {l : List Cell} (h : Labels c J P s)
    (hd : data s = n :: l) (h0 : 0 < n.toNat) (hn : n.toNat < s.labels.length) (hnew : ∀ a, (n.toNat, a) ∉ P) :
    ∃ t, coreAction c .immLabel s = .ok ((), t) ∧ Labels c J ((n.toNat, s.ds.here) :: P) t ∧ data t = l ∧
      t.lastError = s.lastError ∧ t.ds.here = s.ds.here ∧ t.labels.length = s.labels.length ∧ t.ds.limit = s.ds.limit := by
  obtain ⟨t, e, -, h2⟩ := label_step (c := c) (labels_inv h) hd h0 hn hnew
  exact ⟨t, e, .label h hd h0 hn hnew e, h2⟩

/-- C28. A label that has been placed cannot be placed again, and labels out of range are refused. -/
theorem C28_bad {c : Ctx} {J : List Jump} {P : List (Nat × Nat)} {s : VM} {n : Cell} {l : List Cell} (h : Labels c J P s)
    (hd : data s = n :: l) :
    ((∃ a, (n.toNat, a) ∈ P) ∨ n.toNat = 0 ∨ s.labels.length ≤ n.toNat →
      coreAction c .immLabel s = abortWith c .invalidNumericArgument (setData s l)) ∧
    (n.toNat = 0 ∨ s.labels.length ≤ n.toNat →
      coreAction c .immGoto s = abortWith c .invalidNumericArgument (setData s l)) := by
  have e1 : s.task.s.pop.1 = n := (items_eq_iff.mp hd).pop_fst
  have e2 : s.setTask { s.task with s := s.task.s.pop.2 } = setData s l := by
    rw [pop_holding hd]; rfl
  have hget : getVM (setData s l) = .ok (setData s l, setData s l) := rfl
  have hi := labels_inv h
  refine ⟨fun k => ?_, fun k => ?_⟩
  · show immLabel c s = _
    unfold immLabel
    simp only [M.bind_apply, sPop_apply, e1, e2]
    simp only [hget, show (setData s l).labels = s.labels from rfl, show (setData s l).forward = s.forward from rfl,
      show (setData s l).resolved = s.resolved from rfl]
    by_cases hr : 0 < n.toNat ∧ n.toNat < s.labels.length
    · rw [if_pos hr]
      obtain ⟨a, ha⟩ : ∃ a, (n.toNat, a) ∈ P := by
        rcases k with k | k | k
        · exact k
        · omega
        · omega
      rw [if_neg (fun e => ((hi.forward _).mp (by simpa using e)).2 a ha),
        if_pos (by simpa using (hi.resolved _).mpr ⟨a, ha⟩)]
    · rw [if_neg hr]
  · show immGoto c s = _
    unfold immGoto
    simp only [M.bind_apply, sPop_apply, e1, e2]
    simp only [hget, show (setData s l).labels = s.labels from rfl]
    rw [if_neg (by omega)]

/-- C28. `;` refuses a definition with a jump to a label that has not been placed: it raises a control structure mismatch
and the word stays hidden (with an error handler that does nothing). -/
theorem C28_refuse {cfg : Cfg} {k : Nat} {J : List Jump} {P : List (Nat × Nat)} {s : VM}
    (h : Labels (ctx cfg (k + 1)) J P s) {j : Jump} (hj : j ∈ J) (hno : ∀ a, (j.label, a) ∉ P) {w : Word}
    (hw : s.wl.words[s.handler]? = some w) (ha : w.action = .core .noop) :
    ∃ t, coreAction (ctx cfg (k + 1)) .semicolon s = .ok ((), t) ∧ t.lastError = some .controlStructureMismatch ∧
      t.wl = s.wl ∧ t.ds = s.ds := by
  have hf : s.forward ≠ [] := by
    have := ((labels_inv h).forward j.label).mpr ⟨⟨j, hj, rfl⟩, hno⟩
    exact List.ne_nil_of_mem this
  obtain ⟨t, e1, e2, e3, e4, -⟩ := abort_silent (cfg := cfg) (k := k) (e := .controlStructureMismatch) hw ha
  have hbody : semicolonBody (ctx cfg (k + 1)) s = .ok ((), t) := by
    unfold semicolonBody
    simp only [M.bind_apply, getVM_apply]
    split
    · exact e1
    · first
      | exact e1
      | rw [if_pos hf]; exact e1
  refine ⟨t.setTask { t.task with st := { t.task.st with isCompiling := false } }, ?_, e2, e3, e4⟩
  show semicolon _ s = _
  unfold semicolon
  rw [M.bind_ok hbody]
  rfl

/-- C28. When the labels of all jumps have been placed and no control structure is open, `;` ends the definition: it adds an
`EXIT`, raises no exception and makes the word visible. -/
theorem C28_accept {c : Ctx} {J : List Jump} {P : List (Nat × Nat)} {s : VM} (h : Labels c J P s)
    (hall : ∀ j ∈ J, ∃ a, (j.label, a) ∈ P) (hc : s.task.c.len = 0) (hx : Plain s.wl s.refs.exit) {w : Word}
    (hl : s.wl.words[s.wl.last]? = some w) (room : s.ds.here + 8 ≤ s.ds.limit) :
    ∃ t, coreAction c .semicolon s = .ok ((), t) ∧ t.lastError = s.lastError ∧
      t.ds = s.ds.emit (toCell s.refs.exit) ∧
      t.wl.words[s.wl.last]? = some { w with hidden := false } := by
  have hf : s.forward = [] := by
    rw [List.eq_nil_iff_forall_not_mem]
    intro n hn
    obtain ⟨⟨j, hj, rfl⟩, h2⟩ := ((labels_inv h).forward n).mp hn
    obtain ⟨a, ha⟩ := hall j hj
    exact h2 a ha
  obtain ⟨x, x1, x2⟩ := hx
  have hlt : s.wl.last < s.wl.words.length := by
    rcases Nat.lt_or_ge s.wl.last s.wl.words.length with h | h
    · exact h
    · rw [List.getElem?_eq_none h] at hl; cases hl
  show ∃ t, semicolon c s = _ ∧ _
  unfold semicolon semicolonBody
  simp only [M.bind_apply, getVM_apply]
  rw [if_neg (fun k => k hc), if_neg (fun k => k hf)]
  simp only [M.bind_apply]
  rw [wordAt_ok x1]
  simp only [x2, compSemRun]
  rw [word_ok (labels_inv h).space room]
  simp only [getWl_apply]
  generalize hu : ({ s with ds := s.ds.emit (toCell s.refs.exit) } : VM) = u
  have hl' : u.wl.words[s.wl.last]? = some w := by rw [← hu]; exact hl
  have e : ∀ f, modWord s.wl.last f u = .ok ((), { u with wl := { u.wl with words := u.wl.words.set s.wl.last (f w) } }) :=
    fun f => by unfold modWord; rw [hl']
  simp only [e]
  obtain ⟨v, hv⟩ : ∃ v : VM, v = { u with wl := { u.wl with words := u.wl.words.set s.wl.last { w with hidden := false } } } := ⟨_, rfl⟩
  refine ⟨v.setTask { v.task with st := { v.task.st with isCompiling := false } }, ?_, ?_, ?_, ?_⟩
  · rw [hv]; rfl
  · rw [hv, ← hu]; rfl
  · rw [hv, ← hu]; rfl
  · rw [hv, ← hu]
    exact List.getElem?_set_self hlt

/-- C28. Running a `goto` goes to its label. -/
theorem C28_run_goto {cfg : Cfg} {n lv lo hi : Nat} {R : Refs} {wl : Wordlist} {k : Fin 5} {d : DataSpace} {s s1 : VM} {j : Jump}
    {a : Nat} (hl : Like s1 s) (h : Loaded R lv wl lo hi k d s) (g : Region d lo hi) (hj : j.Code R d)
    (ha : CellIs d j.cell a) (h1 : lo + 8 ≤ j.cell) (h2 : j.cell + 8 ≤ hi) (hp : pc s1 = j.cell - 8) :
    ∃ u, Steps cfg (n + 1) s1 u ∧ Like u s ∧ pc u = a :=
  run_branch hl h g hp (by omega) (by omega) hj.1 (by rw [Nat.sub_add_cancel (by omega)]; exact ha)

/-- C28. Running a `call` goes to its label and leaves the address after the call on the return stack. -/
theorem C28_run_call {cfg : Cfg} {n lv lo hi : Nat} {R : Refs} {wl : Wordlist} {k : Fin 5} {d : DataSpace} {s s1 : VM} {j : Jump}
    {a : Nat} (hl : Like s1 s) (h : Loaded R lv wl lo hi k d s) (g : Region d lo hi) (hj : j.Code R d)
    (hcall : j.call = true) {w : Word} (hw : wl.words[R.toR]? = some w) (hwa : w.action = .core .toR)
    (ha : CellIs d j.cell a) (h1 : lo + 32 ≤ j.cell) (h2 : j.cell + 8 ≤ hi) (hp : pc s1 = j.cell - 32)
    (hds : (data s).length < capacity) (hrs : (ret s).length < capacity) :
    ∃ u, Steps cfg (n + 1) s1 u ∧ Like u (setRet s (BitVec.ofNat 64 (j.cell + 8) :: ret s)) ∧ pc u = a := by
  obtain ⟨c1, c2⟩ := hj
  obtain ⟨c2, c3, c4⟩ := c2 hcall
  have hu := g.upper
  have hsm := g.small
  have hx : d.cellAt (j.cell - 32 + 8) = BitVec.ofNat 64 (j.cell + 8) := by
    rw [show j.cell - 32 + 8 = j.cell - 24 by omega]
    refine BitVec.eq_of_toNat_eq ?_
    rw [show (d.cellAt (j.cell - 24)).toNat = _ from c3, BitVec.toNat_ofNat]
    omega
  obtain ⟨u1, s2, l2, p2⟩ := run_lit (cfg := cfg) (n := n) hl h g hp (by omega) (by omega) c2 hx hds
  simp only [capacity] at hds hrs
  have hds' : data (setData s (BitVec.ofNat 64 (j.cell + 8) :: data s)) = _ := data_setData (by simp; omega)
  have hrt : ret (setData s (BitVec.ofNat 64 (j.cell + 8) :: data s)) = ret s := by simp [ret, setData]
  have hb : Basic wl lo hi R.toR _ _ := Basic.toR (s := setData s (BitVec.ofNat 64 (j.cell + 8) :: data s)) hw
    (by rw [hwa]; rfl) hds' (by rw [hrt]; exact hrs)
  have hL2 := h.setData (BitVec.ofNat 64 (j.cell + 8) :: data s)
  obtain ⟨ha1, ha2⟩ := basic_acts (cfg := cfg) (n := n) g hL2 hb
  obtain ⟨v1, v2, x1, -, x3, x4, x5⟩ := ha1 (u1.at (j.cell - 16 + 8) u1.task.st.wp) (l2.at _ _)
    (by simp only [pc, VM.at_task]; omega)
  have st2 := (Steps.one (step_word (cfg := cfg) (n := n + 1) (hL2.like l2) g (a := j.cell - 16) (i := R.toR)
    (by rw [p2]; omega) (by omega) (by omega) c4 x1)).trans x3
  have hlen : (data s).length < 256 := by omega
  have hal : Alike (setRet (setData (setData s (BitVec.ofNat 64 (j.cell + 8) :: data s)) (data s))
      (BitVec.ofNat 64 (j.cell + 8) :: ret (setData s (BitVec.ofNat 64 (j.cell + 8) :: data s))))
      (setRet s (BitVec.ofNat 64 (j.cell + 8) :: ret s)) := by
    rw [hrt]
    refine Spec.Alike.setRet ?_ (by simp; omega)
    have := alike_data s (l := BitVec.ofNat 64 (j.cell + 8) :: data s) (m := data s) (by simp [capacity]; omega) hlen
    rw [setData_self s] at this
    exact this
  have l3 := x4.trans hal.like
  have hp5 : pc v2 = j.cell - 8 := by
    rw [x5]; simp only [pc, VM.at_task]; omega
  obtain ⟨u, s5, l5, p5⟩ := run_branch (cfg := cfg) (n := n) l3 (ha2.like hal.symm.like) g hp5 (by omega) (by omega) c1
    (by rw [Nat.sub_add_cancel (by omega)]; exact ha)
  exact ⟨u, (s2.trans st2).trans s5, l5, p5⟩

/-- Non-vacuity: on the machine as built, `goto 10`, `call 20`, `goto 10`, `label 10`, `goto 10`, `label 20` compile one after
the other, and the three jumps to label 10 go to the same place. -/
example : ∃ a b s J, Labels (ctx demoCfg 5) J [(20, b), (10, a)] s ∧ J.length = 4 ∧ s.lastError = none ∧
    (∀ j ∈ J, CellIs s.ds j.cell (if j.call then b else a)) ∧ s.forward = [] := by
  have hL := desk_listening (l := [10, 20, 10, 10, 10, 20]) (by simp) ""
  have hC := desk_compiler [10, 20, 10, 10, 10, 20] ""
  obtain ⟨b1, b2⟩ := desk_labels [10, 20, 10, 10, 10, 20] ""
  obtain ⟨n1, n2, n3, n4, n5, n6, n7, n8, n9⟩ := desk_numbers [10, 20, 10, 10, 10, 20] ""
  have hd := desk_data (l := [10, 20, 10, 10, 10, 20]) (by simp) ""
  generalize desk [10, 20, 10, 10, 10, 20] "" = s at *
  have hlt : ∀ i p, (i, p) ∈ roles s.refs 15 → i < 2 ^ 64 := fun i p hi => by
    obtain ⟨w, hw, -⟩ := hC.runtime _ hi
    have := (List.getElem?_eq_some_iff.mp hw).1
    have := hC.size
    simp only at *
    omega
  have hlim : s.ds.limit = 66560 := by simp only [DataSpace.limit, n4, n5]
  have h0 : Labels (ctx demoCfg 5) [] [] { s with forward := [], resolved := [] } :=
    .start (s := s) rfl hL.space.small hL.space.inside (hlt _ .branch (by simp [roles])) (hlt _ .lit (by simp [roles])) b2
  have t10 : (10 : Cell).toNat = 10 := by decide
  have t20 : (20 : Cell).toNat = 20 := by decide
  obtain ⟨s1, -, h1, d1, e1, x1, y1, z1⟩ := C28_goto h0 hd (by rw [t10]; decide) (by rw [t10]; simp only; omega) (by simp only; omega)
  simp only at e1 x1 y1 z1
  obtain ⟨s2, -, h2, d2, e2, x2, y2, z2⟩ := C28_call h1 d1 (by rw [t20]; decide) (by rw [t20]; omega) (by omega)
  obtain ⟨s3, -, h3, d3, e3, x3, y3, z3⟩ := C28_goto h2 d2 (by rw [t10]; decide) (by rw [t10]; omega) (by omega)
  obtain ⟨s4, -, h4, d4, e4, x4, y4, z4⟩ := C28_label h3 d3 (by rw [t10]; decide) (by rw [t10]; omega) (by simp)
  obtain ⟨s5, -, h5, d5, e5, x5, y5, z5⟩ := C28_goto h4 d4 (by rw [t10]; decide) (by rw [t10]; omega) (by omega)
  obtain ⟨s6, -, h6, d6, e6, x6, y6, z6⟩ := C28_label h5 d5 (by rw [t20]; decide) (by rw [t20]; omega) (by simp [t10, t20])
  refine ⟨_, _, s6, _, h6, rfl, ?_, ?_, ?_⟩
  · rw [e6, e5, e4, e3, e2, e1]; exact hL.noError
  · intro j hj
    refine (C28_resolve h6 hj ?_).2
    simp only [List.mem_cons, List.not_mem_nil, or_false] at hj
    rcases hj with rfl | rfl | rfl | rfl <;> simp [t10, t20]
  · rw [List.eq_nil_iff_forall_not_mem]
    intro n hn
    obtain ⟨⟨j, hj, rfl⟩, hno⟩ := ((labels_inv h6).forward n).mp hn
    simp only [List.mem_cons, List.not_mem_nil, or_false] at hj
    rcases hj with rfl | rfl | rfl | rfl
    · exact hno _ (by simp [t10, t20]; rfl)
    · exact hno _ (by simp [t10, t20]; rfl)
    · exact hno _ (by simp [t10, t20]; rfl)
    · exact hno _ (by simp [t10, t20]; rfl)

end Verif
