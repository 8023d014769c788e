import Verif.Lemmas.StandBoot

/-!
# All words there are before any text is loaded
-/

namespace Verif
open Spec Stack

/-- What is there after word 0. -/
def firstOutline : Outline := { rows := [], count := 1, here := 24, top := 24, defs := [], facts := [], stack := [], text := [] }

def coreOutline1 : Outline := addWords coreTable1.tail firstOutline

/-- `leave` is compiled in a way of its own. -/
def patchRow (i : Nat) (r : Row) : Row := if r.ix = i then { r with comp := .leave } else r

def coreOutline2 : Outline :=
  addWords coreTable2 { coreOutline1 with rows := coreOutline1.rows.map (patchRow 13) }

def outputOutline : Outline := addWords outputTable coreOutline2

def otherTables : List Entry := toolsTable ++ (envTable ++ (facilityTable ++ (floatTable ++ (unitsTable ++ (fileTable ++ loaderTable)))))

/-- The words there are before any text is loaded. -/
def bootOutline : Outline := addWords otherTables outputOutline

def bootRefs : Refs :=
  { lit := 3, flit := 4, exit := 2, zeroBranch := 7, branch := 6, doRt := 8, qdoRt := 9, loopRt := 10, plusLoopRt := 11, sQuote := 5,
    type := 149, over := 29, equal := 34, drop := 27, postponeRt := 23, toR := 16, doesRt := 24 }

def finds (l : Outline) (e : String × Nat) : Bool := lookup (keyOf (nameCodes e.1) 0) l.rows == some e.2

/-- What has to be checked of the tables. -/
def tablesOk : Bool :=
  tableOk coreTable1.tail firstOutline &&
  [("lit", 3), ("flit", 4), ("exit", 2), ("0branch", 7), ("branch", 6), ("_do", 8), ("_qdo", 9), ("_loop", 10), ("_+loop", 11),
    ("over", 29), ("=", 34), ("drop", 27), ("_postpone", 23), (">r", 16), ("_does", 24), ("leave", 13)].all (finds coreOutline1) &&
  tableOk coreTable2 { coreOutline1 with rows := coreOutline1.rows.map (patchRow 13) } &&
  tableOk outputTable coreOutline2 &&
  [("_s\"", 5), ("type", 149)].all (finds outputOutline) &&
  tableOk otherTables outputOutline

set_option maxRecDepth 1000000 in
theorem tables_ok : tablesOk = true := by decide +kernel

theorem addTable_append (c : Ctx) : ∀ (xs ys : List Entry) (s : VM),
    addTable c (xs ++ ys) s = (addTable c xs >>= fun _ => addTable c ys) s
  | [], _, _ => rfl
  | x :: xs, ys, s => by
    rw [List.cons_append, addTable, addTable, M.bind_apply, M.bind_apply, M.bind_apply]
    cases addEntry c x s with
    | error e => rfl
    | ok v =>
      obtain ⟨_, t⟩ := v
      have := addTable_append c xs ys t
      rw [M.bind_apply] at this
      exact this

section
variable {b cap : Nat} {l : Outline} {s t : VM}

theorem blank_space (hb : Site b cap) : SoundSpace (VM.blank b cap).ds := by
  have hr := hb.room
  have e1 : (VM.blank b cap).ds.start = b := rfl
  have e2 : (VM.blank b cap).ds.cap = cap := rfl
  have e3 : (VM.blank b cap).ds.len = 16 := rfl
  refine ⟨?_, ?_, ?_, ?_, ?_⟩
  · rw [e1]; exact hb.pos
  · rw [e1]; exact hb.aligned
  · rw [e1, e2]; exact hb.small
  · rw [e3]; exact Nat.le_refl _
  · rw [e2, e3]; simp only [outlineRoom] at hr; omega

theorem blank_base (b cap : Nat) : baseOf (VM.blank b cap) = 10 := by
  have : (VM.blank b cap).ds.cellAt (VM.blank b cap).ds.baseAddr = 10 := DataSpace.cellAt_setCell _ _ _
  rw [baseOf, this]
  rfl

/-- Word 0. -/
theorem built_first (hb : Site b cap) (c : Ctx) :
    ∃ t, addEntry c ⟨"", .core .noop, false, false⟩ (VM.blank b cap) = .ok ((), t) ∧ t.refs = {} ∧
      Built b cap firstOutline t := by
  have hs := blank_space hb
  have hr := hb.room
  have hal := hb.aligned
  have hbody : bodyOf (VM.blank b cap).ds (ascii "") = b + 24 := by
    show roundUp8 (b + 16 + 8 + 0) = _
    unfold roundUp8
    omega
  have hi : InSpace (VM.blank b cap) := ⟨hs.small, hs.inside⟩
  have hp : Prim.core .noop ≠ .core .unmark := by decide
  obtain ⟨t, t1, hadd, t3, t4⟩ := addPrimitive_run c (p := .core .noop) (name := ascii "") hs (by
    rw [hbody]
    show _ ≤ b + cap
    simp only [outlineRoom] at hr
    omega)
  have hed : Edit .any (VM.blank b cap) t := hadd.edit' hp hi rfl rfl (fun _ _ => rfl) (Nat.le_refl _)
  have hstart : t.ds.start = b := hadd.start
  have hh : t.ds.here = b + 24 := t3.trans hbody
  have hws : t.wl.words = [{ Word.new (.core .noop) .word (VM.blank b cap).ds.here t.ds.here with
      link := (VM.blank b cap).wl.buckets (Wordlist.bucketOf (Wordlist.hash (ascii ""))), hash := Wordlist.hash (ascii "") }] := by
    rw [hadd.wl]; rfl
  have hone : ∀ (i : Nat) w, t.wl.words[i]? = some w → i = 0 ∧ w.dfa = b + 24 ∧ w.action = .core .noop := by
    intro i w hw
    rw [hws] at hw
    match i with
    | 0 => cases hw; exact ⟨rfl, hh, rfl⟩
    | i + 1 => cases hw
  refine ⟨t, ?_, by rw [t4]; rfl, ?_, ?_, hed.dict (VM.blank_dict b cap), ?_, hstart, hadd.cap, hh, ?_, by rw [hws]; rfl, Nat.le_refl _, nofun, .nil, ?_,
    by decide, rfl, by decide, ?_⟩
  · rw [addEntry, M.bind_ok t1]; rfl
  · conv => lhs; rw [t4]
    rw [show t.refs = (VM.blank b cap).refs by rw [t4], show t.tasks = (VM.blank b cap).tasks by rw [t4]]
  · rw [show t.tasks = (VM.blank b cap).tasks by rw [t4]]; rfl
  · refine ⟨?_, ?_, ?_, ?_, hadd.len⟩
    · rw [hstart]; exact hb.pos
    · rw [hstart]; exact hb.aligned
    · rw [hadd.start, hadd.cap]; exact hs.small
    · simp only [DataSpace.here] at hh
      omega
  · rw [← blank_base b cap]
    simp only [baseOf, DataSpace.baseAddr]
    rw [DataSpace.cellAt_congr (d := (VM.blank b cap).ds), hadd.start]
    intro x _ hx
    refine hadd.below x ?_
    rw [hstart] at hx
    exact hx
  · intro nm j hv
    obtain ⟨h1, w, hw, -⟩ := hv
    have := (hone j w hw).1
    omega
  · intro i w hw
    obtain ⟨-, h1, h2⟩ := hone i w hw
    exact ⟨Nat.le_of_eq h1, by rw [h2]; decide⟩

theorem Built.refs (h : Built b cap l s) (R : Refs) : Built b cap l { s with refs := R } := by
  refine ⟨?_, h.terminal, h.dict.congr rfl rfl, h.space, h.start, h.cap, h.here, h.base, h.count, h.many, h.rows, h.order, ?_, h.low, h.top,
    h.room, h.bodies⟩
  · conv => lhs; rw [h.frame]
  · intro nm
    exact (newest_same_words rfl (fun _ _ _ => rfl) nm _).2 (h.names nm)

theorem Built.awake (h : Built b cap l s) (v : Bool) : Built b cap l (s.setTaskAt 0 { s.tasks 0 with awake := v }) := by
  refine ⟨?_, ?_, h.dict.congr rfl rfl, h.space, h.start, h.cap, h.here, h.base, h.count, h.many, h.rows, h.order, ?_, h.low, h.top,
    h.room, h.bodies⟩
  · conv => lhs; rw [h.frame]
    rfl
  · have : (s.setTaskAt 0 { s.tasks 0 with awake := v }).tasks 0 = { s.tasks 0 with awake := v } := by simp [VM.setTaskAt]
    rw [this, h.terminal]
  · intro nm
    exact (newest_same_words rfl (fun _ _ _ => rfl) nm _).2 (h.names nm)

theorem Built.patch (h : Built b cap l s) {i : Nat} (hi : i < l.count) :
    ∃ t, modWord i (fun w => { w with compSem := .leave }) s = .ok ((), t) ∧ t.refs = s.refs ∧
      Built b cap { l with rows := l.rows.map (patchRow i) } t := by
  have hlt : i < s.wl.words.length := by rw [h.count]; exact hi
  have hw := List.getElem?_eq_getElem hlt
  refine ⟨withWord s i { s.wl.words[i] with compSem := .leave }, by unfold modWord; rw [hw]; rfl, rfl, ?_⟩
  refine h.alter hw (v := { s.wl.words[i] with compSem := .leave }) rfl rfl rfl rfl rfl rfl (g := patchRow i) (fun r => ?_) (fun r hr => if_neg hr) (fun r hr e => ?_)
  · unfold patchRow; split <;> exact ⟨rfl, rfl⟩
  · rw [patchRow, if_pos e]
    exact ⟨hr.action, rfl, hr.imm, hr.co, hr.dfa⟩

theorem boot_built (hb : Site b cap) (c : Ctx) :
    ∃ s, addAll c (VM.blank b cap) = .ok ((), s) ∧ s.refs = bootRefs ∧ Built b cap bootOutline s := by
  have ht := tables_ok
  simp only [tablesOk, Bool.and_eq_true, List.all_cons, List.all_nil, and_true, finds, beq_iff_eq] at ht
  obtain ⟨⟨⟨⟨⟨k1, f1, f2, f3, f4, f5, f6, f7, f8, f9, f10, f11, f12, f13, f14, f15, f16⟩, k2⟩, k3⟩, f17, f18⟩, k4⟩ := ht
  obtain ⟨s0, a1, a2, a3⟩ := built_first hb c
  obtain ⟨s1, b1, b2, b3⟩ := Built.table hb c _ a3 k1
  have c1 : coreRefs c s1 = .ok ((), { s1 with refs := { bootRefs with sQuote := 0, type := 0 } }) := by
    unfold coreRefs
    rw [M.bind_ok (b3.findE c f1), M.bind_ok (b3.findE c f2), M.bind_ok (b3.findE c f3), M.bind_ok (b3.findE c f4),
      M.bind_ok (b3.findE c f5), M.bind_ok (b3.findE c f6), M.bind_ok (b3.findE c f7), M.bind_ok (b3.findE c f8),
      M.bind_ok (b3.findE c f9), M.bind_ok (b3.findE c f10), M.bind_ok (b3.findE c f11), M.bind_ok (b3.findE c f12),
      M.bind_ok (b3.findE c f13), M.bind_ok (b3.findE c f14), M.bind_ok (b3.findE c f15)]
    show Except.ok ((), { s1 with refs := { s1.refs with
      lit := 3, flit := 4, exit := 2, zeroBranch := 7, branch := 6, doRt := 8, qdoRt := 9, loopRt := 10, plusLoopRt := 11,
      over := 29, equal := 34, drop := 27, postponeRt := 23, toR := 16, doesRt := 24 } }) = _
    rw [b2, a2]
    rfl
  have c3 := b3.refs { bootRefs with sQuote := 0, type := 0 }
  generalize hs2 : ({ s1 with refs := { bootRefs with sQuote := 0, type := 0 } } : VM) = s2 at c1 c3
  have c2 : s2.refs = { bootRefs with sQuote := 0, type := 0 } := by rw [← hs2]
  obtain ⟨w, hw, -⟩ := c3.names (ascii "leave") |> fun h => (show Visible s2 (ascii "leave") 13 by
    rw [show lookup (keyOf (codesOf (ascii "leave")) 0) (addWords coreTable1.tail firstOutline).rows = some 13 from f16] at h
    exact h.1).2
  obtain ⟨s3, d1, d2, d3⟩ := c3.patch (i := 13) (by
    rw [← c3.count]
    exact (List.getElem?_eq_some_iff.1 hw).1)
  obtain ⟨s4, e1, e2, e3⟩ := Built.table hb c _ d3 k2
  have g3 := e3.awake true
  have g2 : (s4.setTaskAt 0 { s4.tasks 0 with awake := true }).refs = s4.refs := rfl
  have g1 : setAwake 0 true s4 = .ok ((), s4.setTaskAt 0 { s4.tasks 0 with awake := true }) := rfl
  generalize s4.setTaskAt 0 { s4.tasks 0 with awake := true } = s5 at g1 g2 g3
  obtain ⟨s6, h1, h2, h3⟩ := Built.table hb c _ g3 k3
  have i3 := h3.refs bootRefs
  have i1 : addOutput c s5 = .ok ((), { s6 with refs := bootRefs }) := by
    unfold addOutput
    rw [M.bind_ok h1, M.bind_ok (h3.findE c f17), M.bind_ok (h3.findE c f18)]
    show Except.ok ((), { s6 with refs := { s6.refs with sQuote := 5, type := 149 } }) = _
    rw [h2, g2, e2, d2, c2]
    rfl
  obtain ⟨s7, j1, j2, j3⟩ := Built.table hb c _ i3 k4
  refine ⟨s7, ?_, j2, j3⟩
  have core : addCore c (VM.blank b cap) = .ok ((), s5) := by
    unfold addCore
    have t1 : addTable c coreTable1 (VM.blank b cap) = .ok ((), s1) := by
      show (addEntry c _ >>= fun _ => addTable c coreTable1.tail) (VM.blank b cap) = _
      rw [M.bind_ok a1]
      exact b1
    have t2 : patchCompSem c s2 = .ok ((), s3) := by
      unfold patchCompSem
      rw [M.bind_ok (c3.findE c f16)]
      exact d1
    rw [M.bind_ok t1, M.bind_ok c1, M.bind_ok t2, M.bind_ok e1]
    exact g1
  unfold addAll
  rw [M.bind_ok core, M.bind_ok i1, ← j1]
  unfold otherTables
  simp only [M.bind_apply, addTable_append]

end

end Verif
