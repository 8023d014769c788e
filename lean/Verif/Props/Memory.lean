import Verif.Spec.Memory
import Verif.Lemmas.MemoryWords
import Verif.Lemmas.Stack

/-!
# C07 – C09, C11, C12: memory words
-/

namespace Verif
open Spec Stack DataSpace

/-! ## C07: store, then fetch -/

/-- C07. `@` reads the cell at any address inside the data space and changes nothing else; the
address of the first byte is not accepted (see `C08_cell_words`). -/
theorem fetches_cell (c : Ctx) (d : DataSpace) (a : Cell) (hd : SoundSpace d)
    (h1 : d.start < a.toNat) (h2 : a.toNat + 8 ≤ d.limit) :
    Fetches c (.core .fetch) d a (d.cellAt a.toNat) := by
  intro s l hs hi
  subst hs
  have hr := items_eq_iff.1 hi
  have e := hr.pop_fst
  refine ⟨_, fetch_ok c s (by rw [e]; exact h1) (by rw [e]; exact h2)
    (by have := hd.small; unfold limit; omega), ?_⟩
  rw [e]
  exact items_eq_iff.2 (hr.toPopPush _).rep

theorem fetches_byte (c : Ctx) (d : DataSpace) (a : Cell)
    (h1 : d.start ≤ a.toNat) (h2 : a.toNat < d.limit) :
    Fetches c (.core .cFetch) d a ((d.bytes a.toNat).setWidth 64) := by
  intro s l hs hi
  subst hs
  have hr := items_eq_iff.1 hi
  have e := hr.pop_fst
  refine ⟨_, cFetch_ok c s (by rw [e]; exact h1) (by rw [e]; exact h2), ?_⟩
  rw [e]
  exact items_eq_iff.2 (hr.toPopPush _).rep

/-- C07. After `x a !`, for any address of the data space: `a @` gives `x`; every `@` at a cell that
does not overlap it and every `c@` of a byte outside it gives what it gave before; `here`, start
and size are unchanged. -/
theorem C07_store_fetch (c : Ctx) (d : DataSpace) (a x : Cell) (hd : SoundSpace d)
    (h1 : d.start < a.toNat) (h2 : a.toNat + 8 ≤ d.limit) :
    ∃ pStore pFetch pCFetch d', primOf "!" = some pStore ∧ primOf "@" = some pFetch ∧
      primOf "c@" = some pCFetch ∧ Stores c pStore d a x d' ∧
      Fetches c pFetch d' a x ∧
      (∀ b : Cell, d.start < b.toNat → b.toNat + 8 ≤ d.limit →
        b.toNat + 8 ≤ a.toNat ∨ a.toNat + 8 ≤ b.toNat →
        ∃ v, Fetches c pFetch d b v ∧ Fetches c pFetch d' b v) ∧
      (∀ b : Cell, d.start ≤ b.toNat → b.toNat < d.limit →
        b.toNat < a.toNat ∨ a.toNat + 8 ≤ b.toNat →
        ∃ v, Fetches c pCFetch d b v ∧ Fetches c pCFetch d' b v) ∧
      d'.here = d.here ∧ d'.start = d.start ∧ d'.limit = d.limit := by
  have hd' : SoundSpace (d.setCell a.toNat x) := ⟨hd.pos, hd.aligned, hd.small, hd.vars, hd.inside⟩
  refine ⟨_, _, _, d.setCell a.toNat x, rfl, rfl, rfl, ?_, ?_, ?_, ?_, rfl, rfl, rfl⟩
  · intro s l hs hi
    subst hs
    have hr := items_eq_iff.1 hi
    have e := hr.pop2_fst
    have hk := store_ok c s (by rw [e]; exact h1) (by rw [e]; exact h2)
      (by have := hd.small; unfold limit; omega)
    rw [e] at hk
    exact ⟨_, hk, items_eq_iff.2 hr.pop2_snd⟩
  · have := fetches_cell c _ a hd' h1 h2
    rwa [cellAt_setCell] at this
  · intro b hb1 hb2 hb3
    refine ⟨_, fetches_cell c d b hd hb1 hb2, ?_⟩
    have := fetches_cell c _ b hd' hb1 hb2
    rwa [cellAt_setCell_ne hb3] at this
  · intro b hb1 hb2 hb3
    refine ⟨_, fetches_byte c d b hb1 hb2, ?_⟩
    have := fetches_byte c (d.setCell a.toNat x) b hb1 hb2
    rwa [setCell_bytes_out hb3] at this

/-- C07. After `x a c!`: `a c@` gives the low byte of `x`, every other `c@` and every `@` that does not
contain the byte gives what it gave before. -/
theorem C07_cstore_cfetch (c : Ctx) (d : DataSpace) (a x : Cell) (hd : SoundSpace d)
    (h1 : d.start < a.toNat) (h2 : a.toNat < d.limit) :
    ∃ pStore pFetch pCFetch d', primOf "c!" = some pStore ∧ primOf "@" = some pFetch ∧
      primOf "c@" = some pCFetch ∧ Stores c pStore d a x d' ∧
      Fetches c pCFetch d' a (BitVec.ofNat 64 (x.toNat % 256)) ∧
      (∀ b : Cell, d.start < b.toNat → b.toNat + 8 ≤ d.limit →
        b.toNat + 8 ≤ a.toNat ∨ a.toNat < b.toNat →
        ∃ v, Fetches c pFetch d b v ∧ Fetches c pFetch d' b v) ∧
      (∀ b : Cell, d.start ≤ b.toNat → b.toNat < d.limit → b ≠ a →
        ∃ v, Fetches c pCFetch d b v ∧ Fetches c pCFetch d' b v) ∧
      d'.here = d.here ∧ d'.start = d.start ∧ d'.limit = d.limit := by
  have hd' : SoundSpace (d.setByte a.toNat (x.setWidth 8)) :=
    ⟨hd.pos, hd.aligned, hd.small, hd.vars, hd.inside⟩
  refine ⟨_, _, _, d.setByte a.toNat (x.setWidth 8), rfl, rfl, rfl, ?_, ?_, ?_, ?_, rfl, rfl, rfl⟩
  · intro s l hs hi
    subst hs
    have hr := items_eq_iff.1 hi
    have e := hr.pop2_fst
    have hk := cStore_ok c s (by rw [e]; exact h1) (by rw [e]; exact h2)
    rw [e] at hk
    exact ⟨_, hk, items_eq_iff.2 hr.pop2_snd⟩
  · have := fetches_byte c (d.setByte a.toNat (x.setWidth 8)) a (by simpa using Nat.le_of_lt h1) h2
    have e : (BitVec.setWidth 8 x).setWidth 64 = BitVec.ofNat 64 (x.toNat % 256) := by
      apply BitVec.eq_of_toNat_eq; simp
    simpa [setByte, e] using this
  · intro b hb1 hb2 hb3
    refine ⟨_, fetches_cell c d b hd hb1 hb2, ?_⟩
    have := fetches_cell c _ b hd' hb1 hb2
    have e : (d.setByte a.toNat (x.setWidth 8)).cellAt b.toNat = d.cellAt b.toNat :=
      cellAt_congr fun y hy1 hy2 => by simp only [setByte]; rw [if_neg (by omega)]
    rwa [e] at this
  · intro b hb1 hb2 hb3
    refine ⟨_, fetches_byte c d b hb1 hb2, ?_⟩
    have := fetches_byte c (d.setByte a.toNat (x.setWidth 8)) b hb1 hb2
    have hne : b.toNat ≠ a.toNat := fun e => hb3 (BitVec.eq_of_toNat_eq e)
    simpa [setByte, hne] using this

theorem ffetches (c : Ctx) (d : DataSpace) (a : Cell) (hd : SoundSpace d)
    (h1 : d.start ≤ roundUp8 a.toNat) (h2 : roundUp8 a.toNat + 8 ≤ d.limit) :
    FFetches c (.flt .ffetch) d a (d.cellAt (roundUp8 a.toNat)) := by
  intro s l fl hs hi hf hl
  subst hs
  have hr := items_eq_iff.1 hi
  have hrf := items_eq_iff.1 hf
  have e := hr.pop_fst
  have hsm := hd.small
  have hlt : a.toNat + 8 < usizeMod := by
    simp only [usizeMod, limit, roundUp8] at *; omega
  have hal := aligned_ok (oc := c.oc) hlt
  have hv : s.ds.valid (roundUp8 a.toNat) 8 := ⟨h1, h2⟩
  refine ⟨s.task.s.pop.2, s.task.f.push (s.ds.cellAt (roundUp8 a.toNat)), ?_,
    items_eq_iff.2 hr.pop_snd, items_eq_iff.2 (hrf.push hl _)⟩
  have hlt2 : roundUp8 a.toNat < s.ds.limit := by omega
  simp only [action, floatAction, ffetch, M.bind_apply, sPop_apply, e, hal, liftE_ok, getDs_apply,
    VM.ds_setTask, M.ite_apply]
  rw [if_pos ⟨h1, hlt2⟩]
  simp only [roundUp8] at hv
  simp [dsRd_apply, getCell, hv, roundUp8]

/-- C07. After `a f!` of any float: `a f@` gives it back, at the rounded-up address; other `@`, `c@` and `f@`
are unaffected when they do not overlap its eight bytes. -/
theorem C07_fstore_ffetch (c : Ctx) (d : DataSpace) (a : Cell) (x : F64) (hd : SoundSpace d)
    (h1 : d.start ≤ roundUp8 a.toNat) (h2 : roundUp8 a.toNat + 8 ≤ d.limit) :
    ∃ pStore pFFetch pFetch pCFetch d', primOf "f!" = some pStore ∧ primOf "f@" = some pFFetch ∧
      primOf "@" = some pFetch ∧ primOf "c@" = some pCFetch ∧ FStores c pStore d a x d' ∧
      FFetches c pFFetch d' a x ∧
      (∀ b : Cell, d.start ≤ roundUp8 b.toNat → roundUp8 b.toNat + 8 ≤ d.limit →
        roundUp8 b.toNat ≠ roundUp8 a.toNat →
        ∃ v, FFetches c pFFetch d b v ∧ FFetches c pFFetch d' b v) ∧
      (∀ b : Cell, d.start < b.toNat → b.toNat + 8 ≤ d.limit →
        b.toNat + 8 ≤ roundUp8 a.toNat ∨ roundUp8 a.toNat + 8 ≤ b.toNat →
        ∃ v, Fetches c pFetch d b v ∧ Fetches c pFetch d' b v) ∧
      (∀ b : Cell, d.start ≤ b.toNat → b.toNat < d.limit →
        b.toNat < roundUp8 a.toNat ∨ roundUp8 a.toNat + 8 ≤ b.toNat →
        ∃ v, Fetches c pCFetch d b v ∧ Fetches c pCFetch d' b v) ∧
      d'.here = d.here ∧ d'.start = d.start ∧ d'.limit = d.limit := by
  have hd' : SoundSpace (d.setCell (roundUp8 a.toNat) x) :=
    ⟨hd.pos, hd.aligned, hd.small, hd.vars, hd.inside⟩
  refine ⟨_, _, _, _, d.setCell (roundUp8 a.toNat) x, rfl, rfl, rfl, rfl, ?_, ?_, ?_, ?_, ?_, rfl, rfl,
    rfl⟩
  · intro s l fl hs hi hf
    subst hs
    have hr := items_eq_iff.1 hi
    have hrf := items_eq_iff.1 hf
    have e := hr.pop_fst
    have ef := hrf.pop_fst
    have hsm := hd.small
    have hlt : a.toNat + 8 < usizeMod := by
      simp only [usizeMod, limit, roundUp8] at *; omega
    have hal := aligned_ok (oc := c.oc) hlt
    have hv : s.ds.valid (roundUp8 a.toNat) 8 := ⟨h1, h2⟩
    refine ⟨s.task.s.pop.2, s.task.f.pop.2, ?_, items_eq_iff.2 hr.pop_snd, items_eq_iff.2 hrf.pop_snd⟩
    have hlt2 : roundUp8 a.toNat < s.ds.limit := by omega
    simp only [action, floatAction, fstore, M.bind_apply, sPop_apply, e, hal, liftE_ok, getDs_apply,
      VM.ds_setTask, M.ite_apply, fPop_apply, VM.task_setTask, ef]
    rw [if_pos ⟨h1, hlt2⟩]
    simp only [roundUp8] at hv
    simp [dsOp_apply, putCell, hv, roundUp8]
  · have := ffetches c _ a hd' h1 h2
    rwa [cellAt_setCell] at this
  · intro b hb1 hb2 hb3
    refine ⟨_, ffetches c d b hd hb1 hb2, ?_⟩
    have := ffetches c _ b hd' hb1 hb2
    rwa [cellAt_setCell_ne (by simp only [roundUp8] at *; omega)] at this
  · intro b hb1 hb2 hb3
    refine ⟨_, fetches_cell c d b hd hb1 hb2, ?_⟩
    have := fetches_cell c _ b hd' hb1 hb2
    rwa [cellAt_setCell_ne hb3] at this
  · intro b hb1 hb2 hb3
    refine ⟨_, fetches_byte c d b hb1 hb2, ?_⟩
    have := fetches_byte c (d.setCell (roundUp8 a.toNat) x) b hb1 hb2
    rwa [setCell_bytes_out hb3] at this

/-- A data space, and an unaligned address in it, that meet the hypotheses above. -/
example : SoundSpace (DataSpace.withCapacity 4096 4096) ∧
    (DataSpace.withCapacity 4096 4096).start < (4203 : Cell).toNat ∧
    (4203 : Cell).toNat + 8 ≤ (DataSpace.withCapacity 4096 4096).limit ∧
    (DataSpace.withCapacity 4096 4096).start ≤ roundUp8 (4203 : Cell).toNat :=
  ⟨⟨by decide, by decide, by decide, by decide, by decide⟩, by decide, by decide, by decide⟩

/-! ## C08: bad addresses -/

/-- C08, for `@` and `!`, partial: for every address `a` with `a + 8 < 2^64`. An address whose cell is not
wholly above the first byte and below the end raises the invalid-memory-address exception and accesses nothing. The full
statement ranges over all addresses and is false: see `C08_fetch_wraps`. -/
theorem C08_cell_words_partial (c : Ctx) : ∃ pF pS, primOf "@" = some pF ∧ primOf "!" = some pS ∧
    ∀ s : VM,
    (∀ a, a = s.task.s.pop.1.toNat → a + 8 < 2 ^ 64 → (a ≤ s.ds.start ∨ s.ds.limit < a + 8) →
      action c pF s = abortWith c .invalidMemoryAddress (withData s s.task.s.pop.2)) ∧
    (∀ a, a = s.task.s.pop2.1.2.toNat → a + 8 < 2 ^ 64 → (a ≤ s.ds.start ∨ s.ds.limit < a + 8) →
      action c pS s = abortWith c .invalidMemoryAddress (withData s s.task.s.pop2.2)) := by
  refine ⟨_, _, rfl, rfl, fun s => ⟨?_, ?_⟩⟩
  · rintro a rfl h hb
    exact fetch_bad c s h (by omega)
  · rintro a rfl h hb
    exact store_bad c s h (by omega)

/-- C08, for `c@` and `c!`: every address, in every state. -/
theorem C08_byte_words (c : Ctx) : ∃ pF pS, primOf "c@" = some pF ∧ primOf "c!" = some pS ∧
    ∀ s : VM,
    (∀ a, a = s.task.s.pop.1.toNat → (a < s.ds.start ∨ s.ds.limit ≤ a) →
      action c pF s = abortWith c .invalidMemoryAddress (withData s s.task.s.pop.2)) ∧
    (∀ a, a = s.task.s.pop2.1.2.toNat → (a ≤ s.ds.start ∨ s.ds.limit ≤ a) →
      action c pS s = abortWith c .invalidMemoryAddress (withData s s.task.s.pop2.2)) := by
  refine ⟨_, _, rfl, rfl, fun s => ⟨?_, ?_⟩⟩
  · rintro a rfl hb
    exact cFetch_bad c s (by omega)
  · rintro a rfl hb
    exact cStore_bad c s (by omega)

/-- C08, for `f@` and `f!`, partial: a size that is a multiple of 8, and addresses with `a + 8 < 2^64`. The full
statement is false for other sizes: see `C08_ffetch_past_end`. -/
theorem C08_float_words_partial (c : Ctx) : ∃ pF pS, primOf "f@" = some pF ∧ primOf "f!" = some pS ∧
    ∀ s : VM, SoundSpace s.ds → s.ds.cap % 8 = 0 →
    ∀ a, a = s.task.s.pop.1.toNat → a + 8 < 2 ^ 64 →
      (roundUp8 a < s.ds.start ∨ s.ds.limit < roundUp8 a + 8) →
      action c pF s = abortWith c .invalidMemoryAddress (withData s s.task.s.pop.2) ∧
      action c pS s = abortWith c .invalidMemoryAddress
        (s.setTask { s.task with s := s.task.s.pop.2, f := s.task.f.pop.2 }) := by
  refine ⟨_, _, rfl, rfl, ?_⟩
  rintro s hd hc a rfl h hb
  have hal := aligned_ok (oc := c.oc) (pos := s.task.s.pop.1.toNat) (by simp only [usizeMod]; omega)
  have hst := hd.aligned
  have hbad : ¬ (s.ds.start ≤ (s.task.s.pop.1.toNat + 7) / 8 * 8 ∧
      (s.task.s.pop.1.toNat + 7) / 8 * 8 < s.ds.limit) := by
    simp only [roundUp8, limit] at *; omega
  constructor
  · simp only [action, floatAction, ffetch, M.bind_apply, sPop_apply, hal, liftE_ok, getDs_apply,
      VM.ds_setTask, M.ite_apply, hbad, if_false, withData]
  · simp only [action, floatAction, fstore, M.bind_apply, sPop_apply, hal, liftE_ok, getDs_apply,
      VM.ds_setTask, M.ite_apply, hbad, if_false, fPop_apply, VM.task_setTask, VM.setTask_setTask]

/-- The full C08 is false of the code: in a build without overflow checks `@` at 2^64 - 4 passes the
range test, because `a + 8` wraps to 4, and reads outside the data space; with overflow checks it
panics. -/
theorem C08_fetch_wraps : ∃ s : VM, SoundSpace s.ds ∧ s.task.s.items = [(BitVec.ofInt 64 (-4) : Cell)] ∧
    primOf "@" = some (.core .fetch) ∧
    (∀ c : Ctx, c.oc = false → action c (.core .fetch) s = .error .ub) ∧
    (∀ c : Ctx, c.oc = true → action c (.core .fetch) s = .error .panic) := by
  refine ⟨withData (VM.blank 4096 4096) ((Stack.new 0).push (BitVec.ofInt 64 (-4))),
    ⟨by decide, by decide, by decide, by decide, by decide⟩, by decide, rfl, ?_, ?_⟩
  · intro c hc
    simp only [action, coreAction, fetch, hc, M.bind_apply, sPop_apply, dsRd_apply]
    rfl
  · intro c hc
    simp only [action, coreAction, fetch, hc, M.bind_apply, sPop_apply, dsRd_apply]
    rfl

/-- The full C08 is false of the code: `f@` tests only that the address is below the end, so with a
size that is not a multiple of 8 it reads past the end. -/
theorem C08_ffetch_past_end : ∃ s : VM, SoundSpace s.ds ∧ s.task.s.items = [(8192 : Cell)] ∧
    primOf "f@" = some (.flt .ffetch) ∧ s.ds.limit = 8196 ∧
    (∀ c : Ctx, action c (.flt .ffetch) s = .error .ub) := by
  refine ⟨withData (VM.blank 4096 4100) ((Stack.new 0).push 8192),
    ⟨by decide, by decide, by decide, by decide, by decide⟩, by decide, rfl, rfl, ?_⟩
  intro c
  cases hc : c.oc <;>
  · simp only [action, floatAction, ffetch, hc, M.bind_apply, sPop_apply]
    rfl

/-! ## C09: move -/

/-- C09. `a1 a2 u move` with both regions inside the data space (above its first byte) copies the old bytes of the
first region to the second, however they overlap, and changes no other byte and nothing else. -/
theorem C09_move (c : Ctx) : ∃ p, primOf "move" = some p ∧
    ∀ (s : VM) (a1 a2 u : Cell) (l : List Cell), SoundSpace s.ds →
      s.task.s.items = u :: a2 :: a1 :: l → 0 ≤ u.toInt →
      s.ds.start < a1.toNat → a1.toNat + u.toNat ≤ s.ds.limit →
      s.ds.start < a2.toNat → a2.toNat + u.toNat ≤ s.ds.limit →
      ∃ st' bytes', action c p s = .ok ((), withMem s st' { s.ds with bytes := bytes' }) ∧
        st'.items = l ∧
        (∀ k, k < u.toNat → bytes' (a2.toNat + k) = s.ds.bytes (a1.toNat + k)) ∧
        (∀ x, x < a2.toNat ∨ a2.toNat + u.toNat ≤ x → bytes' x = s.ds.bytes x) := by
  refine ⟨_, rfl, ?_⟩
  intro s a1 a2 u l hd hi hu h1 h2 h3 h4
  have hr := items_eq_iff.1 hi
  have e := hr.pop3_fst
  have hsm := hd.small
  by_cases hu0 : 0 < u.toInt
  · have hok := moveOk_of_lt (oc := c.oc) (d := s.ds) (a := a1.toNat) (b := a2.toNat) (u := u.toNat)
      (by simp only [usizeMod, limit] at *; omega) (by simp only [usizeMod, limit] at *; omega)
    have hok' : moveOk c.oc s.ds a1.toNat a2.toNat u.toNat = .ok true := by
      rw [hok]; simp [h1, h2, h3, h4]
    by_cases hlt : a1.toNat < a2.toNat
    · obtain ⟨d', m1, m2, m3, m4⟩ := moveDown_spec u.toNat s.ds a1.toNat a2.toNat (by omega)
        (by omega) h4
      refine ⟨s.task.s.pop3.2, d'.bytes, ?_, items_eq_iff.2 hr.pop3_snd, m3, m4⟩
      simp only [action, coreAction, pMove, M.bind_apply, sPop3_apply, e, M.ite_apply, hu0, if_true,
        dsRd_apply, VM.ds_setTask, hok', hlt, dsOp_apply, m1, ← m2.eq]
      rfl
    · obtain ⟨d', m1, m2, m3, m4⟩ := moveUp_spec u.toNat s.ds a1.toNat a2.toNat (by omega)
        (by omega) h2
      refine ⟨s.task.s.pop3.2, d'.bytes, ?_, items_eq_iff.2 hr.pop3_snd, m3, m4⟩
      simp only [action, coreAction, pMove, M.bind_apply, sPop3_apply, e, M.ite_apply, hu0, if_true,
        dsRd_apply, VM.ds_setTask, hok', hlt, dsOp_apply, m1, ← m2.eq, if_false]
      rfl
  · have hz : u.toNat = 0 := by
      have : u.toInt = 0 := by omega
      have : u = 0 := BitVec.eq_of_toInt_eq (by simpa using this)
      rw [this]; rfl
    refine ⟨s.task.s.pop3.2, s.ds.bytes, ?_, items_eq_iff.2 hr.pop3_snd, by omega, fun _ _ => rfl⟩
    simp only [action, coreAction, pMove, M.bind_apply, sPop3_apply, e, M.ite_apply, hu0, if_false,
      M.pure_apply]
    rfl

/-- Overlapping regions meet the hypotheses. -/
example : ∃ s : VM, SoundSpace s.ds ∧ s.task.s.items = [(100 : Cell), 4210, 4200] ∧
    s.ds.start < (4200 : Cell).toNat ∧ (4210 : Cell).toNat + (100 : Cell).toNat ≤ s.ds.limit :=
  ⟨withData (VM.blank 4096 4096) ((Stack.new 0).push3 4200 4210 100),
    ⟨by decide, by decide, by decide, by decide, by decide⟩, by decide, by decide, by decide⟩

/-- C08 and C09. A negative or zero count does nothing; a positive count with a region not inside the
data space raises the invalid-memory-address exception and writes nothing (for addresses whose sum
with the count does not pass 2^64). -/
theorem C08_move_partial (c : Ctx) : ∃ p, primOf "move" = some p ∧
    ∀ (s : VM) (a1 a2 u : Cell), s.task.s.pop3.1 = (a1, a2, u) →
      (u.toInt ≤ 0 → action c p s = .ok ((), withData s s.task.s.pop3.2)) ∧
      (0 < u.toInt → a1.toNat + u.toNat < 2 ^ 64 → a2.toNat + u.toNat < 2 ^ 64 →
        (a1.toNat ≤ s.ds.start ∨ s.ds.limit < a1.toNat + u.toNat ∨
          a2.toNat ≤ s.ds.start ∨ s.ds.limit < a2.toNat + u.toNat) →
        action c p s = abortWith c .invalidMemoryAddress (withData s s.task.s.pop3.2)) := by
  refine ⟨_, rfl, ?_⟩
  intro s a1 a2 u e
  constructor
  · intro hu
    simp only [action, coreAction, pMove, M.bind_apply, sPop3_apply, e, M.ite_apply,
      show ¬ 0 < u.toInt by omega, if_false, M.pure_apply]
    rfl
  · intro hu h1 h2 hb
    have hok := moveOk_of_lt (oc := c.oc) (d := s.ds) (a := a1.toNat) (b := a2.toNat) (u := u.toNat)
      h1 h2
    have hok' : moveOk c.oc s.ds a1.toNat a2.toNat u.toNat = .ok false := by
      rw [hok]; simp only [Except.ok.injEq, decide_eq_false_iff_not]; omega
    simp only [action, coreAction, pMove, M.bind_apply, sPop3_apply, e, M.ite_apply, hu, if_true,
      dsRd_apply, VM.ds_setTask, hok']
    rfl

/-! ## C11: allot, comma, align -/

/-- C11. `n allot` moves here by exactly `n` if that stays inside the data space, and otherwise does
nothing; in a build with overflow checks, a sum that is no machine integer panics. No byte changes. -/
theorem C11_allot (c : Ctx) : ∃ p, primOf "allot" = some p ∧
    ∀ (s : VM) (n : Cell) (l : List Cell), SoundSpace s.ds → s.task.s.items = n :: l →
      (s.ds.start ≤ s.ds.here + n.toInt → s.ds.here + n.toInt ≤ s.ds.limit →
        ∃ st' len', action c p s = .ok ((), withMem s st' { s.ds with len := len' }) ∧
          st'.items = l ∧ ((s.ds.start + len' : Nat) : Int) = s.ds.here + n.toInt) ∧
      (¬ (s.ds.start ≤ s.ds.here + n.toInt ∧ s.ds.here + n.toInt ≤ s.ds.limit) →
        (c.oc = false ∨ s.ds.here + n.toInt < 2 ^ 63) →
        ∃ st', action c p s = .ok ((), withData s st') ∧ st'.items = l) ∧
      (c.oc = true → 2 ^ 63 ≤ s.ds.here + n.toInt → action c p s = .error .panic) := by
  refine ⟨_, rfl, ?_⟩
  intro s n l hd hi
  have hr := items_eq_iff.1 hi
  have e := hr.pop_fst
  have hsm := hd.small
  have hin := hd.inside
  have hh : (toCell s.ds.here).toInt = s.ds.here := by
    exact toInt_ofNat_small (by simp only [DataSpace.here]; omega)
  have hn1 := BitVec.toInt_lt (x := n)
  have hn2 := BitVec.le_toInt (x := n)
  simp only [Nat.reduceSub] at hn1 hn2
  have hsum : (toCell s.ds.here + n).toInt = (s.ds.here + n.toInt).bmod (2 ^ 64) := by
    rw [BitVec.toInt_add, hh]
  have hpos : (0 : Int) ≤ s.ds.here := by omega
  have hsum2 : s.ds.here + n.toInt < 2 ^ 63 → 0 ≤ s.ds.here + n.toInt →
      ((toCell s.ds.here + n).toNat : Int) = s.ds.here + n.toInt := by
    intro h1 h2
    have h3 : (toCell s.ds.here + n).toInt = s.ds.here + n.toInt := by
      rw [hsum, Int.bmod_eq_of_le] <;> omega
    rw [BitVec.toInt_eq_toNat_cond] at h3
    have := (toCell s.ds.here + n).isLt
    split at h3 <;> omega
  have hsum3 : ¬ (0 ≤ s.ds.here + n.toInt ∧ s.ds.here + n.toInt < 2 ^ 63) →
      2 ^ 63 ≤ (toCell s.ds.here + n).toNat := by
    intro h
    have h4 := BitVec.toInt_eq_toNat_cond (toCell s.ds.here + n)
    rw [hsum] at h4
    have := (toCell s.ds.here + n).isLt
    have h5 : (s.ds.here + n.toInt).bmod (2 ^ 64) < 0 := by
      simp only [DataSpace.here, Int.bmod_def] at *; omega
    split at h4 <;> omega
  refine ⟨?_, ?_, ?_⟩
  · intro h1 h2
    have hlim : s.ds.limit < 2 ^ 63 := hsm
    have hsum' := hsum2 (by omega) (by omega)
    have hiadd : iadd c.oc (toCell s.ds.here) n = .ok (toCell s.ds.here + n) := by
      simp only [iadd]; rw [if_pos]; simp only [inIsize, hh]; omega
    have hal : s.ds.allot c.oc n =
        .ok { s.ds with len := (toCell s.ds.here + n).toNat - s.ds.start } := by
      simp only [DataSpace.allot, hiadd, Except.ok_bind', setHere]
      rw [if_pos (by omega)]
    refine ⟨s.task.s.pop.2, (toCell s.ds.here + n).toNat - s.ds.start, ?_, items_eq_iff.2 hr.pop_snd, ?_⟩
    · simp only [action, coreAction, allot, M.bind_apply, sPop_apply, e, dsOp_apply, VM.ds_setTask,
        hal]
      rfl
    · omega
  · intro hb hoc
    have hiadd : iadd c.oc (toCell s.ds.here) n = .ok (toCell s.ds.here + n) := by
      simp only [iadd]
      rcases hoc with h | h
      · simp [h]
      · rw [if_pos]; simp only [inIsize, hh]; omega
    refine ⟨s.task.s.pop.2, ?_, items_eq_iff.2 hr.pop_snd⟩
    have hout : ¬ (s.ds.start ≤ (toCell s.ds.here + n).toNat ∧
        (toCell s.ds.here + n).toNat ≤ s.ds.limit) := by
      have hlim : s.ds.limit < 2 ^ 63 := hsm
      by_cases hc : 0 ≤ s.ds.here + n.toInt ∧ s.ds.here + n.toInt < 2 ^ 63
      · have := hsum2 hc.2 hc.1; omega
      · have := hsum3 hc; omega
    have hal : s.ds.allot c.oc n = .ok s.ds := by
      simp only [DataSpace.allot, hiadd, Except.ok_bind', setHere]
      rw [if_neg hout]
    simp only [action, coreAction, allot, M.bind_apply, sPop_apply, e, dsOp_apply, VM.ds_setTask, hal]
    rfl
  · intro hoc hbig
    have hiadd : iadd c.oc (toCell s.ds.here) n = .error .panic := by
      simp only [iadd, hoc]; rw [if_neg]
      · rfl
      · simp only [inIsize, hh]; omega
    have hal : s.ds.allot c.oc n = .error .panic := by
      simp only [DataSpace.allot, hiadd, Except.error_bind']
    simp only [action, coreAction, allot, M.bind_apply, sPop_apply, e, dsOp_apply, VM.ds_setTask, hal]

/-- C11. `x ,` with room for a cell: `x` is stored at the old DataSpace.here, here moves by 8, no other byte and
nothing else changes. Without room the program panics (see C43). -/
theorem C11_comma (c : Ctx) : ∃ p, primOf "," = some p ∧
    ∀ (s : VM) (x : Cell) (l : List Cell), SoundSpace s.ds → s.task.s.items = x :: l →
      (s.ds.here + 8 ≤ s.ds.limit → ∃ st' d', action c p s = .ok ((), withMem s st' d') ∧
        st'.items = l ∧ d'.here = s.ds.here + 8 ∧ d'.start = s.ds.start ∧ d'.cap = s.ds.cap ∧
        Fetches c (.core .fetch) d' (BitVec.ofNat 64 s.ds.here) x ∧
        ∀ y, y < s.ds.here ∨ s.ds.here + 8 ≤ y → d'.bytes y = s.ds.bytes y) ∧
      (s.ds.limit < s.ds.here + 8 → action c p s = .error .panic) := by
  refine ⟨_, rfl, ?_⟩
  intro s x l hd hi
  have hr := items_eq_iff.1 hi
  have e := hr.pop_fst
  have hsm := hd.small
  have hvars := hd.vars
  have hin := hd.inside
  constructor
  · intro h
    refine ⟨s.task.s.pop.2, { s.ds.setCell s.ds.here x with len := s.ds.len + 8 }, ?_,
      items_eq_iff.2 hr.pop_snd, rfl, rfl, rfl, ?_, fun y hy => setCell_bytes_out hy⟩
    · simp only [action, coreAction, comma, M.bind_apply, sPop_apply, e, compileCell, dsOp_apply,
        VM.ds_setTask, ds_compileCell hd x h]
      rfl
    · have hd' : SoundSpace { s.ds.setCell s.ds.here x with len := s.ds.len + 8 } :=
        ⟨hd.pos, hd.aligned, hd.small, by simp only; omega, by simp only [DataSpace.here, limit, setCell_cap] at *; omega⟩
      have hn : (BitVec.ofNat 64 s.ds.here).toNat = s.ds.here := by
        simp only [BitVec.toNat_ofNat, DataSpace.here, limit] at *; omega
      have hf := fetches_cell c _ (BitVec.ofNat 64 s.ds.here) hd'
        (by rw [hn]; simp only [setCell_start, DataSpace.here]; omega)
        (by rw [hn]; exact h)
      have e2 : (cellAt { s.ds.setCell s.ds.here x with len := s.ds.len + 8 }
          (BitVec.ofNat 64 s.ds.here).toNat) = x := by
        rw [hn]; exact cellAt_setCell s.ds s.ds.here x
      rwa [e2] at hf
  · intro h
    simp only [action, coreAction, comma, M.bind_apply, sPop_apply, e, compileCell, dsOp_apply,
      VM.ds_setTask]
    have : s.ds.compileCell c.oc x = .error .panic := by
      rw [DataSpace.compileCell, if_neg (by omega)]
    rw [this]

/-- C11. `align` moves here to the least multiple of 8 not below it if that is inside the data space and
otherwise does nothing. No byte changes: there is no zero fill. `falign` does the same. -/
theorem C11_align (c : Ctx) (name : String) (hn : name ∈ ["align", "falign"]) : ∃ p, primOf name = some p ∧
    ∀ s : VM, SoundSpace s.ds → ∃ h', s.ds.here ≤ h' ∧ h' % 8 = 0 ∧
      (∀ m, s.ds.here ≤ m → m % 8 = 0 → h' ≤ m) ∧
      (h' ≤ s.ds.limit → action c p s = .ok ((), { s with ds := { s.ds with len := h' - s.ds.start } })) ∧
      (s.ds.limit < h' → action c p s = .ok ((), s)) := by
  obtain ⟨p, hp, e⟩ : ∃ p, primOf name = some p ∧ ∀ s, action c p s = align c s := by
    simp only [List.mem_cons, List.not_mem_nil, or_false] at hn
    rcases hn with rfl | rfl <;> exact ⟨_, rfl, fun _ => rfl⟩
  refine ⟨p, hp, ?_⟩
  intro s hd
  have hsm := hd.small
  have hin := hd.inside
  have hal := aligned_ok (oc := c.oc) (pos := s.ds.here) (by simp only [usizeMod, DataSpace.here]; omega)
  rw [e]
  refine ⟨(s.ds.here + 7) / 8 * 8, by omega, by omega, by omega, ?_, ?_⟩
  · intro h
    simp only [align, dsOp_apply, DataSpace.align, hal, bind, Except.bind, setHere]
    rw [if_pos ⟨by simp only [DataSpace.here] at *; omega, h⟩]
  · intro h
    simp only [align, dsOp_apply, DataSpace.align, hal, bind, Except.bind, setHere]
    rw [if_neg (by omega)]

/-! ## C12: alignment arithmetic -/

/-- `r` is the least multiple of `m` that is not below `n`. -/
def Spec.LeastMultiple (m n r : Nat) : Prop := n ≤ r ∧ r % m = 0 ∧ ∀ k, n ≤ k → k % m = 0 → r ≤ k

/-- C12. The alignment functions give the least multiple not below the argument; idempotent and
monotone, in builds with and without overflow checks. -/
theorem C12_aligned (oc : Bool) (n : Nat) :
    (n + 8 < 2 ^ 64 → ∃ r, DataSpace.aligned oc n = .ok r ∧ LeastMultiple 8 n r ∧
      (r + 8 < 2 ^ 64 → DataSpace.aligned oc r = .ok r) ∧
      (∀ m, n ≤ m → m + 8 < 2 ^ 64 → ∃ r', DataSpace.aligned oc m = .ok r' ∧ r ≤ r')) ∧
    (n + 16 < 2 ^ 64 → ∃ r, DataSpace.aligned16 oc n = .ok r ∧ LeastMultiple 16 n r ∧
      (r + 16 < 2 ^ 64 → DataSpace.aligned16 oc r = .ok r) ∧
      (∀ m, n ≤ m → m + 16 < 2 ^ 64 → ∃ r', DataSpace.aligned16 oc m = .ok r' ∧ r ≤ r')) := by
  constructor
  · intro h
    refine ⟨(n + 7) / 8 * 8, aligned_ok (by simpa [usizeMod] using h),
      ⟨by omega, by omega, by omega⟩, ?_, ?_⟩
    · intro h'
      rw [aligned_ok (by simpa [usizeMod] using h')]
      congr 1; omega
    · intro m hm h'
      exact ⟨_, aligned_ok (by simpa [usizeMod] using h'), by omega⟩
  · intro h
    refine ⟨(n + 15) / 16 * 16, aligned16_ok (by simpa [usizeMod] using h),
      ⟨by omega, by omega, by omega⟩, ?_, ?_⟩
    · intro h'
      rw [aligned16_ok (by simpa [usizeMod] using h')]
      congr 1; omega
    · intro m hm h'
      exact ⟨_, aligned16_ok (by simpa [usizeMod] using h'), by omega⟩

/-- C12. The word `aligned` computes that and changes nothing else. -/
theorem C12_aligned_word (c : Ctx) (name : String) (hn : name ∈ ["aligned", "faligned"]) :
    ∃ p, primOf name = some p ∧ ∀ (s : VM) (a : Cell) (l : List Cell), s.task.s.items = a :: l →
      a.toNat + 8 < 2 ^ 64 →
      ∃ st' r, action c p s = .ok ((), withData s st') ∧ st'.items = r :: l ∧
        LeastMultiple 8 a.toNat r.toNat := by
  have key : ∀ (s : VM) (a : Cell) (l : List Cell), s.task.s.items = a :: l →
      a.toNat + 8 < 2 ^ 64 →
      ∃ st' r, aligned c s = .ok ((), withData s st') ∧ st'.items = r :: l ∧
        LeastMultiple 8 a.toNat r.toNat := by
    intro s a l hi h
    have hr := items_eq_iff.1 hi
    have e := hr.pop_fst
    have hal := aligned_ok (oc := c.oc) (pos := a.toNat) (by simpa [usizeMod] using h)
    refine ⟨_, toCell ((a.toNat + 7) / 8 * 8), ?_, items_eq_iff.2 (hr.toPopPush _).rep, ?_⟩
    · simp only [aligned, M.bind_apply, sPop_apply, e, hal, liftE_ok, sPush_apply,
        VM.task_setTask, VM.setTask_setTask, withData]
    · have : (toCell ((a.toNat + 7) / 8 * 8)).toNat = (a.toNat + 7) / 8 * 8 := by
        simp only [toCell, BitVec.toNat_ofNat]; omega
      rw [this]
      exact ⟨by omega, by omega, by omega⟩
  simp only [List.mem_cons, List.not_mem_nil, or_false] at hn
  rcases hn with rfl | rfl
  · exact ⟨_, rfl, key⟩
  · exact ⟨_, rfl, key⟩

example : LeastMultiple 8 13 16 := ⟨by omega, by omega, by omega⟩

end Verif
