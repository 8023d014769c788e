import Verif.Props.Library
import Verif.Lemmas.Sources

/-!
# C46: the stack of saved input sources
-/

namespace Verif
open Spec Stack

section
variable {lv lo1 hi1 lo hi A n : Nat} {s : VM} {cfg : Cfg} {ix : String → Nat} {e : List (Cell × Cell)} {x : Cell × Cell}

theorem Spec.SavesSources.acts (h : SavesSources lv lo1 hi1 lo hi A ix s) {i : Nat} {t : VM}
    (hc : Calling cfg n s.refs lv s.wl lo hi s.cur s.ds i (shape s (data s) (ret s) s.ds) t) : Acts cfg (n + 1) i s t := by
  rw [shape_self] at hc
  exact (hc ⟨rfl, rfl, rfl, fun _ _ _ => rfl, h.equipped.words, fun _ w hw => ⟨w, hw, rfl, rfl⟩⟩).1

theorem saved_withEntry {m : DataSpace} (hS : Saved m A e) (he : e.length < 16) (x : Cell × Cell) :
    Saved (withEntry m A (e.length + 1) x.1 x.2) A (x :: e) := by
  refine ⟨by rw [List.length_cons]; omega, ?_, ?_, ?_⟩
  · rw [withEntry, DataSpace.cellAt_setCell_ne (by omega), DataSpace.cellAt_setCell_ne (by omega),
      DataSpace.cellAt_setCell_ne (by omega), hS.capacity]
  · rw [withEntry, DataSpace.cellAt_setCell_ne (by omega), DataSpace.cellAt_setCell_ne (by omega),
      DataSpace.cellAt_setCell]; rfl
  · intro i x hx
    rw [List.reverse_cons, List.getElem?_append] at hx
    split at hx
    · rename_i hi
      rw [List.length_reverse] at hi
      obtain ⟨h1, h2⟩ := hS.entry i x hx
      rw [← h1, ← h2]
      constructor
      · rw [withEntry, DataSpace.cellAt_setCell_ne (by omega), DataSpace.cellAt_setCell_ne (by omega),
          DataSpace.cellAt_setCell_ne (by omega)]
      · rw [withEntry, DataSpace.cellAt_setCell_ne (by omega), DataSpace.cellAt_setCell_ne (by omega),
          DataSpace.cellAt_setCell_ne (by omega)]
    · rename_i hi
      rw [List.length_reverse] at hi hx
      obtain ⟨h1, h2⟩ := List.getElem?_eq_some_iff.mp hx
      simp only [List.length_singleton] at h1
      have : i = e.length := by omega
      subst this
      simp only [Nat.sub_self, List.getElem_cons_zero] at h2
      subst h2
      constructor
      · rw [withEntry, DataSpace.cellAt_setCell_ne (by omega), DataSpace.cellAt_setCell]
      · rw [withEntry, DataSpace.cellAt_setCell]

/-- C46. `save-source` puts the source that is being read on top of the saved ones and changes nothing else. -/
theorem C46_save (h : SavesSources lv lo1 hi1 lo hi A ix s) (hS : Saved s.ds A e) (he : e.length < 16)
    (hl : (data s).length + 7 ≤ capacity) (hr : (ret s).length + 3 ≤ capacity) :
    ∃ m, Acts cfg (n + 1) (ix "save-source") s (leaving s (data s) m) ∧ Saved m A (source s :: e) ∧
      WrittenIn (A + 8) 264 s.ds m := by
  refine ⟨withEntry s.ds A (e.length + 1) (source s).1 (source s).2, by rw [leaving_eq]; exact h.acts (call_save h hS he hl hr),
    saved_withEntry hS he _, rfl, rfl, rfl, ?_⟩
  intro q hq
  rw [withEntry, DataSpace.setCell_bytes_out (by omega), DataSpace.setCell_bytes_out (by omega),
    DataSpace.setCell_bytes_out (by omega)]

/-- C46. `restore-source` takes the top one of the saved sources away and goes on reading it where it was left. -/
theorem C46_restore (h : SavesSources lv lo1 hi1 lo hi A ix s) (hS : Saved s.ds A (x :: e)) (hx : Readable s x.1)
    (hl : (data s).length + 4 ≤ capacity) (hr : (ret s).length + 3 ≤ capacity) :
    ∃ m, Acts cfg (n + 1) (ix "restore-source") s (leaving (reading s x) (data s) m) ∧
      source (leaving (reading s x) (data s) m) = x ∧ Saved m A e ∧ WrittenIn (A + 8) 8 s.ds m := by
  have hroom := hS.room
  rw [List.length_cons] at hroom
  refine ⟨s.ds.setCell (A + 8) (BitVec.ofNat 64 e.length), ?_, ?_, ⟨by omega, ?_, ?_, ?_⟩, rfl, rfl, rfl, ?_⟩
  · rw [leaving_eq]
    have hret : ret (reading s x) = ret s := by simp [ret, reading]
    rw [hret]
    exact h.acts (call_restore h hS hx hl hr)
  · rw [leaving_eq, source, shape_task]
    simp [reading]
  · rw [DataSpace.cellAt_setCell_ne (by omega), hS.capacity]
  · rw [DataSpace.cellAt_setCell]
  · intro i y hy
    have hi : i < e.length := by
      have := (List.getElem?_eq_some_iff.mp hy).1
      simpa using this
    obtain ⟨h1, h2⟩ := hS.entry i y (by
      rw [List.reverse_cons, List.getElem?_append_left (by simpa using hi)]; exact hy)
    rw [DataSpace.cellAt_setCell_ne (by omega), DataSpace.cellAt_setCell_ne (by omega)]
    exact ⟨h1, h2⟩
  · intro q hq
    rw [DataSpace.setCell_bytes_out (by omega)]

theorem aborted_facts {l r : List Cell} {m : DataSpace} {i : Nat} :
    (shape (raised (s.at (pc s) i) .abort) l r m).lastError = some .abort ∧
      source (shape (raised (s.at (pc s) i) .abort) l r m) = source s ∧ (shape (raised (s.at (pc s) i) .abort) l r m).ds = m := by
  refine ⟨rfl, ?_, rfl⟩
  rw [source, shape_task, raised_remade, task_remade, quiet, VM.at_task]
  rfl

/-- C46. With 16 sources saved, `save-source` aborts: it saves nothing and empties the data stack. -/
theorem C46_full (h : SavesSources lv lo1 hi1 lo hi A ix s) (hS : Saved s.ds A e) (he : e.length = 16)
    {v : Word} (hh : s.wl.words[s.handler]? = some v) (hv : v.action = .core .noop)
    (hl : (data s).length + 5 ≤ capacity) (hr : (ret s).length + 2 ≤ capacity) :
    ∃ t, Acts cfg (n + 2) (ix "save-source") s t ∧ t.lastError = some .abort ∧ data t = [] ∧ t.ds = s.ds ∧ source t = source s := by
  obtain ⟨h1, h2, h3⟩ := aborted_facts (s := s) (l := []) (r := ret s) (m := s.ds) (i := ix "abort")
  exact ⟨_, h.acts (call_full h hS he hh hv hl hr), h1, shape_data (by simp), h3, h2⟩

/-- C46. With no source saved, `restore-source` aborts and goes on reading the same source. -/
theorem C46_empty (h : SavesSources lv lo1 hi1 lo hi A ix s) (hS : Saved s.ds A [])
    {v : Word} (hh : s.wl.words[s.handler]? = some v) (hv : v.action = .core .noop)
    (hl : (data s).length + 3 ≤ capacity) (hr : (ret s).length + 2 ≤ capacity) :
    ∃ t, Acts cfg (n + 2) (ix "restore-source") s t ∧ t.lastError = some .abort ∧ data t = [] ∧ t.ds = s.ds ∧ source t = source s := by
  obtain ⟨h1, h2, h3⟩ := aborted_facts (s := s) (l := []) (r := ret s) (m := s.ds) (i := ix "abort")
  exact ⟨_, h.acts (call_empty h hS hh hv hl hr), h1, shape_data (by simp), h3, h2⟩

theorem Spec.Coded.congr {R : Refs} {wl : Wordlist} {d m : DataSpace} {defs : List (String × Stmt)} (h : Coded R lv wl lo hi d ix defs)
    (hb : ∀ z, lo ≤ z → z < hi → m.bytes z = d.bytes z) : Coded R lv wl lo hi m ix defs := by
  intro p hp
  obtain ⟨w, e1, e2, e3, e4, e5⟩ := h p hp
  exact ⟨w, e1, e2, e3, e4, e5.congr fun z h1 h2 => hb z (by omega) (by omega)⟩

/-- The words stay usable when only the saved sources change in memory. -/
theorem Spec.SavesSources.written (h : SavesSources lv lo1 hi1 lo hi A ix s) {t : VM} (hR : t.refs = s.refs) (hw : t.wl = s.wl)
    (hd : WrittenIn (A + 8) 264 s.ds t.ds) : SavesSources lv lo1 hi1 lo hi A ix t := by
  obtain ⟨d1, d2, d3, d4⟩ := hd
  have a1 := h.apart1; have a2 := h.apart2; have hu := h.upper
  have g := h.region; have g1 := h.equipped.library.region
  refine ⟨⟨?_, ⟨?_, ?_, ?_⟩, ?_, ?_⟩, ⟨?_, ?_, ?_⟩, ?_, ?_, ?_, ?_, ?_, a1, a2⟩
  all_goals try rw [hR]
  all_goals try rw [hw]
  · exact h.equipped.words
  · rw [d1]; exact g1.lower
  · rw [d1, d2]; exact g1.upper
  · rw [d1, d2]; exact g1.small
  · exact h.equipped.library.uses
  · exact h.equipped.library.coded.congr fun z h1 h2 => d4 z (by omega)
  · rw [d1]; exact g.lower
  · rw [d1, d2]; exact g.upper
  · rw [d1, d2]; exact g.small
  · exact h.uses
  · exact h.coded.congr fun z h1 h2 => d4 z (by omega)
  · exact h.place
  · rw [d1]; exact h.lower
  · rw [DataSpace.limit, d1, d2]; exact hu

/-- C46. However deep saving and restoring are nested, up to 16 levels in all, and whatever is done in between: every
`restore-source` brings back the source that was being read at the `save-source` it belongs to, and the sources that
were saved before are saved after. -/
theorem C46_nesting (p : Nest) (hp : p.Polite lv lo1 hi1 lo hi A ix) (h : Ordered lv lo1 hi1 lo hi A ix s e)
    (hd : e.length + p.depth ≤ 16) :
    ∃ t, p.Performs cfg (n + 1) ix s t ∧ Ordered lv lo1 hi1 lo hi A ix t e ∧ (∀ y, Readable s y → Readable t y) ∧
      ∀ q, p = .level q → source t = source s := by
  induction p generalizing s e with
  | other f => exact ⟨f s, rfl, (hp s e h).1, (hp s e h).2, nofun⟩
  | seq p q hp1 hq1 =>
    simp only [Nest.depth] at hd
    obtain ⟨t, e1, e2, e3, _⟩ := hp1 hp.1 h (by omega)
    obtain ⟨u, f1, f2, f3, _⟩ := hq1 hp.2 e2 (by omega)
    exact ⟨u, ⟨t, e1, f1⟩, f2, fun y hy => f3 y (e3 y hy), nofun⟩
  | level p hp1 =>
    simp only [Nest.depth] at hd
    obtain ⟨m, e1, e2, e3⟩ := C46_save (cfg := cfg) (n := n) h.saves h.saved (by omega) h.room h.space
    have hc : capacity = 64 := rfl
    have hsh := leaving_eq s (data s) m
    have hroom := h.room; have hspace := h.space
    have hready : Ordered lv lo1 hi1 lo hi A ix (leaving s (data s) m) (source s :: e) := by
      refine ⟨h.saves.written rfl rfl e3, e2, ?_, ?_, ?_⟩
      · have : Readable (shape s (data s) (ret s) m) (source (shape s (data s) (ret s) m)).1 := by
          rw [Readable, source, shape_task]; exact h.opened
        rw [← hsh] at this; exact this
      · rw [hsh, shape_data (by omega)]; exact hroom
      · rw [hsh, shape_ret (by omega)]; exact hspace
    obtain ⟨u, f1, f2, f3, _⟩ := hp1 hp hready (by rw [List.length_cons]; omega)
    have hread : ∀ y, Readable s y → Readable u y := fun y hy => f3 y (by
      have : Readable (shape s (data s) (ret s) m) y := by rw [Readable, shape_task]; exact hy
      rw [← hsh] at this; exact this)
    obtain ⟨m', g1, g2, g3, g4⟩ := C46_restore (cfg := cfg) (n := n) f2.saves f2.saved (hread _ h.opened)
      (by have := f2.room; omega) f2.space
    have hsh' := leaving_eq (reading u (source s)) (data u) m'
    have hroom' := f2.room; have hspace' := f2.space
    have hret : ret (reading u (source s)) = ret u := by simp [ret, reading]
    have hr2 : ∀ y, Readable u y → Readable (leaving (reading u (source s)) (data u) m') y := by
      intro y hy
      rw [hsh', Readable, shape_task]
      simpa only [Readable, reading, VM.task_setTask] using hy
    refine ⟨_, ⟨_, u, e1, f1, g1⟩, ⟨?_, g3, ?_, ?_, ?_⟩, fun y hy => hr2 y (hread y hy), fun _ _ => g2⟩
    · refine f2.saves.written rfl rfl ⟨g4.1, g4.2.1, g4.2.2.1, fun q hq => g4.2.2.2 q (by omega)⟩
    · rw [g2]; exact hr2 _ (hread _ h.opened)
    · rw [hsh', shape_data (by omega)]; exact hroom'
    · rw [hsh', hret, shape_ret (by omega)]; exact hspace'

end

/-- Non-vacuity: the machine with core.fth is ready. -/
theorem image_ready : Ordered (imageIx "leave") 5184 7408 10560 10984 10264 imageIx (setData image []) [] :=
  ⟨image_savesSources.written rfl rfl ⟨rfl, rfl, rfl, fun _ _ => rfl⟩, image_saved, .inl (by decide +kernel),
    by rw [data_setData (by simp)]; decide, by rw [setData_ret]; decide +kernel⟩

/-- Non-vacuity of C46_nesting: three levels, with nothing done in between. -/
example (cfg : Cfg) (n : Nat) : ∃ t, (Nest.level (.seq (.level (.level (.other id))) (.level (.other id)))).Performs cfg (n + 1)
    imageIx (setData image []) t ∧ source t = source (setData image []) := by
  obtain ⟨t, h1, _, _, h2⟩ := C46_nesting (cfg := cfg) (n := n)
    (.level (.seq (.level (.level (.other id))) (.level (.other id))))
    ⟨fun _ _ h => ⟨h, fun _ h => h⟩, fun _ _ h => ⟨h, fun _ h => h⟩⟩ image_ready (by decide)
  exact ⟨t, h1, h2 _ rfl⟩

/-- Non-vacuity of C46_empty. -/
example (cfg : Cfg) (n : Nat) : ∃ t, Acts cfg (n + 2) (imageIx "restore-source") (setData image []) t ∧
    t.lastError = some .abort := by
  have hl := image_ready.room; have hr := image_ready.space
  obtain ⟨t, h1, h2, _⟩ := C46_empty (cfg := cfg) (n := n) image_ready.saves image_ready.saved (v := Word.new (.core .noop) .word 0 1048)
    (by decide +kernel) rfl (by omega) (by omega)
  exact ⟨t, h1, h2⟩

theorem image_entries : ∀ i, i < 16 →
    image.ds.cellAt (10264 + 16 * (i + 1)) = 0 ∧ image.ds.cellAt (10264 + 16 * (i + 1) + 8) = 0 := by decide +kernel

theorem image_full : Saved (image.ds.setCell 10272 16) 10264 (List.replicate 16 (0, 0)) := by
  refine ⟨by simp, ?_, ?_, ?_⟩
  · rw [DataSpace.cellAt_setCell_ne (by omega)]; exact image_saved.capacity
  · rw [DataSpace.cellAt_setCell]; rfl
  · intro i e he
    have h16 : i < 16 := by simpa using (List.getElem?_eq_some_iff.mp he).1
    rw [List.reverse_replicate, List.getElem?_replicate, if_pos h16] at he
    obtain rfl := Option.some.inj he
    rw [DataSpace.cellAt_setCell_ne (by omega), DataSpace.cellAt_setCell_ne (by omega)]
    exact image_entries i h16

/-- Non-vacuity of C46_full: 16 times the console. -/
example (cfg : Cfg) (n : Nat) : ∃ s t, Saved s.ds 10264 (List.replicate 16 (0, 0)) ∧ Acts cfg (n + 2) (imageIx "save-source") s t ∧
    t.lastError = some .abort := by
  have hh : (setData image []).wl.words[(setData image []).handler]? = some (Word.new (.core .noop) .word 0 1048) := by decide +kernel
  have hf := image_full
  rw [show image.ds = (setData image []).ds from rfl] at hf
  have hR := image_ready
  revert hh hf hR
  generalize setData image [] = b
  intro hh hf hR
  have hl := hR.room; have hr := hR.space
  obtain ⟨t, h1, h2, _⟩ := C46_full (cfg := cfg) (n := n) (s := { b with ds := b.ds.setCell 10272 16 })
    (hR.saves.written rfl rfl ⟨rfl, rfl, rfl, fun q hq => DataSpace.setCell_bytes_out (by omega)⟩) hf (by simp)
    hh rfl (show (data b).length + 5 ≤ capacity by omega) (show (ret b).length + 2 ≤ capacity by omega)
  exact ⟨_, t, hf, h1, h2⟩

end Verif
