import Verif.Lemmas.Loader
import Verif.Props.Reader
import Verif.Props.Lines
import Verif.Props.Sources

/-!
# C65: loading source files
-/

namespace Verif
open Spec Stack

section
variable {lv n A V room : Nat} {s t : VM} {cfg : Cfg} {l : List Cell} {ix : String → Nat}
  {g1 g2 g3 g : Nat × Nat} {ls : List (List Char)}

theorem Spec.HasLoader.acts (h : HasLoader lv g1 g2 g3 g A V ix s) {i : Nat} {t : VM}
    (hc : Calling cfg n s.refs lv s.wl g.1 g.2 s.cur s.ds i (setRet s (ret s)) t) : Acts cfg (n + 1) i s t := by
  rw [setRet_self] at hc
  exact (hc ((h.kept [g]).code g (by simp))).1

/-- C65. `load-source-file` reads the source file line by line up to its end; the words on each line are evaluated before
the next line is read, then the output is printed and the line counted. -/
theorem C65_load (h : HasLoader lv g1 g2 g3 g A V ix s) (hL : Loads cfg n room (StillLoaded lv [g1, g2, g3, g] s) V ls s t)
    (hd : (data s).length ≤ capacity) (hr : (ret s).length + 2 + room ≤ capacity) :
    Acts cfg (n + 1) (ix "load-source-file") s (setRet t (ret s)) :=
  h.acts (call_load h hL (h.kept _) hd hr)

/-- `load_line` on a source that can be read. -/
theorem loadLine_exact (c : Ctx) (hio : ∀ k, c.cfg.ioFails k = false) {id : Nat} {cs : List Char}
    (h : Unread s id cs) {line : List Char} (hl : takeLine (utf8 cs) = utf8 line) :
    ∃ f, s.task.sources[id - 1]? = some (some f) ∧
      loadLine c id s = .ok (.ok (byteLen (stripEol line), decide (byteLen line ≠ 0)), nextLine s id f (stripEol line) (byteLen line)) := by
  obtain ⟨src, h1, h2, h3⟩ := h.source
  obtain ⟨old, ho⟩ := h.line
  refine ⟨src, h1, ?_⟩
  unfold loadLine
  rw [M.bind_ok (getTask_apply s), if_pos h.pos, h1, ho]
  dsimp only
  have hc : hostCall c s = .ok (false, { s with host := { s.host with calls := s.host.calls + 1 } }) := by
    unfold hostCall; rw [hio]
  rw [M.bind_ok hc, M.bind_ok (getVM_apply _)]
  dsimp only
  rw [if_neg (by simp [h2]), h3, hl, decodeUtf8_utf8, utf8_length]
  rw [M.bind_apply, modTask_apply]
  dsimp only
  rw [M.bind_apply, modTask_apply, VM.setTask_setTask, VM.task_setTask]
  rfl

theorem nextLine_task (s : VM) (id : Nat) (f : Source) (l : List Char) (k : Nat) : (nextLine s id f l k).task = { s.task with
    sources := s.task.sources.set (id - 1) (some { f with file := { f.file with pos := f.file.pos + k } })
    lines := s.task.lines.set (id - 1) (some l) } := by
  show (s.setTask _).task = _
  rw [VM.task_setTask]

theorem unread_next {id : Nat} {f : Source} {l e rest : List Char} (h : Unread s id (l ++ e ++ rest))
    (hf : s.task.sources[id - 1]? = some (some f)) : Unread (nextLine s id f l (byteLen (l ++ e))) id rest := by
  obtain ⟨src, h1, h2, h3⟩ := h.source
  obtain ⟨old, ho⟩ := h.line
  rw [hf] at h1
  cases h1
  refine ⟨h.pos, ⟨{ f with file := { f.file with pos := f.file.pos + byteLen (l ++ e) } }, by
    rw [nextLine_task]; exact List.getElem?_set_self (List.getElem?_eq_some_iff.1 hf).1, h2, ?_⟩,
    ⟨l, by rw [nextLine_task]; exact List.getElem?_set_self (List.getElem?_eq_some_iff.1 ho).1⟩⟩
  show (s.host.content f.file.ino).drop (f.file.pos + byteLen (l ++ e)) = utf8 rest
  rw [← List.drop_drop, h3, utf8_append, ← utf8_length, List.drop_left]

theorem Spec.Unread.undisturbed {id : Nat} {rest : List Char} (h : Unread s id rest) (hu : Undisturbed id s t) : Unread t id rest := by
  obtain ⟨src, h1, h2, h3⟩ := h.source
  exact ⟨h.pos, ⟨src, by rw [hu.source]; exact h1, h2, by rw [hu.content]; exact h3⟩, by rw [hu.line]; exact h.line⟩

/-- C65. A source file whose text is the lines `ls` is loaded up to its end: if each of its lines, read in the states `P` in which
it is come to, can be evaluated without disturbing the reading, then all of them are, in this order. -/
theorem C65_text {L : VM → Prop} {id : Nat} (hio : ∀ k, cfg.ioFails k = false) (P : List (List Char × List Char) → VM → Prop)
    (hid : ∀ ls s, P ls s → s.task.st.sourceId.toNat = id ∧ (data s).length + 2 ≤ capacity)
    (hstep : ∀ l e ls s f, P ((l, e) :: ls) s → s.task.sources[id - 1]? = some (some f) → ∃ toks t,
      Works cfg n room L toks (lineStart (nextLine s id f l (byteLen (l ++ e)))) t ∧ L t ∧ (data t).length + 5 ≤ capacity ∧
      Undisturbed id (nextLine s id f l (byteLen (l ++ e))) t ∧ P ls (counted V (flushed t)))
    {ls : List (List Char × List Char)} {cs : List Char} (hls : Lines cs ls) (hu : Unread s id cs) (hP : P ls s) :
    ∃ t f, t.task.sources[id - 1]? = some (some f) ∧ P [] t ∧ Loads cfg n room L V (ls.map Prod.fst) s (nextLine t id f [] 0) := by
  induction ls generalizing s cs with
  | nil =>
    cases hls
    obtain ⟨f, h1, h2⟩ := loadLine_exact (ctx cfg n) hio hu (line := []) rfl
    obtain ⟨h3, h4⟩ := hid _ _ hP
    exact ⟨s, f, h1, hP, .done (by rw [h3]; exact h2) h4⟩
  | cons x xs ih =>
    obtain ⟨l, e⟩ := x
    obtain ⟨rest, h1, h2, h3, h4, h5⟩ := hls.head
    obtain ⟨f, k1, k2⟩ := loadLine_exact (ctx cfg n) hio hu h4
    rw [h5] at k2
    obtain ⟨h6, h7⟩ := hid _ _ hP
    obtain ⟨toks, t, w1, w2, w3, w4, w5⟩ := hstep l e xs s f hP k1
    have hb : byteLen (l ++ e) ≠ 0 := Nat.ne_of_gt (byteLen_pos h3)
    rw [decide_eq_true hb] at k2
    have hn := unread_next (h1 ▸ hu) k1
    have hu' : Unread (counted V (flushed t)) id rest := by
      have ht := hn.undisturbed w4
      have e1 : (counted V (flushed t)).task = t.task := by
        show (flushed t).task = _
        rw [flushed]; split <;> rfl
      have e2 : (counted V (flushed t)).host = t.host := by
        show (flushed t).host = _
        rw [flushed]; split <;> rfl
      exact ht.undisturbed ⟨by rw [e1], by rw [e1], by rw [e2]⟩
    obtain ⟨v, f', i1, i2, i3⟩ := ih h2 hu' w5
    obtain ⟨lo, hlo⟩ := hn.line
    obtain ⟨old, ho⟩ := hu.line
    refine ⟨v, f', i1, i2, .line (by rw [h6]; exact k2) ?_ h7 w1 w2 w3 i3⟩
    rw [h6]
    rw [nextLine_task]
    exact List.getElem?_set_self (List.getElem?_eq_some_iff.1 ho).1

/-- The next source to be opened cannot be read. -/
theorem readable_other {id : Cell} (h : Readable s id) (hs : s.task.sources.length < 2 ^ 62) : id ≠ toCell (nextSource s) := by
  have hp := freePlace_le s.task.sources
  have e : (toCell (nextSource s)).toNat = freePlace s.task.sources + 1 := by rw [nextSource]; exact toNat_toCell (by omega)
  rintro rfl
  rcases h with h | ⟨-, ⟨f, h⟩, -⟩
  · have := congrArg BitVec.toNat h
    rw [e] at this
    simp at this
  · rw [e, Nat.add_sub_cancel] at h
    have hlt := (List.getElem?_eq_some_iff.1 h).1
    rw [freePlace_free hlt] at h
    cases h

/-- What `included` leaves after the file has been loaded: the source that was read before is read again, the file is closed and
one source less is saved. -/
def Spec.goneBack (s t : VM) (A c : Nat) : VM :=
  leaving (closed (reading (setRet t (ret s)) (source s)) (nextSource s)) (data t) (t.ds.setCell (A + 8) (BitVec.ofNat 64 c))

/-- C65. `included` opens the file, saves the source that is read, loads the file and goes back to that source where it was left.
The lines of the file may do anything, if they leave the sources saved before and the numbers of the sources as they are. Not proved, because it is
refuted below: that nothing else of the machine changes. -/
theorem C65_included_partial {a u : Cell} {path : List Byte} {ino : Nat} {e : List (Cell × Cell)} {f : Source}
    (h : HasLoader lv g1 g2 g3 g A V ix s) (hd : data s = u :: a :: l) (ho : Opens cfg s a u path ino) (hli : Lined s)
    (hS : Saved s.ds A e) (he : e.length < 16) (hap : a.toNat + u.toNat ≤ A ∨ A + 272 ≤ a.toNat)
    (hidx : s.task.st.sourceIndex < 2 ^ 64) (hfr : FreeAbove s.ds [g1, g2, g3, g])
    (hL : Loads cfg n room (StillLoaded lv [g1, g2, g3, g] s) V ls
      (leaving (opened s ino path) l (loadingSpace s A V (e.length + 1) ix)) t)
    (hid : t.task.st.sourceId = toCell (nextSource s))
    (hf : t.task.sources[freePlace s.task.sources]? = some (some f)) (hSt : Saved t.ds A (source s :: e))
    (hRs : Readable s (source s).1) (hRt : Readable t (source s).1) (hl : l.length + 10 ≤ capacity)
    (hdt : (data t).length + 5 ≤ capacity) (hr : (ret s).length + 3 + room ≤ capacity) (hr2 : (ret s).length + 4 ≤ capacity) :
    Acts cfg (n + 1) (ix "included") s (goneBack s t A e.length) := by
  have := h.acts (call_included (r := ret s) h hd ho hli hS he hap hidx hfr hL hid hf hSt hRt (readable_other hRs hli.small.1) hl hdt hr hr2)
  have e : goneBack s t A e.length = shape (closed (reading t (source s)) (nextSource s)) (data t) (ret s)
      (t.ds.setCell (A + 8) (BitVec.ofNat 64 e.length)) := by
    rw [goneBack, shape_eq, leaving]
    simp only [closed, reading, setRet, setData, VM.setTask_setTask, VM.task_setTask]
  rw [e]
  exact this

/-- C65. Then the machine reads what it read before, at the same place, and the sources saved before are the ones saved. -/
theorem C65_back {e : List (Cell × Cell)} (hS : Saved t.ds A (source s :: e)) (hidx : s.task.st.sourceIndex < 2 ^ 64)
    (hdt : (data t).length ≤ capacity) :
    let v := goneBack s t A e.length
    source v = source s ∧ Saved v.ds A e ∧ data v = data t ∧ v.task.st.isCompiling = t.task.st.isCompiling ∧
      v.task.sources = t.task.sources.set (freePlace s.task.sources) none ∧ WrittenIn (A + 8) 8 t.ds v.ds := by
  have hc : capacity = 64 := rfl
  have ht : (goneBack s t A e.length).task = { t.task with
      s := holding t.task.s (data t)
      r := holding t.task.r (ret s)
      sources := t.task.sources.set (freePlace s.task.sources) none
      st := { t.task.st with sourceId := s.task.st.sourceId, sourceIndex := s.task.st.sourceIndex } } := by
    rw [goneBack, leaving, VM.task_with_ds]
    have : (BitVec.ofNat 64 s.task.st.sourceIndex).toNat = s.task.st.sourceIndex := toNat_toCell hidx
    simp only [setData, closed, reading, setRet, VM.task_setTask, VM.setTask_setTask, nextSource, Nat.add_sub_cancel, source, this]
  have hroom := hS.room
  rw [List.length_cons] at hroom
  dsimp only
  refine ⟨by rw [source, ht]; rfl, ⟨by omega, ?_, ?_, ?_⟩, by rw [data, ht]; exact holding_items _ (by omega), by rw [ht],
    by rw [ht], rfl, rfl, rfl, fun q hq => DataSpace.setCell_bytes_out (by omega)⟩
  · exact (DataSpace.cellAt_setCell_ne (by omega)).trans hS.capacity
  · exact DataSpace.cellAt_setCell ..
  · intro i y hy
    have hi : i < e.length := by
      have := (List.getElem?_eq_some_iff.mp hy).1
      simpa using this
    obtain ⟨h1, h2⟩ := hS.entry i y (by
      rw [List.reverse_cons, List.getElem?_append_left (by simpa using hi)]; exact hy)
    exact ⟨(DataSpace.cellAt_setCell_ne (by omega)).trans h1, (DataSpace.cellAt_setCell_ne (by omega)).trans h2⟩

/-- C65. With a path of no file, or one the host does not open, `included` aborts: it loads nothing, saves no source and opens none. -/
theorem C65_missing {a u : Cell} {v : Word} (h : HasLoader lv g1 g2 g3 g A V ix s) (hd : data s = u :: a :: l)
    (hu : u.toNat ≤ 256) (hin : Inside s.ds a u) (hm : s.host.dir (textAt s.ds a u) = none ∨ cfg.ioFails s.host.calls = true)
    (hh : s.wl.words[s.handler]? = some v) (hv : v.action = .core .noop)
    (hl : l.length + 10 ≤ capacity) (hr : (ret s).length + 2 ≤ capacity) :
    ∃ t, Acts cfg (n + 2) (ix "included") s t ∧ t.lastError = some .abort ∧ data t = [] ∧ t.ds = s.ds ∧ source t = source s ∧
      t.task.sources = s.task.sources ∧ t.task.files = s.task.files := by
  obtain ⟨h1, h2, h3⟩ := aborted_facts (s := asked s) (l := []) (r := ret s) (m := s.ds) (i := ix "abort")
  refine ⟨_, h.acts (call_missing h hd hu hin rfl hm hh hv hl hr), h1, shape_data (by simp), h3, h2, ?_, ?_⟩
  · rw [shape_task, raised_remade, task_remade, quiet, VM.at_task]; rfl
  · rw [shape_task, raised_remade, task_remade, quiet, VM.at_task]; rfl

theorem Spec.Saved.congr {m m' : DataSpace} {e : List (Cell × Cell)} (h : Saved m A e)
    (hb : ∀ z, A ≤ z → z < A + 272 → m'.bytes z = m.bytes z) : Saved m' A e := by
  have hr := h.room
  refine ⟨h.room, ?_, ?_, fun i x hx => ?_⟩
  · rw [DataSpace.cellAt_congr fun z h1 h2 => hb z (by omega) (by omega)]; exact h.capacity
  · rw [DataSpace.cellAt_congr fun z h1 h2 => hb z (by omega) (by omega)]; exact h.count
  · have hi := (List.getElem?_eq_some_iff.mp hx).1
    rw [List.length_reverse] at hi
    rw [DataSpace.cellAt_congr (a := A + 16 * (i + 1)) fun z h1 h2 => hb z (by omega) (by omega),
      DataSpace.cellAt_congr (a := A + 16 * (i + 1) + 8) fun z h1 h2 => hb z (by omega) (by omega)]
    exact h.entry i x hx

theorem placed_other {α : Type} {l : List (Option α)} {x : α} {j : Nat} {y : Option α} (h : l[j]? = some y) (hj : j ≠ freePlace l) :
    (placed l x)[j]? = some y := by
  unfold placed
  split
  · rw [List.getElem?_set_ne (Ne.symm hj)]; exact h
  · rw [List.getElem?_append_left (List.getElem?_eq_some_iff.1 h).1]; exact h

theorem opened_task (s : VM) (ino : Nat) (path : List Byte) : (opened s ino path).task = { s.task with
    files := if freePlace s.task.files < s.task.files.length then s.task.files else s.task.files ++ [none]
    sources := placed s.task.sources ⟨⟨ino, 0, true, false⟩, path⟩
    lines := if freePlace s.task.sources < s.task.sources.length then s.task.lines else s.task.lines ++ [some []]
    st := { s.task.st with sourceId := toCell (nextSource s) } } := by
  show (s.setTask _).task = _
  rw [VM.task_setTask]

theorem loading_task (s : VM) (ino : Nat) (path : List Byte) (l : List Cell) (m : DataSpace) :
    (leaving (opened s ino path) l m).task = { (opened s ino path).task with s := holding s.task.s l } := by
  rw [leaving, VM.task_with_ds, setData, VM.task_setTask, opened_task]

/-- The file just opened is all to be read. -/
theorem unread_opened {ino : Nat} {path : List Byte} {m : DataSpace} {cs : List Char} (hli : Lined s) (hc : s.host.content ino = utf8 cs) :
    Unread (leaving (opened s ino path) l m) (nextSource s) cs := by
  have hp2 := freePlace_le s.task.sources
  refine ⟨by rw [nextSource]; omega, ⟨⟨⟨ino, 0, true, false⟩, path⟩, ?_, rfl, hc⟩, ?_⟩
  · rw [loading_task, opened_task]; exact placed_at _ _
  · rw [loading_task, opened_task]
    dsimp only [nextSource]
    rw [Nat.add_sub_cancel]
    split
    · next hlt => exact hli.some _ hlt
    · next hlt =>
      have e1 : freePlace s.task.sources = s.task.lines.length := by rw [hli.length]; omega
      rw [e1]; exact ⟨[], by simp⟩

/-- What could be read before can be read. -/
theorem readable_opened {ino : Nat} {path : List Byte} {m : DataSpace} {id : Cell} (hR : Readable s id) (hli : Lined s) :
    Readable (leaving (opened s ino path) l m) id := by
  have hp2 := freePlace_le s.task.sources
  have hs := hli.small.1
  have hne := readable_other hR hs
  rcases hR with h | ⟨h0, ⟨f, h1⟩, ⟨b, h2⟩⟩
  · exact .inl h
  · have hj : id.toNat - 1 ≠ freePlace s.task.sources := by
      intro e
      apply hne
      apply BitVec.eq_of_toNat_eq
      have hpos : 0 < id.toNat := by
        rcases Nat.eq_zero_or_pos id.toNat with h | h
        · rw [BitVec.toInt_eq_toNat_cond, h] at h0; simp at h0
        · exact h
      rw [nextSource, toNat_toCell (by omega)]
      omega
    refine .inr ⟨h0, ⟨f, ?_⟩, ⟨b, ?_⟩⟩
    · rw [loading_task, opened_task]; exact placed_other h1 hj
    · rw [loading_task, opened_task]
      dsimp only
      split
      · exact h2
      · rw [List.getElem?_append_left (List.getElem?_eq_some_iff.1 h2).1]; exact h2

theorem readable_next {id : Nat} {f : Source} {ln : List Char} {k : Nat} {x : Cell} (hR : Readable s x) :
    Readable (nextLine s id f ln k) x := by
  rcases hR with h | ⟨h0, ⟨f', h1⟩, ⟨b, h2⟩⟩
  · exact .inl h
  · refine .inr ⟨h0, ?_, ?_⟩
    · rw [nextLine_task]
      dsimp only
      rw [List.getElem?_set]
      split
      · next e => rw [e] at *; rw [if_pos (List.getElem?_eq_some_iff.1 h1).1]; exact ⟨_, rfl⟩
      · exact ⟨f', h1⟩
    · rw [nextLine_task]
      dsimp only
      rw [List.getElem?_set]
      split
      · next e => rw [e] at *; rw [if_pos (List.getElem?_eq_some_iff.1 h2).1]; exact ⟨_, rfl⟩
      · exact ⟨b, h2⟩

/-- The sources stay saved while memory is prepared for loading. -/
theorem saved_loading {e : List (Cell × Cell)} (h : HasLoader lv g1 g2 g3 g A V ix s) (hS : Saved s.ds A e) (he : e.length < 16)
    (hfr : A + 272 ≤ s.ds.here) : Saved (loadingSpace s A V (e.length + 1) ix) A (source s :: e) := by
  refine (saved_withEntry hS he (source s)).congr fun z h1 h2 => ?_
  have hV := h.apart (A, A + 272) (by simp)
  dsimp only at hV
  rw [loadingSpace, DataSpace.setCell_bytes_out (by omega)]
  show ((withEntry s.ds A (e.length + 1) (source s).1 (source s).2).setCell s.ds.here _).bytes z = _
  rw [DataSpace.setCell_bytes_out (by omega)]

/-- C65. Even loading an empty file leaves traces: one more cell of memory is in use, with the number of the word `[`, which was to be
executed there; if the machine was compiling it still is; and the number of the line that is read is 1, whatever it was. -/
theorem C65_empty_file {a u : Cell} {path : List Byte} {ino : Nat} {e : List (Cell × Cell)}
    (h : HasLoader lv g1 g2 g3 g A V ix s) (hd : data s = u :: a :: l) (ho : Opens cfg s a u path ino) (hli : Lined s)
    (hS : Saved s.ds A e) (he : e.length < 16) (hap : a.toNat + u.toNat ≤ A ∨ A + 272 ≤ a.toNat)
    (hidx : s.task.st.sourceIndex < 2 ^ 64) (hfr : FreeAbove s.ds [g1, g2, g3, g]) (hA : A + 272 ≤ s.ds.here) (hV : V + 8 ≤ s.ds.here)
    (hRs : Readable s (source s).1) (hio : ∀ k, cfg.ioFails k = false) (hc : s.host.content ino = [])
    (hl : l.length + 10 ≤ capacity) (hr : (ret s).length + 4 ≤ capacity) :
    ∃ v, Acts cfg (n + 1) (ix "included") s v ∧ source v = source s ∧ Saved v.ds A e ∧ data v = l ∧
      v.ds.here = s.ds.here + 8 ∧ v.ds.cellAt s.ds.here = toCell (ix "[") ∧
      v.task.st.isCompiling = s.task.st.isCompiling ∧ v.ds.cellAt V = 1 := by
  have hcap : capacity = 64 := rfl
  have hun := unread_opened (path := path) (l := l) (m := loadingSpace s A V (e.length + 1) ix) (cs := []) hli hc
  obtain ⟨f, h1, h2⟩ := loadLine_exact (ctx cfg n) hio hun (line := []) rfl
  have hSl := saved_loading h hS he hA
  have hRl := readable_opened (ino := ino) (path := path) (l := l) (m := loadingSpace s A V (e.length + 1) ix) hRs hli
  have hp2 := freePlace_le s.task.sources
  have hs := hli.small.1
  have hld : data (leaving (opened s ino path) l (loadingSpace s A V (e.length + 1) ix)) = l := data_setData (s := opened s ino path) (by omega)
  have hst : (leaving (opened s ino path) l (loadingSpace s A V (e.length + 1) ix)).task.st = { s.task.st with sourceId := toCell (nextSource s) } := by
    rw [loading_task, opened_task]
  have hds : (leaving (opened s ino path) l (loadingSpace s A V (e.length + 1) ix)).ds = loadingSpace s A V (e.length + 1) ix := rfl
  have hVA := h.apart (A, A + 272) (by simp)
  dsimp only at hVA
  generalize hx : leaving (opened s ino path) l (loadingSpace s A V (e.length + 1) ix) = x at *
  have hid : x.task.st.sourceId.toNat = nextSource s := by rw [hst]; exact toNat_toCell (by rw [nextSource]; omega)
  have hdn : data (nextLine x (nextSource s) f [] 0) = l := by rw [data, nextLine_task]; exact hld
  have hL : Loads cfg n 1 (StillLoaded lv [g1, g2, g3, g] s) V [] x (nextLine x (nextSource s) f [] 0) :=
    .done (by rw [hid]; exact h2) (by rw [hld]; omega)
  have hb := C65_back (s := s) (t := nextLine x (nextSource s) f [] 0) (A := A) (e := e) (by
    show Saved x.ds A _; rw [hds]; exact hSl) hidx (by rw [hdn]; omega)
  dsimp only at hb
  obtain ⟨b1, b2, b3, b4, -, b6⟩ := hb
  have hsrc : x.task.sources[freePlace s.task.sources]? = some (some f) := h1
  refine ⟨_, C65_included_partial (f := { f with file := { f.file with pos := f.file.pos + 0 } }) h hd ho hli hS he hap hidx hfr
    (t := nextLine x (nextSource s) f [] 0) (room := 1) (by rw [hx]; exact hL)
    (by rw [nextLine_task]; dsimp only; rw [hst])
    (by rw [nextLine_task]; exact List.getElem?_set_self (List.getElem?_eq_some_iff.1 hsrc).1)
    (by show Saved x.ds A _; rw [hds]; exact hSl) hRs (readable_next hRl) hl (by rw [hdn]; omega) (by omega) hr,
    b1, b2, b3.trans hdn, ?_, ?_, ?_, ?_⟩
  · show x.ds.start + x.ds.len = _
    rw [hds]
    show s.ds.start + (s.ds.len + 8) = s.ds.start + s.ds.len + 8
    omega
  · refine (DataSpace.cellAt_setCell_ne (by omega)).trans ?_
    show x.ds.cellAt _ = _
    rw [hds, loadingSpace, DataSpace.cellAt_setCell_ne (by omega)]
    exact DataSpace.cellAt_setCell ..
  · rw [b4, nextLine_task]; dsimp only; rw [hst]
  · refine (DataSpace.cellAt_setCell_ne (by omega)).trans ?_
    show x.ds.cellAt _ = _
    rw [hds, loadingSpace, DataSpace.cellAt_setCell]

/-! ### A file of numbers -/

/-- Each of the lines is a number, and no word of the machine has its name. -/
inductive Spec.Numbers (cfg : Cfg) (s : VM) : List (List Char × List Char) → List Cell → Prop
  | nil : Numbers cfg s [] []
  | cons {l e : List Char} {ls : List (List Char × List Char)} {v : Cell} {vs : List Cell} : l ≠ [] → (∀ c ∈ l, ¬Blank c) →
      byteLen l < 2 ^ 63 → IntegerToken 10 (utf8 l) v → (∀ k m, find (ctx cfg k) (utf8 l) { s with ds := m } = .ok (none, { s with ds := m })) →
      Numbers cfg s ls vs → Numbers cfg s ((l, e) :: ls) (v :: vs)

/-- A machine that interprets its source number `id`, with `l` on the stack and the sources `e` saved; `x` can be read, too. -/
structure Spec.Midway (lv : Nat) (gs : List (Nat × Nat)) (s0 : VM) (A id : Nat) (x : Cell) (e : List (Cell × Cell)) (l : List Cell) (s : VM) : Prop where
  loaded : StillLoaded lv gs s0 s
  words : s.wl = s0.wl
  token : ∃ t, s.tkn = some t
  calm : Calm s.task.s ∧ Calm s.task.r ∧ Calm s.task.c ∧ Calm s.task.f
  space : SoundSpace s.ds
  base : (currentBase s).toInt = 10
  data : data s = l
  mode : s.task.st.isCompiling = false
  error : s.lastError = none
  source : s.task.st.sourceId = toCell id
  line : ∃ b, s.task.lines[id - 1]? = some (some b)
  readable : Readable s x
  saved : Saved s.ds A e

theorem Spec.StillLoaded.same {gs : List (Nat × Nat)} {s0 : VM} (h : StillLoaded lv gs s0 s) (h1 : t.refs = s.refs) (h2 : t.cur = s.cur)
    (h3 : t.wl = s.wl) (h4 : t.ds = s.ds) : StillLoaded lv gs s0 t :=
  ⟨h1.trans h.refs, fun g hg => (h.code g hg).congr h2 h4 h3⟩

/-- The file is read on: nothing else is different. -/
theorem midway_start {gs : List (Nat × Nat)} {s0 : VM} {id : Nat} {x : Cell} {e : List (Cell × Cell)} {f : Source} {ln : List Char} {k : Nat}
    (h : Midway lv gs s0 A id x e l s) : Midway lv gs s0 A id x e l (lineStart (nextLine s id f ln k)) := by
  have ht : (lineStart (nextLine s id f ln k)).task = { s.task with
      sources := s.task.sources.set (id - 1) (some { f with file := { f.file with pos := f.file.pos + k } })
      lines := s.task.lines.set (id - 1) (some ln)
      st := { s.task.st with sourceIndex := 0 } } := by
    rw [lineStart, VM.task_setTask, nextLine_task]
  obtain ⟨b, hb⟩ := h.line
  refine ⟨h.loaded.same rfl rfl rfl rfl, h.words, h.token, by rw [ht]; exact h.calm, h.space, h.base, by rw [Verif.Spec.data, ht]; exact h.data,
    by rw [ht]; exact h.mode, h.error, by rw [ht]; exact h.source, ⟨ln, ?_⟩, ?_, h.saved⟩
  · rw [ht]; exact List.getElem?_set_self (List.getElem?_eq_some_iff.1 hb).1
  · have := readable_next (id := id) (f := f) (ln := ln) (k := k) h.readable
    unfold Readable at this ⊢
    rw [nextLine_task] at this
    rw [ht]
    exact this

theorem midway_took {gs : List (Nat × Nat)} {s0 : VM} {id : Nat} {x : Cell} {e : List (Cell × Cell)} {pre bs tok : List Char}
    (h : Midway lv gs s0 A id x e l s) : Midway lv gs s0 A id x e l (took s pre bs tok) := by
  refine ⟨h.loaded.same rfl rfl rfl rfl, h.words, ⟨_, rfl⟩, by rw [took_task]; exact h.calm, h.space, h.base, by rw [data_took]; exact h.data,
    by rw [took_task]; exact h.mode, h.error, by rw [took_task]; exact h.source, by rw [took_task]; exact h.line, ?_, h.saved⟩
  have := h.readable
  unfold Readable at this ⊢
  rw [took_task]
  exact this

theorem midway_data {gs : List (Nat × Nat)} {s0 : VM} {id : Nat} {x : Cell} {e : List (Cell × Cell)} {l' : List Cell}
    (h : Midway lv gs s0 A id x e l s) (hl : l'.length ≤ capacity) : Midway lv gs s0 A id x e l' (setData s l') := by
  have ht : (setData s l').task = { s.task with s := holding s.task.s l' } := VM.task_setTask s _
  refine ⟨h.loaded.same rfl rfl rfl rfl, h.words, h.token, by rw [ht]; exact ⟨h.calm.1.holding hl, h.calm.2⟩, h.space, h.base,
    data_setData (by simp only [capacity] at hl; omega),
    by rw [ht]; exact h.mode, h.error, by rw [ht]; exact h.source, by rw [ht]; exact h.line, ?_, h.saved⟩
  have := h.readable
  unfold Readable at this ⊢
  rw [ht]
  exact this

theorem midway_counted {s0 : VM} {id : Nat} {x : Cell} {e : List (Cell × Cell)}
    (hl : HasLoader lv g1 g2 g3 g A V ix s0) (h : Midway lv [g1, g2, g3, g] s0 A id x e l s) (hV : s.ds.start + 16 ≤ V) :
    Midway lv [g1, g2, g3, g] s0 A id x e l (counted V (flushed s)) := by
  have hVA := hl.apart (A, A + 272) (by simp)
  dsimp only at hVA
  have hf : flushed s = beside s (sideOf (flushed s)) := flushed_beside s
  have e1 : (flushed s).ds = s.ds ∧ (flushed s).wl = s.wl ∧ (flushed s).tkn = s.tkn ∧ (flushed s).lastError = s.lastError ∧
      (flushed s).task = s.task := by
    unfold flushed; split <;> exact ⟨rfl, rfl, rfl, rfl, rfl⟩
  obtain ⟨e1, e2, e3, e4, e5⟩ := e1
  have e6 : (counted V (flushed s)).ds = s.ds.setCell V (s.ds.cellAt V + 1) := by
    show (flushed s).ds.setCell V _ = _; rw [e1]
  have e7 : (counted V (flushed s)).task = s.task := e5
  refine ⟨h.loaded.flushed.stored fun x hx => outside_setCell (hl.apart x (List.mem_append_left [(A, A + 272)] hx)), e2.trans h.words,
    by obtain ⟨t, ht⟩ := h.token; exact ⟨t, e3.trans ht⟩, by rw [e7]; exact h.calm, by rw [e6]; exact ⟨h.space.1, h.space.2, h.space.3, h.space.4, h.space.5⟩, ?_,
    by rw [Verif.Spec.data, e7]; exact h.data, by rw [e7]; exact h.mode, e4.trans h.error, by rw [e7]; exact h.source, by rw [e7]; exact h.line, ?_, ?_⟩
  · rw [currentBase, e6, DataSpace.cellAt_setCell_ne]
    · exact h.base
    · left
      show s.ds.start + 8 + 8 ≤ V
      omega
  · have := h.readable
    unfold Readable at this ⊢
    rw [e7]
    exact this
  · rw [e6]
    exact h.saved.congr fun z h1 h2 => DataSpace.setCell_bytes_out (by omega)

/-- A line with a number. -/
theorem midway_line {s0 : VM} {id : Nat} {x v : Cell} {e : List (Cell × Cell)} {ln le : List Char} {f : Source}
    (hl : HasLoader lv g1 g2 g3 g A V ix s0) (h : Midway lv [g1, g2, g3, g] s0 A id x e l s) (hV : s.ds.start + 16 ≤ V)
    (hid : 0 < id ∧ id < 2 ^ 63) (hne : ln ≠ []) (hb : ∀ c ∈ ln, ¬Blank c) (hlen : byteLen ln < 2 ^ 63) (hv : IntegerToken 10 (utf8 ln) v)
    (hu : ∀ k m, find (ctx cfg k) (utf8 ln) { s0 with ds := m } = .ok (none, { s0 with ds := m })) (hd : l.length + 6 ≤ capacity) :
    ∃ toks t, Works cfg n 0 (StillLoaded lv [g1, g2, g3, g] s0) toks (lineStart (nextLine s id f ln (byteLen (ln ++ le)))) t ∧
      StillLoaded lv [g1, g2, g3, g] s0 t ∧ (data t).length + 5 ≤ capacity ∧ Undisturbed id (nextLine s id f ln (byteLen (ln ++ le))) t ∧
      Midway lv [g1, g2, g3, g] s0 A id x e (v :: l) (counted V (flushed t)) ∧ (counted V (flushed t)).ds.start = s.ds.start := by
  have hc : capacity = 64 := rfl
  have m1 := midway_start (f := f) (ln := ln) (k := byteLen (ln ++ le)) h
  have hds : (lineStart (nextLine s id f ln (byteLen (ln ++ le)))).ds = s.ds := rfl
  have hline : (lineStart (nextLine s id f ln (byteLen (ln ++ le)))).task.lines[id - 1]? = some (some ln) := by
    obtain ⟨b, hb⟩ := h.line
    rw [lineStart, VM.task_setTask, nextLine_task]; exact List.getElem?_set_self (List.getElem?_eq_some_iff.1 hb).1
  have hpos : (lineStart (nextLine s id f ln (byteLen (ln ++ le)))).task.st.sourceIndex = 0 := by rw [lineStart, VM.task_setTask]
  have hund : Undisturbed id (nextLine s id f ln (byteLen (ln ++ le))) (lineStart (nextLine s id f ln (byteLen (ln ++ le)))) := by
    refine ⟨?_, ?_, rfl⟩ <;> rw [lineStart, VM.task_setTask]
  generalize lineStart (nextLine s id f ln (byteLen (ln ++ le))) = y at *
  have hin : inputBuffer y.task = .ok (some ln) := by
    have e1 : (toCell id).toNat = id := toNat_toCell (by omega)
    have e2 : 0 < (toCell id).toInt := by rw [BitVec.toInt_eq_toNat_cond, e1]; rw [if_pos (by omega)]; omega
    rw [inputBuffer, m1.source, if_pos e2, e1, hline]
  have n1 : Next y [] [] ln [] := ⟨⟨by simpa using hin, by rw [hpos]; rfl, by simpa using hlen⟩, by simp, hb, (by rintro ch cs e; cases e),
    fun e => absurd e hne, m1.token⟩
  have m2 := midway_took (pre := []) (bs := []) (tok := ln) m1
  have e1 := C64_integer (cfg := cfg) (n := n) (room := 0) (a := took y [] [] ln) (tok := ln) (v := v) m2.space
      ⟨rfl, find_congr (s := { s0 with ds := y.ds }) m1.words.symm rfl (hu n y.ds)⟩ m2.mode (by rw [m2.base]; exact hv) m2.error
      (by rw [m2.data]; omega) m2.calm
  rw [m2.data] at e1
  have m3 := midway_data (l' := v :: l) m2 (by simp; omega)
  have hts : (setData (took y [] [] ln) (v :: l)).task = { (took y [] [] ln).task with s := holding (took y [] [] ln).task.s (v :: l) } :=
    VM.task_setTask _ _
  have n2 : Next (setData (took y [] [] ln) (v :: l)) ln [] [] [] := by
    refine ⟨⟨?_, ?_, by simpa using hlen⟩, by simp, by simp, (by rintro ch cs e; cases e), by simp, m3.token⟩
    · rw [hts, took_task]; simpa [inputBuffer, atPosition] using hin
    · rw [hts, took_task]; rfl
  have m4 := midway_took (pre := ln) (bs := []) (tok := []) m3
  refine ⟨_, _, .token n1 hne e1 m3.loaded (.done n2), m4.loaded, by rw [m4.data]; simp; omega, ?_, midway_counted hl m4 (by
    show y.ds.start + 16 ≤ V; rw [hds]; exact hV), ?_⟩
  · obtain ⟨u1, u2, u3⟩ := hund
    refine ⟨?_, ?_, u3⟩
    · rw [took_task, ← u1]; show (setData (took y [] [] ln) (v :: l)).task.sources[id - 1]? = _; rw [hts, took_task]; rfl
    · rw [took_task, ← u2]; show (setData (took y [] [] ln) (v :: l)).task.lines[id - 1]? = _; rw [hts, took_task]; rfl
  · have : ∀ z, (flushed z).ds = z.ds := fun z => by unfold flushed; split <;> rfl
    show (flushed _).ds.start = _
    rw [this]
    show y.ds.start = _
    rw [hds]

/-- C65. `included` with a file that has a number on each of its lines leaves these numbers on the stack, the last one on top, and goes back
to the source that was read. -/
theorem C65_numbers {a u : Cell} {path : List Byte} {ino : Nat} {e : List (Cell × Cell)} {ls : List (List Char × List Char)} {cs : List Char}
    {vs : List Cell} (h : HasLoader lv g1 g2 g3 g A V ix s) (hd : data s = u :: a :: l) (ho : Opens cfg s a u path ino) (hli : Lined s)
    (hS : Saved s.ds A e) (he : e.length < 16) (hap : a.toNat + u.toNat ≤ A ∨ A + 272 ≤ a.toNat)
    (hidx : s.task.st.sourceIndex < 2 ^ 64) (hfr : FreeAbove s.ds [g1, g2, g3, g]) (hA : A + 272 ≤ s.ds.here)
    (hlow : s.ds.start + 16 ≤ A ∧ s.ds.start + 16 ≤ V)
    (hRs : Readable s (source s).1) (hio : ∀ k, cfg.ioFails k = false) (hc : s.host.content ino = utf8 cs)
    (hls : Lines cs ls) (hn : Numbers cfg s ls vs) (htk : ∃ t, s.tkn = some t)
    (hcalm : Calm s.task.s ∧ Calm s.task.r ∧ Calm s.task.c ∧ Calm s.task.f) (hbase : (currentBase s).toInt = 10)
    (hm : s.task.st.isCompiling = false) (her : s.lastError = none)
    (hl : l.length + vs.length + 10 ≤ capacity) (hr : (ret s).length + 4 ≤ capacity) :
    ∃ v, Acts cfg (n + 1) (ix "included") s v ∧ source v = source s ∧ Saved v.ds A e ∧ data v = vs.reverse ++ l ∧ v.task.st.isCompiling = false := by
  have hcap : capacity = 64 := rfl
  have hun := unread_opened (path := path) (l := l) (m := loadingSpace s A V (e.length + 1) ix) (cs := cs) hli hc
  have hSl := saved_loading h hS he hA
  have hRl := readable_opened (ino := ino) (path := path) (l := l) (m := loadingSpace s A V (e.length + 1) ix) hRs hli
  have hp2 := freePlace_le s.task.sources
  have hs := hli.small.1
  have hlt := loading_task s ino path l (loadingSpace s A V (e.length + 1) ix)
  rw [opened_task] at hlt
  have hout : ∀ x, x ∈ [g1, g2, g3, g] → Outside x.1 x.2 s.ds (loadingSpace s A V (e.length + 1) ix) := by
    intro x hx
    have ha : A + 272 ≤ x.1 ∨ x.2 ≤ A := by
      simp only [List.mem_cons, List.not_mem_nil, or_false] at hx
      rcases hx with rfl | rfl | rfl | rfl
      · exact h.saves.apart1
      · exact h.saves.apart2
      · exact h.apartA _ (by simp)
      · exact h.apartA _ (by simp)
    exact outside_trans (m := s.ds) (outside_trans (outside_withEntry (c := e.length + 1) (x := (source s).1) (y := (source s).2) (by omega) ha)
      (outside_appended (x := toCell (ix "[")) (.inr (hfr.above x (List.mem_append_left [] hx)))))
      (outside_setCell (a := V) (x := 1) (h.apart x (List.mem_append_left [(A, A + 272)] hx)))
  have hm0 : Midway lv [g1, g2, g3, g] s A (nextSource s) (source s).1 (source s :: e) l
      (leaving (opened s ino path) l (loadingSpace s A V (e.length + 1) ix)) := by
    refine ⟨?_, rfl, htk, ?_, ?_, ?_, data_setData (s := opened s ino path) (by omega), by rw [hlt]; exact hm, her, by rw [hlt], hun.line, hRl, hSl⟩
    · exact ((h.kept [g1, g2, g3, g]).same (t := setData (opened s ino path) l) rfl rfl rfl rfl).stored (m := loadingSpace s A V (e.length + 1) ix) hout
    · rw [hlt]; exact ⟨hcalm.1.holding (by omega), hcalm.2⟩
    · have h1 := hfr.sound
      have h2 := hfr.room
      rw [RoomFor] at h2
      have := h1.vars
      have := h1.inside
      have hw : s.ds.here = s.ds.start + s.ds.len := rfl
      have hw2 : s.ds.limit = s.ds.start + s.ds.cap := rfl
      exact ⟨h1.pos, h1.aligned, h1.small, (by show 16 ≤ s.ds.len + 8; omega), (by show s.ds.len + 8 ≤ s.ds.cap; omega)⟩
    · have hw : s.ds.start + s.ds.len = s.ds.here := rfl
      have := hfr.sound.vars
      have hsp : (leaving (opened s ino path) l (loadingSpace s A V (e.length + 1) ix)).ds = loadingSpace s A V (e.length + 1) ix := rfl
      have hba : (loadingSpace s A V (e.length + 1) ix).baseAddr = s.ds.start + 8 := rfl
      rw [currentBase, hsp, hba, loadingSpace, DataSpace.cellAt_setCell_ne (by omega), ← hbase, currentBase]
      refine congrArg BitVec.toInt (DataSpace.cellAt_congr fun z h1 h2 => ?_)
      have hba' : s.ds.baseAddr = s.ds.start + 8 := rfl
      show ((withEntry s.ds A (e.length + 1) (source s).1 (source s).2).setCell s.ds.here _).bytes z = _
      rw [DataSpace.setCell_bytes_out (by omega)]
      exact (outside_withEntry (lo := s.ds.start) (hi := s.ds.start + 16) he (.inr (by omega))).bytes z (by omega) (by omega)
  have hns : nextSource s < 2 ^ 63 := by rw [nextSource]; omega
  obtain ⟨t, f, t1, ⟨l2, vs2, t2, t3, t4, -⟩, t5⟩ := C65_text (cfg := cfg) (n := n) (room := 0) (L := StillLoaded lv [g1, g2, g3, g] s) (V := V) (id := nextSource s) hio
    (fun xs z => ∃ l2 vs2, Midway lv [g1, g2, g3, g] s A (nextSource s) (source s).1 (source s :: e) l2 z ∧ Numbers cfg s xs vs2 ∧
      vs2.reverse ++ l2 = vs.reverse ++ l ∧ z.ds.start = s.ds.start)
    (by
      rintro xs z ⟨l2, vs2, h1, h2, h3, -⟩
      have := congrArg List.length h3
      simp only [List.length_append, List.length_reverse] at this
      exact ⟨by rw [h1.source]; exact toNat_toCell (by rw [nextSource]; omega), by rw [h1.data]; omega⟩)
    (by
      rintro ln le xs z f ⟨l2, vs2, h1, h2, h3, h4⟩ h5
      have hlen := congrArg List.length h3
      simp only [List.length_append, List.length_reverse] at hlen
      obtain _ | ⟨k1, k2, k3, k4, k5, k6⟩ := h2
      rw [List.length_cons] at hlen
      obtain ⟨toks, t, w1, w2, w3, w4, w5, w6⟩ := midway_line (cfg := cfg) (n := n) (le := le) (f := f) h h1 (by rw [h4]; exact hlow.2)
        ⟨Nat.succ_pos _, hns⟩ k1 k2 k3 k4 k5 (by omega)
      exact ⟨toks, t, w1, w2, w3, w4, _, _, w5, k6, by simpa using h3, w6.trans h4⟩)
    hls hun ⟨l, vs, hm0, hn, rfl, rfl⟩
  obtain @⟨⟩ := t3
  have t4 : l2 = vs.reverse ++ l := t4
  subst t4
  have hdn : data (nextLine t (nextSource s) f [] 0) = vs.reverse ++ l := by rw [data, nextLine_task]; exact t2.data
  have hdl : (vs.reverse ++ l).length + 5 ≤ capacity := by simp only [List.length_append, List.length_reverse]; omega
  have hb := C65_back (s := s) (t := nextLine t (nextSource s) f [] 0) (A := A) (e := e) t2.saved hidx (by rw [hdn]; omega)
  dsimp only at hb
  obtain ⟨b1, b2, b3, b4, -, b6⟩ := hb
  have hsrc : t.task.sources[freePlace s.task.sources]? = some (some f) := t1
  refine ⟨_, C65_included_partial (f := { f with file := { f.file with pos := f.file.pos + 0 } }) h hd ho hli hS he hap hidx hfr t5
    (by rw [nextLine_task]; exact t2.source)
    (by rw [nextLine_task]; exact List.getElem?_set_self (List.getElem?_eq_some_iff.1 hsrc).1)
    t2.saved hRs (readable_next t2.readable) (by omega) (by rw [hdn]; omega) (by omega) hr,
    b1, b2, b3.trans hdn, by rw [b4, nextLine_task]; exact t2.mode⟩

end
/-! ### A concrete machine -/

/-- The machine with core.fth and one file, with its path on the stack. -/
def Spec.imageFile (content : List Byte) (compiling : Bool) : VM :=
  { image.setTask { image.task with s := holding image.task.s [8, 11328], st := { image.task.st with isCompiling := compiling } } with
    host := ⟨fun p => if p = utf8 "included".toList then some 0 else none, fun _ => content, 1, 0⟩ }

theorem imageFile_loader (content : List Byte) (b : Bool) : HasLoader (imageIx "leave") (5184, 7408) (10560, 10984) (10984, 11144) (11176, 11544)
    10264 11144 imageIx (imageFile content b) := by
  have h := image_hasLoader
  exact ⟨⟨⟨h.saves.equipped.words, h.saves.equipped.library⟩, h.saves.region, h.saves.uses, h.saves.coded, h.saves.place, h.saves.lower,
    h.saves.upper, h.saves.apart1, h.saves.apart2⟩, ⟨h.reader.words, h.reader.region, h.reader.uses, h.reader.coded⟩, h.region, h.uses,
    h.coded, h.place, h.readOnly, h.bracket, h.lower, h.upper, h.apart, h.apartA⟩

/-- What is needed of this machine. -/
structure Spec.Prepared (s : VM) (content : List Byte) (b : Bool) : Prop where
  loader : HasLoader (imageIx "leave") (5184, 7408) (10560, 10984) (10984, 11144) (11176, 11544) 10264 11144 imageIx s
  data : data s = [8, 11328]
  opens : Opens demoCfg s 11328 8 (utf8 "included".toList) 0
  lined : Lined s
  saved : Saved s.ds 10264 []
  index : s.task.st.sourceIndex = 0
  id : s.task.st.sourceId = 0
  free : FreeAbove s.ds [(5184, 7408), (10560, 10984), (10984, 11144), (11176, 11544)]
  here : s.ds.here = 12224
  content : s.host.content 0 = content
  ret : ret s = []
  mode : s.task.st.isCompiling = b

theorem imageFile_prepared (content : List Byte) (b : Bool) : Prepared (imageFile content b) content b := by
  have ht : (imageFile content b).task = { image.task with s := holding image.task.s [8, 11328], st := { image.task.st with isCompiling := b } } :=
    VM.task_setTask image _
  have d1 : (imageFile content b).ds.start = 1024 := rfl
  have d2 : (imageFile content b).ds.cap = 65536 := rfl
  have d3 : (imageFile content b).ds.len = 11200 := rfl
  have hdir : (imageFile content b).host.dir (utf8 "included".toList) = if utf8 "included".toList = utf8 "included".toList then some 0 else none := rfl
  have hb : textAt (imageFile content b).ds 11328 8 = utf8 "included".toList := by
    show textAt image.ds 11328 8 = _
    decide +kernel
  have hp : PathOk (utf8 "included".toList) := by unfold PathOk; decide
  have i1 : image.task.sources = [] ∧ image.task.lines = [] ∧ image.task.files = [] ∧ image.task.st.sourceIndex = 0 ∧ image.task.st.sourceId = 0 ∧
    image.task.r.items = [] := ⟨rfl, rfl, rfl, rfl, rfl, rfl⟩
  obtain ⟨i1, i2, i3, i4, i5, i6⟩ := i1
  have hl := imageFile_loader content b
  have hs : Saved (imageFile content b).ds 10264 [] := image_saved
  have hc : (imageFile content b).host.content 0 = content := rfl
  have hio : demoCfg.ioFails (imageFile content b).host.calls = false := rfl
  revert ht d1 d2 d3 hdir hb hl hs hc hio i1 i2 i3 i4 i5 i6
  generalize imageFile content b = s
  generalize image = z
  intro ht d1 d2 d3 hdir hb i1 i2 i3 i4 i5 i6 hl hs hc hio
  have hlim : s.ds.limit = 66560 := by simp only [DataSpace.limit]; omega
  have hhere : s.ds.here = 12224 := by simp only [DataSpace.here]; omega
  refine ⟨hl, ?_, ⟨by decide, ⟨by rw [d1]; decide, by rw [hlim]; decide⟩, hb, hp, by rw [hdir, if_pos rfl], hio⟩, ⟨?_, ?_, ?_⟩, hs, ?_, ?_,
    ⟨⟨by omega, by omega, by omega, by omega, by omega⟩, by rw [RoomFor]; omega, ?_⟩, hhere, hc, ?_, ?_⟩
  · rw [Verif.Spec.data, ht]; exact holding_items _ (by simp)
  · rw [ht]; dsimp only; rw [i1, i2]; rfl
  · rw [ht]; dsimp only; rw [i1]; intro i hi; simp at hi
  · rw [ht]; dsimp only; rw [i1, i3]; decide
  · rw [ht]; exact i4
  · rw [ht]; exact i5
  · intro x hx
    simp only [List.mem_cons, List.not_mem_nil, or_false] at hx
    rcases hx with rfl | rfl | rfl | rfl <;> dsimp only <;> omega
  · rw [Verif.Spec.ret, ht]; exact i6
  · rw [ht]

/-- C65, refuted: after loading a file that does nothing, memory is as before and the machine interprets. Not so: a cell more is in use,
and the machine still compiles. -/
theorem C65_clean_refuted : ∃ s v, HasLoader (imageIx "leave") (5184, 7408) (10560, 10984) (10984, 11144) (11176, 11544) 10264 11144 imageIx s ∧
    Opens demoCfg s 11328 8 (utf8 "included".toList) 0 ∧ data s = [8, 11328] ∧ s.host.content 0 = [] ∧
    Acts demoCfg 1 (imageIx "included") s v ∧ v.ds.here = s.ds.here + 8 ∧ v.task.st.isCompiling = true := by
  obtain ⟨s, h⟩ : ∃ s, Prepared s [] true := ⟨_, imageFile_prepared [] true⟩
  have hc : capacity = 64 := rfl
  have hh := h.here
  obtain ⟨v, v1, -, -, -, v2, -, v3, -⟩ := C65_empty_file (cfg := demoCfg) (n := 0) h.loader h.data h.opens h.lined h.saved (by decide)
    (.inr (by decide)) (by rw [h.index]; decide) h.free (by omega) (by omega) (.inl h.id) (fun _ => rfl) h.content (by decide)
    (by rw [h.ret]; decide)
  exact ⟨s, v, h.loader, h.opens, h.data, h.content, v1, v2, v3.trans h.mode⟩

/-- Non-vacuity of C65_numbers, and so of C65_text, C65_load, C65_included_partial and C65_back: a file of the two lines `5` and `7`. -/
example (n : Nat) : ∃ s v, Acts demoCfg (n + 1) (imageIx "included") s v ∧ source v = source s ∧ Saved v.ds 10264 [] ∧ data v = [7, 5] ∧
    v.task.st.isCompiling = false := by
  obtain ⟨s, h, hw, htk, hcalm, hbase, her, hst⟩ : ∃ s, Prepared s (utf8 "5\n7".toList) false ∧ (∀ b, s.wl.buckets b = 0) ∧ (∃ t, s.tkn = some t) ∧
      (Calm s.task.s ∧ Calm s.task.r ∧ Calm s.task.c ∧ Calm s.task.f) ∧ (currentBase s).toInt = 10 ∧ s.lastError = none ∧ s.ds.start = 1024 := by
    refine ⟨_, imageFile_prepared _ false, fun _ => rfl, ⟨_, rfl⟩, ⟨⟨?_, ?_, ?_⟩, ⟨?_, ?_, ?_⟩, ⟨?_, ?_, ?_⟩, ⟨?_, ?_, ?_⟩⟩, ?_, rfl, rfl⟩ <;> decide +kernel
  have hf : ∀ (tok : List Char) k m, find (ctx demoCfg k) (utf8 tok) { s with ds := m } = .ok (none, { s with ds := m }) := by
    intro tok k m
    rw [find]; simp only [findLoop, hw]; rfl
  have hh := h.here
  obtain ⟨v, hv⟩ := C65_numbers (n := n) (cs := "5\n7".toList) (ls := [(['5'], ['\n']), (['7'], [])]) (vs := [5, 7]) h.loader h.data h.opens h.lined h.saved (by decide)
    (.inr (by decide)) (by rw [h.index]; decide) h.free (by omega) (by omega) (.inl h.id) (fun _ => rfl) h.content
    (.lf (l := ['5']) (by decide) (by decide) (.last (by simp) (by decide)))
    (.cons (by simp) (by decide) (by decide) (.digits (pre := []) (sg := []) (bs := [53]) (ds := [5]) .none .none (.cons (.inl rfl) .nil) (by simp)) (hf _)
      (.cons (by simp) (by decide) (by decide) (.digits (pre := []) (sg := []) (bs := [55]) (ds := [7]) .none .none (.cons (.inl rfl) .nil) (by simp)) (hf _) .nil))
    htk hcalm hbase h.mode her (by decide) (by rw [h.ret]; decide)
  exact ⟨s, v, hv⟩

/-- Non-vacuity of C65_missing: the same machine without the file. -/
example (n : Nat) : ∃ s t, Acts demoCfg (n + 2) (imageIx "included") s t ∧ t.lastError = some .abort ∧ t.ds = s.ds := by
  obtain ⟨s, h, hw⟩ : ∃ s, Prepared s [] false ∧ ∃ v, s.wl.words[0]? = some v ∧ v.action = .core .noop :=
    ⟨_, imageFile_prepared [] false, _, rfl, rfl⟩
  obtain ⟨v, h1, h2⟩ := hw
  have hl := h.loader
  let s' : VM := { s with host := { s.host with dir := fun _ => none }, handler := 0 }
  have hl' : HasLoader (imageIx "leave") (5184, 7408) (10560, 10984) (10984, 11144) (11176, 11544) 10264 11144 imageIx s' :=
    ⟨⟨⟨hl.saves.equipped.words, hl.saves.equipped.library⟩, hl.saves.region, hl.saves.uses, hl.saves.coded, hl.saves.place, hl.saves.lower,
    hl.saves.upper, hl.saves.apart1, hl.saves.apart2⟩, ⟨hl.reader.words, hl.reader.region, hl.reader.uses, hl.reader.coded⟩, hl.region, hl.uses,
    hl.coded, hl.place, hl.readOnly, hl.bracket, hl.lower, hl.upper, hl.apart, hl.apartA⟩
  obtain ⟨t, t1, t2, -, t3, -⟩ := C65_missing (cfg := demoCfg) (n := n) (s := s') (l := []) (a := 11328) (u := 8) hl' h.data (by decide) h.opens.inside (.inl rfl) h1 h2
    (by decide) (by show (ret s).length + 2 ≤ _; rw [h.ret]; decide)
  exact ⟨s', t, t1, t2, t3⟩

end Verif
