import Verif.Spec.Lines
import Verif.Lemmas.Footprint
import Verif.Lemmas.Text
import Verif.Lemmas.Demo

/-!
# C41: reading a file line by line
-/

namespace Verif
open Spec

/-! ## Bytes and characters -/

theorem utf8_append (a b : List Char) : utf8 (a ++ b) = utf8 a ++ utf8 b := by simp [utf8]

theorem utf8_length (l : List Char) : (utf8 l).length = byteLen l := by
  induction l with
  | nil => rfl
  | cons c l ih =>
    have : utf8 (c :: l) = utf8Char c ++ utf8 l := rfl
    rw [this, List.length_append, ih, byteLen, utf8Char, List.length_map, String.length_utf8EncodeChar]

theorem utf8_newline : utf8 ['\n'] = [10] := by decide

theorem ten_mem_utf8Char {c : Char} (h : (10 : Byte) ∈ utf8Char c) : c = '\n' := by
  have big : ∀ n : Nat, 128 ≤ n → n < 256 → (UInt8.ofNat n).toBitVec ≠ (10 : Byte) := by
    intro n h1 h2 e
    have := congrArg BitVec.toNat e
    simp [UInt8.ofNat] at this
    omega
  unfold utf8Char String.utf8EncodeChar at h
  dsimp only at h
  split at h
  · rename_i hv
    rw [List.map_singleton, List.mem_singleton] at h
    have := congrArg BitVec.toNat h
    simp [UInt8.ofNat] at this
    have hcn : c.toNat = c.val.toNat := rfl
    have hc : c.val.toNat = 10 := by omega
    apply Char.ext
    apply UInt32.toNat_inj.1
    rw [hc]; rfl
  · exfalso
    split at h
    · simp only [List.map_cons, List.map_nil, List.mem_cons, List.not_mem_nil, or_false] at h
      rcases h with h | h
      · exact big _ (by omega) (by omega) h.symm
      · exact big _ (by omega) (by omega) h.symm
    · split at h
      · simp only [List.map_cons, List.map_nil, List.mem_cons, List.not_mem_nil, or_false] at h
        rcases h with h | h | h
        · exact big _ (by omega) (by omega) h.symm
        · exact big _ (by omega) (by omega) h.symm
        · exact big _ (by omega) (by omega) h.symm
      · simp only [List.map_cons, List.map_nil, List.mem_cons, List.not_mem_nil, or_false] at h
        rcases h with h | h | h | h
        · exact big _ (by omega) (by omega) h.symm
        · exact big _ (by omega) (by omega) h.symm
        · exact big _ (by omega) (by omega) h.symm
        · exact big _ (by omega) (by omega) h.symm

theorem ten_mem_utf8 {l : List Char} (h : (10 : Byte) ∈ utf8 l) : '\n' ∈ l := by
  obtain ⟨c, hc, h⟩ := List.mem_flatMap.1 h
  rw [← ten_mem_utf8Char h]; exact hc

theorem takeLine_append {bs rest : List Byte} (h : (10 : Byte) ∉ bs) :
    takeLine (bs ++ 10 :: rest) = bs ++ [10] := by
  induction bs with
  | nil => simp [takeLine]
  | cons b bs ih =>
    rw [List.mem_cons, not_or] at h
    simp only [List.cons_append, takeLine]
    rw [if_neg (fun e => h.1 e.symm), ih h.2]

theorem takeLine_all {bs : List Byte} (h : (10 : Byte) ∉ bs) : takeLine bs = bs := by
  induction bs with
  | nil => rfl
  | cons b bs ih =>
    rw [List.mem_cons, not_or] at h
    simp only [takeLine]
    rw [if_neg (fun e => h.1 e.symm), ih h.2]

theorem decodeUtf8_utf8 (l : List Char) : decodeUtf8 (utf8 l) = some l := by
  have : ByteArray.mk ((utf8 l).map fun b => UInt8.ofBitVec b).toArray = l.utf8Encode := by
    have e : (utf8 l).map (fun b => UInt8.ofBitVec b) = l.flatMap String.utf8EncodeChar := by
      induction l with
      | nil => rfl
      | cons c l ih =>
        have : utf8 (c :: l) = utf8Char c ++ utf8 l := rfl
        rw [this, List.map_append, ih, List.flatMap_cons, utf8Char, List.map_map]
        congr 1
        exact (List.map_congr_left fun _ _ => rfl).trans (List.map_id _)
    rw [e, List.utf8Encode]
    apply ByteArray.ext
    simp
  rw [decodeUtf8, this, List.utf8Decode?_utf8Encode]; rfl

/-- What is not the encoding of a text is rejected. -/
theorem decodeUtf8_some {bs : List Byte} {l : List Char} (h : decodeUtf8 bs = some l) : bs = utf8 l := by
  unfold decodeUtf8 at h
  rw [Option.map_eq_some_iff] at h
  obtain ⟨a, h1, rfl⟩ := h
  have hs : (ByteArray.mk (bs.map fun b => UInt8.ofBitVec b).toArray).utf8Decode?.isSome := by
    rw [h1]; rfl
  obtain ⟨m, hm⟩ := ByteArray.isSome_utf8Decode?_iff.1 hs
  rw [hm, List.utf8Decode?_utf8Encode, Option.some.injEq] at h1
  subst h1
  have e : (bs.map fun b => UInt8.ofBitVec b) = m.flatMap String.utf8EncodeChar := by
    have := congrArg (fun b => b.data.toList) hm
    simpa [List.utf8Encode] using this
  have e2 := congrArg (List.map UInt8.toBitVec) e
  rw [List.map_map] at e2
  have e3 : bs.map (UInt8.toBitVec ∘ fun b => UInt8.ofBitVec b) = bs :=
    (List.map_congr_left fun _ _ => rfl).trans (List.map_id _)
  rw [e3] at e2
  rw [e2]
  rw [List.map_flatMap]
  rfl

/-! ## Lines -/

/-- C41. The lines with their terminators, one after the other, are the text. -/
theorem C41_concat {cs : List Char} {ls : List (List Char × List Char)} (h : Lines cs ls) :
    (ls.flatMap fun x => x.1 ++ x.2) = cs := by
  induction h with
  | nil => rfl
  | last => simp
  | lf _ _ _ ih => simp [ih]
  | crlf _ _ ih => simp [ih]

theorem stripEol_none {l : List Char} (h : '\n' ∉ l) : stripEol l = l := by
  unfold stripEol
  rw [if_neg]
  intro e
  exact h (List.mem_of_getLast? e)

theorem stripEol_lf {l : List Char} (h : l.getLast? ≠ some '\r') : stripEol (l ++ ['\n']) = l := by
  unfold stripEol
  rw [if_pos (by simp)]
  simp only [List.dropLast_concat]
  rw [if_neg h]

theorem stripEol_crlf {l : List Char} : stripEol (l ++ ['\r', '\n']) = l := by
  unfold stripEol
  have e : l ++ ['\r', '\n'] = (l ++ ['\r']) ++ ['\n'] := by simp
  rw [e, if_pos (by simp)]
  simp only [List.dropLast_concat]
  rw [if_pos (by simp)]

/-- C41. Every text has lines. -/
theorem C41_exists (cs : List Char) : ∃ ls, Lines cs ls := by
  have : ∀ n (cs : List Char), cs.length ≤ n → ∃ ls, Lines cs ls := by
    intro n
    induction n with
    | zero =>
      intro cs h
      have : cs = [] := List.length_eq_zero_iff.1 (by omega)
      subst this; exact ⟨[], .nil⟩
    | succ n ih =>
      intro cs hl
      by_cases hm : '\n' ∈ cs
      · obtain ⟨a, b, rfl, hn⟩ := List.eq_append_cons_of_mem hm
        obtain ⟨ls, hls⟩ := ih b (by simp at hl; omega)
        by_cases hr : a.getLast? = some '\r'
        · obtain ⟨a', rfl⟩ : ∃ a', a = a' ++ ['\r'] := by
            obtain ⟨ys, rfl⟩ := List.getLast?_eq_some_iff.1 hr
            exact ⟨ys, rfl⟩
          refine ⟨(a', ['\r', '\n']) :: ls, ?_⟩
          rw [List.append_assoc]
          exact .crlf (fun h => hn (List.mem_append_left _ h)) hls
        · exact ⟨_, .lf hn hr hls⟩
      · by_cases he : cs = []
        · subst he; exact ⟨[], .nil⟩
        · exact ⟨_, .last he hm⟩
  exact this _ cs (Nat.le_refl _)

/-- How the first line is found in the bytes of the file. -/
theorem Spec.Lines.head {cs l e : List Char} {ls : List (List Char × List Char)} (h : Lines cs ((l, e) :: ls)) :
    ∃ rest, cs = l ++ e ++ rest ∧ Lines rest ls ∧ l ++ e ≠ [] ∧ takeLine (utf8 cs) = utf8 (l ++ e) ∧
      stripEol (l ++ e) = l := by
  cases h with
  | last h1 h2 =>
    refine ⟨[], by simp, .nil, by simpa using h1, ?_, by rw [List.append_nil]; exact stripEol_none h2⟩
    rw [List.append_nil]
    exact takeLine_all fun h => h2 (ten_mem_utf8 h)
  | @lf _ rest _ h1 h2 h3 =>
    refine ⟨rest, by simp, h3, by simp, ?_, stripEol_lf h2⟩
    have : l ++ '\n' :: rest = l ++ (['\n'] ++ rest) := rfl
    rw [this, utf8_append, utf8_append, utf8_append, utf8_newline]
    exact takeLine_append fun h => h1 (ten_mem_utf8 h)
  | @crlf _ rest _ h1 h2 =>
    refine ⟨rest, by simp, h2, by simp, ?_, stripEol_crlf⟩
    have : l ++ '\r' :: '\n' :: rest = (l ++ ['\r']) ++ (['\n'] ++ rest) := by simp
    have e2 : l ++ ['\r', '\n'] = (l ++ ['\r']) ++ ['\n'] := by simp
    rw [this, e2, utf8_append, utf8_append _ rest, utf8_append _ ['\n'], utf8_newline]
    refine takeLine_append fun h => ?_
    have := ten_mem_utf8 h
    rw [List.mem_append] at this
    rcases this with h | h
    · exact h1 h
    · exact absurd h (by decide)

/-- C41. A text has only one way to be lines. -/
theorem C41_unique {cs : List Char} {ls ls' : List (List Char × List Char)} (h : Lines cs ls)
    (h' : Lines cs ls') : ls = ls' := by
  induction ls generalizing cs ls' with
  | nil =>
    cases h
    cases ls' with
    | nil => rfl
    | cons x xs =>
      obtain ⟨l, e⟩ := x
      obtain ⟨rest, h1, -, h2, -⟩ := h'.head
      have := h1.symm
      rw [List.append_eq_nil_iff] at this
      exact absurd this.1 h2
  | cons x xs ih =>
    obtain ⟨l, e⟩ := x
    obtain ⟨rest, h1, h2, h3, h4, h5⟩ := h.head
    cases ls' with
    | nil =>
      cases h'
      have := h1.symm
      rw [List.append_eq_nil_iff] at this
      exact absurd this.1 h3
    | cons y ys =>
      obtain ⟨l', e'⟩ := y
      obtain ⟨rest', k1, k2, k3, k4, k5⟩ := h'.head
      have hle : l ++ e = l' ++ e' := by
        have := h4.symm.trans k4
        have := congrArg decodeUtf8 this
        rwa [decodeUtf8_utf8, decodeUtf8_utf8, Option.some.injEq] at this
      have hl : l = l' := by rw [← h5, hle, k5]
      subst hl
      have he := List.append_cancel_left hle
      subst he
      have hr : rest = rest' := by
        rw [h1] at k1; exact List.append_cancel_left k1
      subst hr
      rw [ih h2 k2]

/-- One call of `load_line` on an open source. -/
theorem loadLine_run (c : Ctx) (hio : ∀ n, c.cfg.ioFails n = false) {s : VM} {id : Nat} {rest : List Char}
    (h : Unread s id rest) {line : List Char} (hl : takeLine (utf8 rest) = utf8 line) :
    ∃ u, loadLine c id s = .ok (.ok (byteLen (stripEol line), decide (byteLen line ≠ 0)), u) ∧
      u.task.lines[id - 1]? = some (some (stripEol line)) ∧
      ∀ rest', rest = line ++ rest' → Unread u id rest' := by
  obtain ⟨src, h1, h2, h3⟩ := h.source
  obtain ⟨old, ho⟩ := h.line
  have hlt := (List.getElem?_eq_some_iff.1 h1).1
  have hlt' := (List.getElem?_eq_some_iff.1 ho).1
  unfold loadLine
  rw [M.bind_ok (getTask_apply s)]
  rw [if_pos h.pos, h1, ho]
  dsimp only
  have hc : hostCall c s = .ok (false, { s with host := { s.host with calls := s.host.calls + 1 } }) := by
    unfold hostCall; rw [hio]
  rw [M.bind_ok hc, M.bind_ok (getVM_apply _)]
  dsimp only
  rw [if_neg (by simp [h2]), h3, hl, decodeUtf8_utf8, utf8_length]
  refine ⟨_, rfl, ?_, fun rest' hr => ⟨h.pos, ?_, ?_⟩⟩
  · rw [VM.task_setTask]
    exact List.getElem?_set_self (by rw [VM.task_setTask]; exact hlt')
  · refine ⟨{ src with file := { src.file with pos := src.file.pos + byteLen line } }, ?_, h2, ?_⟩
    · rw [VM.task_setTask]
      show ((VM.setTask _ _).task.sources)[id - 1]? = _
      rw [VM.task_setTask]
      exact List.getElem?_set_self hlt
    · show (s.host.content src.file.ino).drop (src.file.pos + byteLen line) = utf8 rest'
      rw [← List.drop_drop, h3, hr, utf8_append, ← utf8_length, List.drop_left]
  · rw [VM.task_setTask]
    exact ⟨_, List.getElem?_set_self (by rw [VM.task_setTask]; exact hlt')⟩

/-- C41. Repeated `load_line` on a source, of any content that is a text, delivers its lines in order,
without their terminators and each with its length, then reports the end of the file, then and ever after. -/
theorem C41_lines (c : Ctx) (hio : ∀ n, c.cfg.ioFails n = false) {s : VM} {id : Nat} {cs : List Char}
    {ls : List (List Char × List Char)} (h : Unread s id cs) (hls : Lines cs ls) :
    ∃ t, Delivers c id s (ls.map Prod.fst) t ∧ Unread t id [] ∧
      ∃ t', loadLine c id t = .ok (.ok (0, false), t') ∧ t'.task.lines[id - 1]? = some (some []) ∧
        Unread t' id [] := by
  induction ls generalizing s cs with
  | nil =>
    cases hls
    obtain ⟨u, e, h1, h2⟩ := loadLine_run c hio h (line := []) rfl
    exact ⟨s, .nil s, h, u, e, h1, h2 [] rfl⟩
  | cons x xs ih =>
    obtain ⟨l, e⟩ := x
    obtain ⟨rest, h1, h2, h3, h4, h5⟩ := hls.head
    obtain ⟨u, eu, hu, hr⟩ := loadLine_run c hio h h4
    rw [h5] at eu hu
    obtain ⟨t, ht, hrest⟩ := ih (hr rest h1) h2
    refine ⟨t, .cons ?_ hu ht, hrest⟩
    have : byteLen (l ++ e) ≠ 0 := Nat.ne_of_gt (byteLen_pos h3)
    rw [eu, decide_eq_true this]

/-- A source to read from: a file with a line ended by `\n`, one by `\r\n`, and one not ended. -/
def readable : VM :=
  let s := VM.blank 4096 4096
  let s := { s with host := { s.host with content := fun _ => utf8 "été\n\r\nx".toList } }
  s.setTask { s.task with sources := [some ⟨⟨0, 0, true, false⟩, []⟩], lines := [some []] }

/-- Non-vacuity: what is left of its file, and its lines. -/
example : Unread readable 1 "été\n\r\nx".toList :=
  ⟨by decide, ⟨⟨⟨0, 0, true, false⟩, []⟩, by rw [readable, VM.task_setTask]; rfl, rfl, rfl⟩,
    ⟨[], by rw [readable, VM.task_setTask]; rfl⟩⟩

example : Lines "été\n\r\nx".toList [("été".toList, ['\n']), ([], ['\r', '\n']), (['x'], [])] :=
  .lf (l := "été".toList) (by decide) (by decide) (.crlf (l := []) (by decide) (.last (by decide) (by decide)))

/-- C41. A line that is not text in UTF-8 is reported as an error, and passed over. -/
theorem C41_invalid (c : Ctx) {s t : VM} {id : Nat} {src : Source} {l : List Char} (hid : 0 < id)
    (h1 : s.task.sources[id - 1]? = some (some src)) (h2 : s.task.lines[id - 1]? = some (some l))
    (hbad : ∀ cs, takeLine ((s.host.content src.file.ino).drop src.file.pos) ≠ utf8 cs)
    {r : Except Exn (Nat × Bool)} (h : loadLine c id s = .ok (r, t)) : r = .error .fileIO := by
  unfold loadLine at h
  rw [M.bind_ok (getTask_apply s), if_pos hid, h1, h2] at h
  dsimp only at h
  have hc : hostCall c s = .ok (c.cfg.ioFails s.host.calls,
    { s with host := { s.host with calls := s.host.calls + 1 } }) := rfl
  rw [M.bind_ok hc, M.bind_ok (getVM_apply _)] at h
  dsimp only at h
  split at h
  · cases h; rfl
  · cases hd : decodeUtf8 (takeLine ((s.host.content src.file.ino).drop src.file.pos)) with
    | none => rw [hd] at h; cases h; rfl
    | some cs => exact absurd (decodeUtf8_some hd) (hbad cs)

/-- C41. The word `load-line` leaves what `load_line` returns: the length and a flag. -/
theorem C41_word (c : Ctx) {s u : VM} {id : Cell} {l : List Cell} {n : Nat} {more : Bool}
    (hi : s.task.s.items = id :: l)
    (h : loadLine c id.toNat (withData s s.task.s.pop.2) = .ok (.ok (n, more), u)) :
    ∃ t, action c (.load .loadLine) s = .ok ((), t) ∧
      t = u.setTask { u.task with s := u.task.s.push2 (toCell n) (if more then -1 else 0) } := by
  have hr := Stack.items_eq_iff.1 hi
  refine ⟨_, ?_, rfl⟩
  show pLoadLine c s = _
  unfold pLoadLine
  rw [M.bind_ok (sPop_apply s), hr.pop_fst]
  refine (M.bind_ok h).trans ?_
  cases more <;> rfl

end Verif
