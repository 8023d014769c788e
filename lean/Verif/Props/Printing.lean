import Verif.Lemmas.Printing
import Verif.Props.Text
import Verif.Props.Dictionary

/-!
# C57: nothing printed is lost
-/

namespace Verif
open Spec Stack

/-! ## Whole programs -/

/-- C57. Whatever a program does, for however long: text sent to the standard output or to the standard
error stream stays there, new text comes after it, and no byte written to the output buffer disappears
before it is in one of the two. -/
theorem C57_grows {cfg : Cfg} {s t : VM} (h : Reach cfg s t) (hi : InSpace s) :
    s.stdout <+: t.stdout ∧ s.stderr <+: t.stderr ∧ ∀ b, written b s ≤ written b t := by
  refine (h.changes hi).keep
    (P := fun t => s.stdout <+: t.stdout ∧ s.stderr <+: t.stderr ∧ ∀ b, written b s ≤ written b t)
    (fun k u v _ hc ⟨h1, h2, h3⟩ => ?_) ⟨List.prefix_refl _, List.prefix_refl _, fun _ => Nat.le_refl _⟩
  obtain ⟨g1, g2, g3, -⟩ := hc.grows
  exact ⟨h1.trans g1, h2.trans g2, fun b => Nat.le_trans (h3 b) (g3 b)⟩

/-- C57. On a machine without a word that sends the buffer to the standard error stream, the text in
the buffer stays in order behind the text of the standard output: what was printed remains the beginning
of what is printed. Nothing goes to the standard error stream. -/
theorem C57_order {cfg : Cfg} {s t : VM} (h : Reach cfg s t) (hi : InSpace s)
    (hw : ∀ w, w ∈ s.wl.words → w.action ≠ .tool .flushToErr) :
    outText s <+: outText t ∧ t.stderr = s.stderr := by
  have ha : Able (runKinds.filter fun k => !(k == .standardError)) s := by
    refine able_filter (by decide) fun w h1 k h2 => ?_
    rw [beq_eq_false_iff_ne]
    rintro rfl
    exact hw w h1 ((footprint_unique _).2.2.2.2.1 h2)
  refine (C54_confined (by decide) h hi ha).1.keep 
    (P := fun t => outText s <+: outText t ∧ t.stderr = s.stderr) ?_ ⟨List.prefix_refl _, rfl⟩
  intro k u v hk hc ⟨hu, he⟩
  have hn : k ≠ .standardError := by
    rintro rfl
    exact absurd hk (by decide)
  refine ⟨hu.trans (hc.grows.2.2.2 hn), Eq.trans ?_ he⟩
  by_cases h1 : k = .output
  · subst h1; obtain ⟨x, rfl⟩ := hc; rfl
  by_cases h2 : k = .standardOut
  · subst h2; obtain ⟨x, -, rfl⟩ := hc; rfl
  exact (hc.streams h1 h2 hn).2.1

/-- Machines with and without the word that sends the buffer to the standard error stream. -/
example : (∀ w, w ∈ [Word.new (.core .dup) .word 4112 4120, Word.new (.out .flushOutput) .word 4128 4136] →
      w.action ≠ .tool .flushToErr) ∧
    InSpace (VM.blank 4096 4096) ∧
    outText { VM.blank 4096 4096 with stdout := [72, 10], outbuf := some [73] } = [72, 10, 73] :=
  ⟨by decide, ⟨by decide, by decide⟩, rfl⟩

/-! ## The words -/

/-- C57. `emit` takes a character code below 128 and adds that one byte to the buffer. -/
theorem C57_emit (c : Ctx) (s : VM) (v : Cell) (l : List Cell) (hs : s.task.s.items = v :: l)
    (hv : v.toNat < 128) :
    ∃ p, primOf "emit" = some p ∧ ∃ st' t, st'.items = l ∧
      action c p s = .ok ((), t) ∧ Prints [BitVec.ofNat 8 v.toNat] (withData s st') t := by
  have hr := items_eq_iff.1 hs
  refine ⟨_, rfl, s.task.s.pop.2, ?_⟩
  have e : utf8Char (Char.ofNat (v.toNat % 256)) = [BitVec.ofNat 8 v.toNat] := by
    have : ∀ n, n < 128 → utf8Char (Char.ofNat (n % 256)) = [BitVec.ofNat 8 n] := by decide +kernel
    exact this _ hv
  obtain ⟨t, h1, h2⟩ := outBytes_prints [BitVec.ofNat 8 v.toNat] (withData s s.task.s.pop.2)
  refine ⟨t, items_eq_iff.2 hr.toPop.rep, ?_, h2⟩
  change emit s = _
  rw [emit, M.bind_apply, sPop_apply]
  dsimp only
  rw [hr.pop_fst, e]
  exact h1

/-- C57. `type` takes an address and a length, and adds the bytes there to the buffer. -/
theorem C57_type (c : Ctx) (s : VM) (a u : Cell) (l : List Cell) (hs : s.task.s.items = u :: a :: l)
    (hl : l.length ≤ 64) (hq : s.task.s.underflow = false) (hin : Inside s.ds a u) :
    ∃ p, primOf "type" = some p ∧ ∃ st' t, st'.items = l ∧
      action c p s = .ok ((), t) ∧ Prints (textAt s.ds a u) (withData s st') t := by
  have hr := items_eq_iff.1 hs
  refine ⟨_, rfl, s.task.s.pop2.2, ?_⟩
  obtain ⟨t, h1, h2⟩ := outBytes_prints (textAt s.ds a u) (withData s s.task.s.pop2.2)
  have hp := hr.toPop2
  refine ⟨t, items_eq_iff.2 hp.rep, ?_, h2⟩
  change pType c s = _
  rw [pType, M.bind_apply, sPop2_apply]
  dsimp only
  rw [hr.pop2_fst]
  have hu : s.task.s.pop2.2.underflow = false := by
    simp only [Stack.underflow, Bool.or_eq_false_iff, decide_eq_false_iff_not] at hq ⊢
    have h5 := hp.quiet 255 (by simp; omega) (by simp; omega)
    rw [h5, hp.canary]
    refine ⟨hq.1, ?_⟩
    rw [hp.rep.len]
    simp; omega
  rw [M.bind_apply, getVM_apply]
  dsimp only
  rw [VM.task_setTask, if_neg (by rw [hu]; simp)]
  cases ho : s.outbuf with
  | none =>
    have e : t = withData s s.task.s.pop2.2 := by
      rw [h2]; simp [withData, VM.setTask, ho]
    rw [e]
    have e' : (s.setTask { s.task with s := s.task.s.pop2.2 }).outbuf = none := ho
    rw [e']
    rfl
  | some o =>
    have e : (s.setTask { s.task with s := s.task.s.pop2.2 }).outbuf = some o := ho
    rw [e]
    dsimp only
    rw [M.bind_apply, dsRd_ok (a := textAt s.ds a u) (Files.text_ok hin)]
    exact h1

/-- C57. `.(` adds the text up to the next `)`, or to the end of the input, to the buffer; the position
is just after. -/
theorem C57_dot_paren (c : Ctx) (s : VM) (pre rest taken after old : List Char) (found : Bool)
    (l : List Cell) (hr : Reading s.task pre rest) (ht : s.tkn = some old)
    (hi : s.task.s.items = l) (hl : l.length < 255)
    (hd : Delimited (BitVec.ofNat 64 ')'.toNat) rest taken after found) :
    ∃ p, primOf ".(" = some p ∧ ∃ st' n t, st'.items = l ∧ action c p s = .ok ((), t) ∧
      Prints (utf8 taken) { s.setTask { atPosition s.task n with s := st' } with tkn := some taken } t ∧
      ∃ pre', pre' ++ after = pre ++ rest ∧ n = byteLen pre' := by
  obtain ⟨st', n, h1, h2, h3⟩ := comment_reading c s pre rest taken after old found _ l hr ht hi hl hd
  obtain ⟨t, h4, h5⟩ := outBytes_prints (utf8 taken)
    { s.setTask { atPosition s.task n with s := st' } with tkn := some taken }
  refine ⟨_, rfl, st', n, t, h1, ?_, h5, h3⟩
  have e : dotParen c s = ((do sPush (BitVec.ofNat 64 ')'.toNat); parse c : M Unit) >>= fun _ => do
      let tok ← takeToken
      outBytes (utf8 tok)
      putToken tok) s := by
    rfl
  change dotParen c s = _
  rw [e, M.bind_apply, h2]
  dsimp only
  rw [h5]
  rfl

/-- C57. `flush-output` sends the buffer, if there is anything in it, to the standard output and adds a
newline. -/
theorem C57_flush (c : Ctx) (s : VM) (o : List Byte) (ho : s.outbuf = some o) :
    ∃ p, primOf "flush-output" = some p ∧
      action c p s = .ok ((), if o = [] then s else
        { s with stdout := s.stdout ++ o ++ [10], outbuf := some [] }) := by
  refine ⟨_, rfl, ?_⟩
  change flushOutput s = _
  cases o <;> simp [flushOutput, modVM, ho]

/-- C57. `flush-to-err` sends the buffer with a newline to the standard error stream, also when there is nothing in it. -/
theorem C57_flush_err (c : Ctx) (s : VM) (o : List Byte) (ho : s.outbuf = some o) :
    ∃ p, primOf "flush-to-err" = some p ∧ action c p s = .ok ((), { s with stderr := s.stderr ++ o ++ [10], outbuf := some [] }) := by
  refine ⟨_, rfl, ?_⟩
  change flushToErr s = _
  simp [flushToErr, modVM, ho]

/-- C57. `.s` leaves all stacks alone and adds the numbers on the data stack to the buffer, bottom first
and in decimal whatever the base, each followed by a blank, so that reading the text back in decimal
gives the same numbers. If there are floats it adds `F: ` and their texts with seven digits after the point, bottom first,
each followed by a blank; there is a blank before that if there are numbers too. -/
theorem C57_dot_s (c : Ctx) (s : VM) :
    ∃ p, primOf ".s" = some p ∧ ∃ txt more t, action c p s = .ok ((), t) ∧ Prints (txt ++ more) s t ∧
      Listing s.task.s.items.reverse txt ∧ (s.task.f.items = [] → more = []) ∧
      (s.task.f.items ≠ [] → more = (if s.task.s.items = [] then [] else [32]) ++ ascii "F: " ++
        s.task.f.items.reverse.flatMap fun v => c.cfg.fops.fmt 7 v ++ [32]) := by
  have empty : ∀ {α : Type} (st : Stack α), st.len ≠ 0 ↔ st.items ≠ [] := by
    intro α st
    have := items_length st
    constructor
    · intro h e
      rw [e] at this
      exact h (BitVec.eq_of_toNat_eq this.symm)
    · intro h e
      rw [e] at this
      exact h (List.length_eq_zero_iff.1 this)
  obtain ⟨t, h1, h2⟩ := outBytes_prints (showCells s.task.s.asList ++
    (if s.task.f.len ≠ 0 then
      (if s.task.s.len ≠ 0 then [32] else []) ++ ascii "F: " ++ showFloats c.cfg.fops s.task.f.asList
    else [])) s
  refine ⟨_, rfl, _, _, t, h1, h2, ?_, fun h => ?_, fun h => ?_⟩
  · rw [← asList_reverse, List.reverse_reverse]
    exact showCells_listing _
  · rw [if_neg]
    exact fun h' => (empty _).1 h' h
  · rw [if_pos ((empty _).2 h), ← asList_reverse s.task.f, List.reverse_reverse, showFloats]
    congr 2
    by_cases he : s.task.s.items = []
    · rw [if_pos he, if_neg fun h' => (empty _).1 h' he]
    · rw [if_neg he, if_pos ((empty _).2 he)]

/-- C57. `words` adds the names of the visible words to the buffer, newest first, each followed by a
blank, and changes nothing else. -/
theorem C57_words (c : Ctx) (s : VM) (hd : Dict s) (hi : InSpace s) :
    ∃ p, primOf "words" = some p ∧ ∃ t, action c p s = .ok ((), t) ∧
      Prints ((shownNames s).flatMap (· ++ [32])) s t := by
  refine ⟨_, rfl, ?_⟩
  have hl : wordsLoop c.oc s.ds (s.wl.words.drop 1).reverse =
      .ok ((shownNames s).flatMap (· ++ [32])) := by
    refine wordsLoop_names fun w hw => ?_
    obtain ⟨i, hi'⟩ := List.mem_iff_getElem?.1 (List.mem_of_mem_drop (List.mem_reverse.1 hw))
    exact hd.getStr hi hi'
  obtain ⟨t, h1, h2⟩ := outBytes_prints ((shownNames s).flatMap (· ++ [32])) s
  change ∃ t, wordsWord c s = .ok ((), t) ∧ _
  rw [wordsWord, M.bind_apply, getVM_apply]
  dsimp only
  cases ho : s.outbuf with
  | none => exact ⟨s, rfl, by simp only [Prints, ho, Option.map_none]; rw [← ho]⟩
  | some o =>
    dsimp only
    rw [hl, M.bind_apply, liftE_ok]
    exact ⟨t, h1, h2⟩

/-- A machine with text to print. -/
example : ∃ s : VM, s.task.s.items = [3, 4112] ∧ s.task.s.underflow = false ∧ Inside s.ds 4112 3 ∧
    Reading s.task [] "hello) drop".toList ∧ s.tkn = some [] ∧
    Delimited (BitVec.ofNat 64 ')'.toNat) "hello) drop".toList "hello".toList " drop".toList true ∧
    s.outbuf = some [] ∧ Listing [wrap (-12), 7] (ascii "-12 7 ") :=
  ⟨(VM.blank 4096 4096).setTask { Task.newTerminal with
      inbuf := some "hello) drop".toList, s := (Stack.new cellCanary).push2 4112 3 }, rfl, by decide, by decide,
    ⟨rfl, rfl, by decide⟩, rfl, ⟨by decide, ')', rfl, rfl⟩, rfl, by
      have := showCells_listing [wrap (-12), 7]
      have e : showCells [wrap (-12), 7] = ascii "-12 7 " := by decide +kernel
      rwa [e] at this⟩

/-- The names `words` shows on a small machine: word 1 is hidden. -/
example : shownNames { VM.blank 4096 4096 with wl := { Wordlist.empty with words :=
    [Word.new (.core .dup) .word 4112 4120, { Word.new (.core .dup) .word 4112 4120 with hidden := true },
      Word.new (.core .swap) .word 4128 4136] } } = [[]] := by decide

end Verif
