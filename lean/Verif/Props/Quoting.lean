import Verif.Lemmas.Quoting
import Verif.Props.Dictionary

/-!
# C59: words that quote a name, and words that compile
-/

namespace Verif
open Spec Stack

variable {c : Ctx} {s : VM} {pre bs tok more : List Char}

private theorem quoting_token (h : Next s pre bs tok more) {α : Type} (f : List Char → M α) :
    (do parseWord; let t ← takeToken; f t) s = f tok { took s pre bs tok with tkn := none } := by
  rw [M.bind_ok h.parse, M.bind_ok takeToken_took]

private theorem isEmpty_false (h : tok ≠ []) : tok.isEmpty = false := by cases tok <;> simp_all

/-- Same machine, once the token is put back. -/
private theorem put_took (s : VM) (pre bs tok : List Char) :
    putToken tok { took s pre bs tok with tkn := none } = .ok ((), took s pre bs tok) := rfl

/-- C59. `'` pushes the number of the newest visible word of the name that follows, takes exactly that name
from the text, and changes nothing else. -/
theorem C59_tick (c : Ctx) {i : Nat} (h : Next s pre bs tok more) (ht : tok ≠ []) (hd : Dict s) (hi : InSpace s)
    (hn : Newest s (utf8 tok) (some i)) (hr : s.task.s.items.length < 255) :
    ∃ p st, primOf "'" = some p ∧ action c p s = .ok ((), withData (took s pre bs tok) st) ∧
      st.items = toCell i :: s.task.s.items := by
  refine ⟨_, (took s pre bs tok).task.s.push (toCell i), rfl, ?_, by
    rw [took_items]; exact items_eq_iff.2 ((rep_items s.task.s).push hr _)⟩
  show tick c s = _
  rw [tick, quoting_token h, isEmpty_false ht, if_neg (by simp), M.bind_ok (find_took hd hi pre bs tok hn none)]
  rfl

/-- C59. `[']` appends a literal: the number of the newest visible word of the name. -/
theorem C59_bracketTick (c : Ctx) {i : Nat} (h : Next s pre bs tok more) (ht : tok ≠ []) (hd : Dict s) (hi : InSpace s)
    (hn : Newest s (utf8 tok) (some i)) (hs : SoundSpace s.ds) (hr : RoomFor s.ds 2) :
    ∃ p d, primOf "[']" = some p ∧ action c p s = .ok ((), { took s pre bs tok with ds := d }) ∧
      Extends s.ds [toCell s.refs.lit, toCell i] d := by
  obtain ⟨d, h1, h2⟩ := compileInteger_run (c := c) (s := { took s pre bs tok with tkn := none }) hs hr (toCell i)
  refine ⟨_, d, rfl, ?_, h2⟩
  show bracketTick c s = _
  rw [bracketTick, quoting_token h, isEmpty_false ht, if_neg (by simp), M.bind_ok (find_took hd hi pre bs tok hn none)]
  dsimp only
  rw [M.bind_ok h1]
  rfl

/-- C59. `postpone` appends three cells: the number of the word as a literal, and the word that compiles
it later. -/
theorem C59_postpone (c : Ctx) {i : Nat} (h : Next s pre bs tok more) (ht : tok ≠ []) (hd : Dict s) (hi : InSpace s)
    (hn : Newest s (utf8 tok) (some i)) (hs : SoundSpace s.ds) (hr : RoomFor s.ds 3) :
    ∃ p d, primOf "postpone" = some p ∧ action c p s = .ok ((), { took s pre bs tok with ds := d }) ∧
      Extends s.ds [toCell s.refs.lit, toCell i, toCell s.refs.postponeRt] d := by
  obtain ⟨d, h1, h2⟩ := compileInteger_run (c := c) (s := took s pre bs tok) hs
    (by simp only [RoomFor] at hr ⊢; show s.ds.here + _ ≤ s.ds.limit; omega) (toCell i)
  obtain ⟨d', h3, h4⟩ := compileCell_run (c := c) (s := { took s pre bs tok with ds := d }) hs h2 hr
    (toCell s.refs.postponeRt)
  refine ⟨_, d', rfl, ?_, h4⟩
  show postpone c s = _
  rw [postpone, quoting_token h, isEmpty_false ht, if_neg (by simp), M.bind_ok (find_took hd hi pre bs tok hn none)]
  dsimp only
  rw [M.bind_ok (put_took s pre bs tok), M.bind_ok h1]
  exact h3

/-- C59. Each of these words raises the same error for a name that no visible word has, after taking the
name. -/
theorem C59_unknown (c : Ctx) (name : String) (hname : name ∈ ["'", "[']", "postpone"]) (h : Next s pre bs tok more)
    (ht : tok ≠ []) (hd : Dict s) (hi : InSpace s) (hn : Newest s (utf8 tok) none) :
    ∃ p, primOf name = some p ∧ action c p s = abortWith c .undefinedWord (took s pre bs tok) := by
  have hf := find_took (c := c) hd hi pre bs tok hn none
  simp only [List.mem_cons, List.not_mem_nil, or_false] at hname
  rcases hname with rfl | rfl | rfl
  · refine ⟨_, rfl, ?_⟩
    show tick c s = _
    rw [tick, quoting_token h, isEmpty_false ht, if_neg (by simp), M.bind_ok hf]
    exact M.bind_ok (put_took s pre bs tok)
  · refine ⟨_, rfl, ?_⟩
    show bracketTick c s = _
    rw [bracketTick, quoting_token h, isEmpty_false ht, if_neg (by simp), M.bind_ok hf]
    exact M.bind_ok (put_took s pre bs tok)
  · refine ⟨_, rfl, ?_⟩
    show postpone c s = _
    rw [postpone, quoting_token h, isEmpty_false ht, if_neg (by simp), M.bind_ok hf]
    exact M.bind_ok (put_took s pre bs tok)

/-- C59. All words that need a name or a character raise the same error at the end of the text. -/
theorem C59_missing (c : Ctx) (name : String) (hname : name ∈ ["'", "[']", "postpone", "char"])
    (h : Next s pre bs [] []) :
    ∃ p, primOf name = some p ∧ action c p s = abortWith c .unexpectedEOF (took s pre bs []) := by
  simp only [List.mem_cons, List.not_mem_nil, or_false] at hname
  rcases hname with rfl | rfl | rfl | rfl
  · exact ⟨_, rfl, quoting_token h _⟩
  · exact ⟨_, rfl, quoting_token h _⟩
  · exact ⟨_, rfl, quoting_token h _⟩
  · exact ⟨_, rfl, quoting_token h _⟩

/-- C59. `char` pushes the code point of the first character of the next token, of any script. -/
theorem C59_char (c : Ctx) {ch : Char} (h : Next s pre bs (ch :: tok) more) (hr : s.task.s.items.length < 255) :
    ∃ p st, primOf "char" = some p ∧ action c p s = .ok ((), withData (took s pre bs (ch :: tok)) st) ∧
      st.items = BitVec.ofNat 64 ch.toNat :: s.task.s.items := by
  refine ⟨_, (took s pre bs (ch :: tok)).task.s.push (BitVec.ofNat 64 ch.toNat), rfl, ?_, by
    rw [took_items]; exact items_eq_iff.2 ((rep_items s.task.s).push hr _)⟩
  show pChar c s = _
  rw [pChar, quoting_token h]
  rfl

/-- C59. `[char]` appends it as a literal, when no error is pending. -/
theorem C59_bracketChar (c : Ctx) {ch : Char} (h : Next s pre bs (ch :: tok) more) (he : s.lastError = none)
    (hr : s.task.s.items.length < 255) (hs : SoundSpace s.ds) (hm : RoomFor s.ds 2) :
    ∃ p st d, primOf "[char]" = some p ∧
      action c p s = .ok ((), { withData (took s pre bs (ch :: tok)) st with ds := d }) ∧
      st.items = s.task.s.items ∧ Extends s.ds [toCell s.refs.lit, BitVec.ofNat 64 ch.toNat] d := by
  obtain ⟨p, st, h1, h2, h3⟩ := C59_char c h hr
  cases h1
  have hp := popped (s := withData (took s pre bs (ch :: tok)) st)
    (show (withData (took s pre bs (ch :: tok)) st).task.s.items = _ by
      rw [show (withData (took s pre bs (ch :: tok)) st).task.s = st by simp [withData, VM.task_setTask]]; exact h3)
  rw [show (withData (took s pre bs (ch :: tok)) st).task.s = st by simp [withData, VM.task_setTask]] at hp
  obtain ⟨d, h4, h5⟩ := compileInteger_run (c := c)
    (s := withData (took s pre bs (ch :: tok)) st.pop.2) hs hm (BitVec.ofNat 64 ch.toNat)
  refine ⟨_, st.pop.2, d, rfl, ?_, hp.2, h5⟩
  show bracketChar c s = _
  rw [bracketChar, M.bind_ok (show pChar c s = _ from h2)]
  have e : getError (withData (took s pre bs (ch :: tok)) st) = .ok (none, withData (took s pre bs (ch :: tok)) st) := by
    show Except.ok (s.lastError, _) = _
    rw [he]
  rw [M.bind_ok e]
  dsimp only
  have e2 : sPop (withData (took s pre bs (ch :: tok)) st) =
      .ok (BitVec.ofNat 64 ch.toNat, withData (took s pre bs (ch :: tok)) st.pop.2) := by
    vm_simp [withData, hp.1]
  rw [M.bind_ok e2]
  exact h4

/-- C59. `compile,` appends the number on the stack. -/
theorem C59_comma (c : Ctx) {v : Cell} {l : List Cell} (h : s.task.s.items = v :: l) (hs : SoundSpace s.ds)
    (hr : RoomFor s.ds 1) :
    ∃ p st d, primOf "compile," = some p ∧ action c p s = .ok ((), { withData s st with ds := d }) ∧
      st.items = l ∧ Extends s.ds [v] d := by
  obtain ⟨h1, h2⟩ := popped h
  obtain ⟨d, h3, h4⟩ := compileCell_run (c := c) (s := withData s s.task.s.pop.2) (vs := []) hs (extends_nil _) hr v
  refine ⟨_, s.task.s.pop.2, d, rfl, ?_, h2, h4⟩
  show compileComma c s = _
  have e : sPop s = .ok (v, withData s s.task.s.pop.2) := by vm_simp [withData, h1]
  rw [compileComma, M.bind_ok e]
  exact h3

/-- C59. What `postpone` left does, later, to memory what naming the word in a definition would do now: for a
word that is not immediate and is compiled in the usual way, both append its number.

The full statement, for all words, is false of immediate words: see `C59_postponed_refuted`. -/
theorem C59_postponed_partial (c : Ctx) {i : Nat} {w : Word} {l : List Cell} (h : s.task.s.items = toCell i :: l)
    (hl : s.wl.words.length ≤ 2 ^ 64) (hw : s.wl.words[i]? = some w) (hc : w.compSem = .word) (hm : w.isImmediate = false)
    (hd : Dict s) (hi : InSpace s) (hn : Newest s (utf8 tok) (some i)) (ht : s.tkn = some tok)
    (hs : SoundSpace s.ds) (hr : RoomFor s.ds 1) :
    ∃ p st d, primOf "_postpone" = some p ∧ action c p s = .ok ((), { withData s st with ds := d }) ∧
      st.items = l ∧ compileToken c s = .ok ((), { s with ds := d }) ∧ Extends s.ds [toCell i] d := by
  obtain ⟨h1, h2⟩ := popped h
  have hlt : i < s.wl.words.length := (List.getElem?_eq_some_iff.1 hw).1
  obtain ⟨d, h3, h4⟩ := compileCell_run (c := c) (s := s) (vs := []) hs (extends_nil _) hr (toCell i)
  have hk : ∀ t : VM, t.ds = s.ds → compileWord c i t = .ok ((), { t with ds := d }) := by
    intro t e
    obtain ⟨d', h5, -⟩ := compileCell_run (c := c) (s := t) (vs := []) (d := s.ds) hs (e ▸ extends_nil _) hr (toCell i)
    rw [compileCell] at h3 h5
    rw [compileWord, h5]
    simp only [dsOp, e] at h3 h5
    split at h3 <;> cases h3
    rename_i x heq
    rw [heq] at h5
    simp only [Except.ok.injEq, Prod.mk.injEq, true_and] at h5
    have := congrArg VM.ds h5
    dsimp only at this
    rw [this]
  have ei : (toCell i).toNat = i := by simp [toCell]; omega
  refine ⟨_, s.task.s.pop.2, d, rfl, ?_, h2, ?_, h4⟩
  · show postponeRt c s = _
    have e : sPop s = .ok (toCell i, withData s s.task.s.pop.2) := by vm_simp [withData, h1]
    rw [postponeRt, M.bind_ok e, ei]
    have e2 : wordAt i (withData s s.task.s.pop.2) = .ok (w, withData s s.task.s.pop.2) := by
      simp [wordAt, withData, VM.setTask, hw]
    rw [M.bind_ok e2, hc]
    exact hk _ rfl
  · have e : takeToken s = .ok (tok, { s with tkn := none }) := by simp [takeToken, ht]
    rw [compileToken, M.bind_ok e]
    obtain ⟨r', f1, f2⟩ := hd.find hi c (utf8 tok)
    have e3 := Newest.unique hn f2
    subst e3
    rw [M.bind_ok (find_congr (s := s) (s' := { s with tkn := none }) rfl rfl f1)]
    dsimp only
    have e4 : putToken tok { s with tkn := none } = .ok ((), s) := by
      cases s; simp_all [putToken]
    have e5 : wordAt i s = .ok (w, s) := by simp [wordAt, hw]
    rw [M.bind_ok e4, M.bind_ok e5, hm, if_neg (by simp), hc]
    exact hk _ rfl

/-- C59. `immediate` marks the newest word and changes nothing else. -/
theorem C59_immediate (c : Ctx) (w : Word) (h : s.wl.words[s.wl.last]? = some w) :
    ∃ p, primOf "immediate" = some p ∧ action c p s = .ok ((), withWord s s.wl.last { w with isImmediate := true }) := by
  refine ⟨_, rfl, ?_⟩
  show immediate s = _
  show modWord s.wl.last _ s = _
  rw [modWord_apply, h]
  rfl

/-- C59. So does `compile-only`. -/
theorem C59_compileOnly (c : Ctx) (w : Word) (h : s.wl.words[s.wl.last]? = some w) :
    ∃ p, primOf "compile-only" = some p ∧
      action c p s = .ok ((), withWord s s.wl.last { w with isCompileOnly := true }) := by
  refine ⟨_, rfl, ?_⟩
  show compileOnly s = _
  show modWord s.wl.last _ s = _
  rw [modWord_apply, h]
  rfl

/-- C59. `recurse` appends the number of the newest word, that is of the definition being compiled, although
it cannot be found by name yet. -/
theorem C59_recurse (c : Ctx) (hd : Dict s) (hw : s.wl.words ≠ []) (hs : SoundSpace s.ds) (hr : RoomFor s.ds 1) :
    ∃ p d, primOf "recurse" = some p ∧ action c p s = .ok ((), { s with ds := d }) ∧
      Extends s.ds [toCell s.wl.last] d := by
  obtain ⟨d, h3, h4⟩ := compileCell_run (c := c) (s := s) (vs := []) hs (extends_nil _) hr (toCell s.wl.last)
  refine ⟨_, d, rfl, ?_, h4⟩
  show immRecurse c s = _
  have hp : 0 < s.wl.words.length := List.length_pos_iff.2 hw
  have e : usub c.oc s.wl.words.length 1 = .ok s.wl.last := by
    rw [usub_ok (by omega)]
    have := hd.last
    congr 1; omega
  have e2 : liftE (usub c.oc s.wl.words.length 1) s = .ok (s.wl.last, s) := by rw [e]; rfl
  rw [immRecurse]
  show (liftE (usub c.oc s.wl.words.length 1) >>= fun last => compileWord c last) s = _
  rw [M.bind_ok e2]
  exact h3

/-- C59. `_postpone` does so for immediate words as well: their number is appended, they do not run. -/
theorem C59_postponed_immediate (c : Ctx) {i : Nat} {w : Word} {l : List Cell} (h : s.task.s.items = toCell i :: l)
    (hl : s.wl.words.length ≤ 2 ^ 64) (hw : s.wl.words[i]? = some w) (hc : w.compSem = .word)
    (hs : SoundSpace s.ds) (hr : RoomFor s.ds 1) :
    ∃ p st d, primOf "_postpone" = some p ∧ action c p s = .ok ((), { withData s st with ds := d }) ∧
      st.items = l ∧ Extends s.ds [toCell i] d := by
  obtain ⟨h1, h2⟩ := popped h
  have hlt : i < s.wl.words.length := (List.getElem?_eq_some_iff.1 hw).1
  obtain ⟨d, h3, h4⟩ := compileCell_run (c := c) (s := withData s s.task.s.pop.2) (vs := []) hs (extends_nil _) hr (toCell i)
  have ei : (toCell i).toNat = i := by simp [toCell]; omega
  refine ⟨_, s.task.s.pop.2, d, rfl, ?_, h2, h4⟩
  show postponeRt c s = _
  have e : sPop s = .ok (toCell i, withData s s.task.s.pop.2) := by vm_simp [withData, h1]
  rw [postponeRt, M.bind_ok e, ei]
  have e2 : wordAt i (withData s s.task.s.pop.2) = .ok (w, withData s s.task.s.pop.2) := by
    simp [wordAt, withData, VM.setTask, hw]
  rw [M.bind_ok e2, hc]
  exact h3

/-- A machine that is compiling, where word 2 is `[`, which is immediate, with that number on the stack. -/
def postponing : VM :=
  let s := demoWith [⟨"", .core .noop, false, false⟩, ⟨"exit", .core .exit, false, false⟩,
    ⟨"[", .core .leftBracket, true, false⟩] ""
  { s.setTask { s.task with s := s.task.s.push 2, st := { s.task.st with isCompiling := true } } with tkn := some ['['] }

/-- C59, refuted in general: what `postpone` left does not always do what naming the word in a definition does.
For the immediate word `[`, naming it leaves compilation, and `_postpone` does not. -/
theorem C59_postponed_refuted :
    ¬∀ (c : Ctx) (s t u : VM) (i : Nat) (l : List Cell) (tok : List Char), s.task.s.items = toCell i :: l →
      Newest s (utf8 tok) (some i) → s.tkn = some tok → postponeRt c s = .ok ((), t) → compileToken c s = .ok ((), u) →
      t.task.st.isCompiling = u.task.st.isCompiling := by
  intro h
  have h0 : succeeds (addTable (ctx demoCfg 2) [⟨"", .core .noop, false, false⟩, ⟨"exit", .core .exit, false, false⟩,
    ⟨"[", .core .leftBracket, true, false⟩]) (VM.blank 1024 8192) = true := by decide +kernel
  obtain ⟨d, i⟩ := C20_table (VM.blank_dict 1024 8192) ⟨by decide, by decide⟩
    (noUnmark_spec (by decide)) (succeeds_spec h0)
  have hd : Dict postponing ∧ InSpace postponing := by
    unfold postponing demoWith
    generalize after (addTable (ctx demoCfg 2) _) (VM.blank 1024 8192) = s at *
    exact ⟨d.congr rfl rfl, i⟩
  obtain ⟨hd, hi⟩ := hd
  obtain ⟨r, f1, f2⟩ := hd.find hi (ctx demoCfg 2) (utf8 ['['])
  have f3 : ((find (ctx demoCfg 2) (utf8 ['[']) postponing).toOption.map (·.1)) = some (some 2) := by decide +kernel
  rw [f1] at f3
  cases f3
  have h1 := h (ctx demoCfg 2) postponing _ _ 2 [] ['['] (by decide +kernel) f2 rfl
    (succeeds_spec (by decide +kernel)) (succeeds_spec (by decide +kernel))
  exact absurd h1 (by decide +kernel)

/-- Non-vacuity: the text ` Exit more`, in a machine where `exit` is word 1. -/
theorem quoting_demo : let s := demo " Exit more"
    Next s [] [' '] "Exit".toList " more".toList ∧ Dict s ∧ InSpace s ∧ Newest s (utf8 "Exit".toList) (some 1) ∧
      s.task.s.items.length < 255 ∧ SoundSpace s.ds ∧ RoomFor s.ds 3 ∧ s.lastError = none := by
  obtain ⟨hd, hi, -⟩ := demo_ok " Exit more"
  obtain ⟨r, f1, f2⟩ := hd.find hi (ctx demoCfg 2) (utf8 "Exit".toList)
  have f3 : ((find (ctx demoCfg 2) (utf8 "Exit".toList) (demo " Exit more")).toOption.map (·.1)) = some (some 1) := by
    decide +kernel
  rw [f1] at f3
  cases f3
  have h1 : ¬0 < (demo " Exit more").task.st.sourceId.toInt := by decide +kernel
  have h2 : (demo " Exit more").task.inbuf = some ([] ++ ([' '] ++ ("Exit".toList ++ " more".toList))) := by
    decide +kernel
  refine ⟨⟨⟨by rw [inputBuffer, if_neg h1, h2], by decide +kernel, by decide +kernel⟩, by decide, by decide,
    (fun ch cs h => by cases h; decide), by decide, ?_⟩,
    hd, hi, f2, by decide +kernel, ⟨by decide +kernel, by decide +kernel, by decide +kernel, by decide +kernel, by decide +kernel⟩,
    by unfold RoomFor; decide +kernel, by decide +kernel⟩
  exact ⟨[], by decide +kernel⟩

/-- Non-vacuity: at the end of the text. -/
example : Next (demo " ") [] [' '] [] [] := by
  have h1 : ¬0 < (demo " ").task.st.sourceId.toInt := by decide +kernel
  have h2 : (demo " ").task.inbuf = some ([] ++ ([' '] ++ ([] ++ []))) := by decide +kernel
  exact ⟨⟨by rw [inputBuffer, if_neg h1, h2], by decide +kernel, by decide +kernel⟩, by decide, by decide,
    (fun ch cs h => by cases h), by decide, [], by decide +kernel⟩

/-- Non-vacuity: a word that is not immediate, and one that is, with their numbers on the stack. -/
example : let s := demo " Exit more"
    let t := { s.setTask { s.task with s := s.task.s.push 1 } with tkn := some "Exit".toList }
    t.task.s.items = [toCell 1] ∧ (t.wl.words[1]?.map fun w => (w.compSem, w.isImmediate)) = some (.word, false) ∧
      t.wl.words.length ≤ 2 ^ 64 ∧ postponing.task.s.items = [toCell 2] ∧
      (postponing.wl.words[2]?.map fun w => (w.compSem, w.isImmediate)) = some (.word, true) := by decide +kernel

/-- Non-vacuity: a newest word, and what `immediate` makes of it. -/
example : let s := demo ""
    s.wl.last = 5 ∧ s.wl.words[5]?.map (·.isImmediate) = some false ∧
      (after immediate s).wl.words[5]?.map (·.isImmediate) = some true := by decide +kernel

end Verif
