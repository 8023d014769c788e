import Verif.Lemmas.Status
import Verif.Lemmas.Dictionary
import Verif.Lemmas.NumberWords
import Verif.Lemmas.Text
import Verif.Lemmas.Change
import Verif.Lemmas.Demo

/-!
# C58: words that report or set the state of the machine
-/

namespace Verif
open Spec Stack

/-- C58. Every reporting word exists, and when there is room it pushes the number it reports and
changes nothing else. -/
theorem C58_reports (c : Ctx) (name : String) (f : VM → Int) (h : (name, f) ∈ reports) :
    ∃ p, primOf name = some p ∧ ∀ s : VM, s.task.s.items.length < 255 →
      ∃ st, action c p s = .ok ((), withData s st) ∧ st.items = wrap (f s) :: s.task.s.items :=
  reports_ok _ h

/-- C58. The words for address arithmetic compute exactly, in a build that checks overflow as long as the
result is a cell. -/
theorem C58_addresses (c : Ctx) (name : String) (f : Int → Int) (h : (name, f) ∈ addresses) :
    ∃ p, primOf name = some p ∧ ∀ (s : VM) (v : Cell) (l : List Cell), s.task.s.items = v :: l →
      (c.oc = true → -2 ^ 63 ≤ f v.toInt ∧ f v.toInt < 2 ^ 63) →
      ∃ st, action c p s = .ok ((), withData s st) ∧ st.items = wrap (f v.toInt) :: l :=
  addresses_ok _ h

/-- C58. The words that set something set exactly that. -/
theorem C58_settings (c : Ctx) (name : String) (f : VM → VM) (h : (name, f) ∈ settings) :
    ∃ p, primOf name = some p ∧ ∀ s, action c p s = .ok ((), f s) :=
  settings_ok _ h

/-- C58. So do those that take the value from the stack. -/
theorem C58_takers (c : Ctx) (name : String) (f : Cell → VM → VM) (h : (name, f) ∈ takers) :
    ∃ p, primOf name = some p ∧ ∀ (s : VM) (v : Cell) (l : List Cell), s.task.s.items = v :: l →
      ∃ st, action c p s = .ok ((), f v (withData s st)) ∧ st.items = l :=
  takers_ok _ h

/-- C58. The words that print something about the machine print exactly that. -/
theorem C58_texts (c : Ctx) (name : String) (f : VM → List Byte) (h : (name, f) ∈ texts) :
    ∃ p, primOf name = some p ∧ ∀ s : VM, ∃ t, action c p s = .ok ((), t) ∧ Prints (f s) s t :=
  texts_ok _ h

/-- C58. `pi` pushes the float nearest to π and does nothing else. -/
theorem C58_pi (c : Ctx) (s : VM) (h : s.task.f.items.length < 255) :
    ∃ p f, primOf "pi" = some p ∧ action c p s = .ok ((), s.setTask { s.task with f := f }) ∧
      f.items = 0x400921FB54442D18 :: s.task.f.items :=
  ⟨_, _, rfl, rfl, items_eq_iff.2 ((rep_items s.task.f).push h _)⟩

/-- C58. `0stacks` empties the data, float and control stacks of the running task, with their guards in
place, and changes nothing else. -/
theorem C58_clear (c : Ctx) (s : VM) :
    ∃ p d f k, primOf "0stacks" = some p ∧ action c p s = .ok ((), s.setTask { s.task with s := d, f := f, c := k }) ∧
      d.items = [] ∧ f.items = [] ∧ k.items = [] ∧ d.underflow = false ∧ f.underflow = false ∧ k.underflow = false :=
  ⟨_, _, _, _, rfl, rfl, rfl, rfl, rfl, by simp [Stack.underflow, Stack.reset], by simp [Stack.underflow, Stack.reset],
    by simp [Stack.underflow, Stack.reset]⟩

/-- C58. `.input` prints the line being read, all of it, and does not lose it. -/
theorem C58_input (c : Ctx) (s : VM) (txt : List Char) (h : inputBuffer s.task = .ok (some txt)) :
    ∃ p t, primOf ".input" = some p ∧ action c p s = .ok ((), t) ∧ Prints (utf8 txt) s t := by
  obtain ⟨t, h1, h2, -, -, -, -, -, h3⟩ := takeInput_ok h
  refine ⟨_, _, rfl, ?_, rfl⟩
  show dotInput s = _
  have e : t.st.sourceId = s.task.st.sourceId ∧ { t with lines := s.task.lines, inbuf := s.task.inbuf } = s.task := by
    simp only [setInputBuffer] at h1
    split at h1
    · split at h1 <;> cases h1; exact ⟨rfl, rfl⟩
    · cases h1; exact ⟨rfl, rfl⟩
  have h4 := h3 t rfl rfl e.1 txt rfl
  rw [dotInput]
  simp only [M.bind_apply, h2, outBytes_run, putInput]
  have ht : ((s.setTask t).setOutbuf ((s.setTask t).outbuf.map (· ++ utf8 txt))).task = t := VM.task_setTask s t
  simp only [ht, h4, e.2]
  simp only [VM.setTask, VM.setOutbuf] 
  congr 3
  funext i
  split
  · subst_vars; rfl
  · rfl

/-- C58. `.word` takes a word number, and prints the name of the word followed by a blank, or `unknown `. -/
theorem C58_word (c : Ctx) (s : VM) (hd : Dict s) (hi : InSpace s) (v : Cell) (l : List Cell)
    (h : s.task.s.items = v :: l) (ho : s.outbuf ≠ none) :
    ∃ p t st, primOf ".word" = some p ∧ action c p s = .ok ((), t) ∧ st.items = l ∧
      Prints (match s.wl.words[v.toNat]? with | some w => nameIn s.ds w ++ [32] | none => ascii "unknown ")
        (withData s st) t := by
  refine ⟨_, _, _, rfl, ?_, (popped h).2, rfl⟩
  show dotWord c s = _
  obtain ⟨b, hb⟩ := Option.ne_none_iff_exists'.1 ho
  rw [dotWord]
  vm_simp [hb, (popped h).1]
  cases hw : s.wl.words[v.toNat]? with
  | some w =>
    simp only [nameOf, hd.getStr hi hw, liftE_ok, M.bind_apply, outBytes_run]
    rfl
  | none =>
    simp only [outBytes_run]
    rfl

theorem padding_fits {oc : Bool} {w : Cell} {k : Nat} (hl : k < 2 ^ 62) (hw : -2 ^ 62 ≤ w.toInt) :
    padding oc w k = .ok (List.replicate (w.toInt - k).toNat 32) := by
  have hlen : (toCell k).toInt = k := by rw [toCell, toInt_ofNat_small (by omega)]
  have hlt := BitVec.toInt_lt (x := w)
  have hsub : isub oc w (toCell k) = .ok (w - toCell k) := by
    rw [isub, if_pos]
    simp only [inIsize, hlen]
    omega
  have hval : (w - toCell k).toInt = w.toInt - k := by
    rw [BitVec.toInt_sub, hlen]
    apply Int.bmod_eq_of_le_mul_two <;> omega
  simp only [padding, hsub, Except.ok_bind', hval]

/-- C58. `r n1 n2 f.r` prints the host's decimal text of the float `r` with `n2` digits after the point, but
17 if `n2` is not one of 0 to 16, after as many blanks as are needed to fill `n1` places. Apart from the
scratch buffer nothing else changes. -/
theorem C58_fdot (c : Ctx) (s : VM) (n1 n2 : Cell) (r : F64) (l : List Cell) (fl : List F64) (txt : List Byte)
    (h : s.task.s.items = n2 :: n1 :: l) (hf : s.task.f.items = r :: fl) (ho : s.outbuf ≠ none)
    (ht : txt = c.cfg.fops.fmt (if 0 ≤ n2.toInt ∧ n2.toInt ≤ 16 then n2.toNat else 17) r)
    (hl : txt.length < 2 ^ 62) (hw : -2 ^ 62 ≤ n1.toInt) :
    ∃ p st fs t, primOf "f.r" = some p ∧ action c p s = .ok ((), t) ∧ st.items = l ∧ fs.items = fl ∧
      Prints (List.replicate (n1.toInt - txt.length).toNat 32 ++ txt)
        { s.setTask { s.task with s := st, f := fs } with hldbuf := txt } t := by
  have hr := items_eq_iff.1 h
  have hfr := items_eq_iff.1 hf
  have e2 := hr.pop2_fst
  obtain ⟨b, hb⟩ := Option.ne_none_iff_exists'.1 ho
  refine ⟨_, _, _, _, rfl, ?_, items_eq_iff.2 hr.toPop2.rep, items_eq_iff.2 hfr.pop_snd, rfl⟩
  show fdotR c s = _
  have hn : (if n2.toNat ≤ 16 then n2.toNat else 17) = if 0 ≤ n2.toInt ∧ n2.toInt ≤ 16 then n2.toNat else 17 := by
    have hlt := n2.isLt
    have := BitVec.toInt_eq_toNat_cond n2
    split at this
    · by_cases h3 : n2.toNat ≤ 16
      · rw [if_pos h3, if_pos (by omega)]
      · rw [if_neg h3, if_neg (by omega)]
    · rw [if_neg (by omega), if_neg (by omega)]
  rw [fdotR]
  vm_simp [hfr.pop_fst, e2, hb, hn, ← ht, padding_fits hl hw, Option.map_some]
  rfl

/-- C58. `>body` and `>name` give the addresses of the body and of the name of a word. -/
theorem C58_fields (c : Ctx) (s : VM) (v : Cell) (l : List Cell) (h : s.task.s.items = v :: l) (w : Word)
    (hw : s.wl.words[v.toNat]? = some w) :
    (∃ p st, primOf ">body" = some p ∧ action c p s = .ok ((), withData s st) ∧ st.items = wrap w.dfa :: l) ∧
    ∃ p st, primOf ">name" = some p ∧ action c p s = .ok ((), withData s st) ∧ st.items = wrap w.nfa :: l := by
  refine ⟨⟨_, _, rfl, ?_, replaced h⟩, ⟨_, _, rfl, ?_, replaced h⟩⟩
  · show toBody c s = _
    rw [toBody]
    vm_simp [(popped h).1, hw, wrap_nat]
    rfl
  · show toName c s = _
    rw [toName]
    vm_simp [(popped h).1, hw, wrap_nat]
    rfl

/-- C58. A number that is not that of a word makes them raise an error. -/
theorem C58_no_fields (c : Ctx) (s : VM) (v : Cell) (l : List Cell) (h : s.task.s.items = v :: l)
    (hw : s.wl.words[v.toNat]? = none) (name : String) (hn : name = ">body" ∨ name = ">name") :
    ∃ p st, primOf name = some p ∧ st.items = l ∧
      action c p s = abortWith c .invalidNumericArgument (withData s st) := by
  rcases hn with rfl | rfl
  · refine ⟨_, _, rfl, (popped h).2, ?_⟩
    show toBody c s = _
    rw [toBody]
    vm_simp [(popped h).1, hw]
    rfl
  · refine ⟨_, _, rfl, (popped h).2, ?_⟩
    show toName c s = _
    rw [toName]
    vm_simp [(popped h).1, hw]
    rfl

/-- C58. `.source-path` prints the name of the file of an open source, and `.source-line` prints the line of it that was read
last, without its end. -/
theorem C58_source_texts (c : Ctx) (s : VM) (v : Cell) (l : List Cell) (h : s.task.s.items = v :: l) (hv : 0 < v.toInt) :
    (∀ x, s.task.sources[v.toNat - 1]? = some (some x) → ∃ p st t, primOf ".source-path" = some p ∧ st.items = l ∧
      action c p s = .ok ((), t) ∧ Prints x.path (withData s st) t) ∧
    (∀ y, s.task.lines[v.toNat - 1]? = some (some y) → ∃ p st t, primOf ".source-line" = some p ∧ st.items = l ∧
      action c p s = .ok ((), t) ∧ Prints (utf8 y) (withData s st) t) := by
  refine ⟨fun x hx => ?_, fun y hy => ?_⟩
  · obtain ⟨t, h1, h2⟩ := outBytes_prints x.path (withData s s.task.s.pop.2)
    refine ⟨_, _, t, rfl, (popped h).2, ?_, h2⟩
    show dotSourcePath c s = _
    rw [dotSourcePath]
    vm_simp [(popped h).1]
    simp only [if_pos hv, hx]
    exact h1
  · obtain ⟨t, h1, h2⟩ := outBytes_prints (utf8 y) (withData s s.task.s.pop.2)
    refine ⟨_, _, t, rfl, (popped h).2, ?_, h2⟩
    show dotSourceLine c s = _
    rw [dotSourceLine]
    vm_simp [(popped h).1]
    simp only [if_pos hv, hy]
    exact h1

/-- C58. For any other number they print nothing and raise an error. -/
theorem C58_no_source_texts (c : Ctx) (s : VM) (v : Cell) (l : List Cell) (h : s.task.s.items = v :: l) :
    ((0 < v.toInt → ∀ x, s.task.sources[v.toNat - 1]? ≠ some (some x)) → ∃ p st, primOf ".source-path" = some p ∧ st.items = l ∧
      action c p s = abortWith c .invalidNumericArgument (withData s st)) ∧
    ((0 < v.toInt → ∀ y, s.task.lines[v.toNat - 1]? ≠ some (some y)) → ∃ p st, primOf ".source-line" = some p ∧ st.items = l ∧
      action c p s = abortWith c .invalidNumericArgument (withData s st)) := by
  refine ⟨fun hx => ⟨_, _, rfl, (popped h).2, ?_⟩, fun hy => ⟨_, _, rfl, (popped h).2, ?_⟩⟩
  · show dotSourcePath c s = _
    rw [dotSourcePath]
    vm_simp [(popped h).1]
    by_cases hv : 0 < v.toInt
    · rw [if_pos hv]
      cases h2 : s.task.sources[v.toNat - 1]? with
      | none => rfl
      | some x =>
        cases x with
        | none => rfl
        | some x => exact absurd h2 (hx hv x)
    · rw [if_neg hv]
      rfl
  · show dotSourceLine c s = _
    rw [dotSourceLine]
    vm_simp [(popped h).1]
    by_cases hv : 0 < v.toInt
    · rw [if_pos hv]
      cases h2 : s.task.lines[v.toNat - 1]? with
      | none => rfl
      | some x =>
        cases x with
        | none => rfl
        | some x => exact absurd h2 (hy hv x)
    · rw [if_neg hv]
      rfl

/-- C58. `source-id!` selects a source that is there. -/
theorem C58_source (c : Ctx) (s : VM) (v : Cell) (l : List Cell) (h : s.task.s.items = v :: l) (hs : SourceThere s v) :
    ∃ p st, primOf "source-id!" = some p ∧ st.items = l ∧
      action c p s = .ok ((), s.setTask { s.task with s := st, st := { s.task.st with sourceId := v } }) := by
  refine ⟨_, _, rfl, (popped h).2, ?_⟩
  show pSetSourceId c s = _
  rw [pSetSourceId]
  vm_simp [(popped h).1, setSourceId]
  rcases hs with rfl | ⟨h1, ⟨x, h2⟩, y, h3⟩
  · rfl
  · simp only [if_pos h1, h2, h3]
    vm_simp

/-- C58. Another number makes it raise an error. -/
theorem C58_no_source (c : Ctx) (s : VM) (v : Cell) (l : List Cell) (h : s.task.s.items = v :: l)
    (hs : ¬SourceThere s v) (hl : s.task.lines.length = s.task.sources.length) :
    ∃ p st, primOf "source-id!" = some p ∧ st.items = l ∧
      action c p s = abortWith c .invalidNumericArgument (withData s st) := by
  refine ⟨_, _, rfl, (popped h).2, ?_⟩
  show pSetSourceId c s = _
  rw [pSetSourceId]
  vm_simp [(popped h).1, setSourceId]
  by_cases h0 : v = 0
  · exact absurd (.inl h0) hs
  by_cases h1 : 0 < v.toInt
  · rw [if_pos h1]
    cases h2 : s.task.sources[v.toNat - 1]? with
    | none => rfl
    | some x =>
      cases x with
      | none => rfl
      | some x =>
        cases h3 : s.task.lines[v.toNat - 1]? with
        | none =>
          have := List.getElem?_eq_none_iff.1 h3
          have := (List.getElem?_eq_some_iff.1 h2).1
          omega
        | some y =>
          cases y with
          | none => rfl
          | some y => exact absurd (.inr ⟨h1, ⟨x, h2⟩, y, h3⟩) hs
  · rw [if_neg h1, if_neg h0]
    rfl

theorem popTaskId_in {c : Ctx} {s : VM} {v : Cell} {l : List Cell} (h : s.task.s.items = v :: l) {k : Fin 5}
    (hv : v.toNat = k.val + 1) : popTaskId c s = .ok (some k, withData s s.task.s.pop.2) := by
  have hk := k.isLt
  have e : isub c.oc v 1 = .ok (v - 1) := by
    rw [isub, if_pos]
    have : v.toInt = v.toNat := by rw [BitVec.toInt_eq_toNat_of_lt]; omega
    simp [inIsize, this]
    omega
  rw [popTaskId]
  vm_simp [(popped h).1, e]
  have e2 : (v - 1).toNat = k.val := by bv_omega
  rw [dif_pos (by omega)]
  simp only [e2]
  rfl

theorem popTaskId_out {c : Ctx} {s : VM} {v : Cell} {l : List Cell} (h : s.task.s.items = v :: l)
    (hv : v = 0 ∨ 6 ≤ v.toNat) (hm : v ≠ BitVec.intMin 64) :
    popTaskId c s = .ok (none, withData s s.task.s.pop.2) := by
  have e : isub c.oc v 1 = .ok (v - 1) := by
    rw [isub, if_pos]
    have := BitVec.toInt_lt (x := v)
    have h2 := BitVec.le_toInt v
    have h3 : v.toInt ≠ -9223372036854775808 := by
      intro h3
      apply hm
      rw [← BitVec.toInt_inj, h3]
      decide
    simp [inIsize]
    simp at h2
    omega
  rw [popTaskId]
  vm_simp [(popped h).1, e]
  have hlt := v.isLt
  rw [dif_neg (by rcases hv with rfl | hv <;> bv_omega)]
  rfl

/-- C58. `suspend` and `resume` put one task to sleep and wake it, and change nothing else. -/
theorem C58_awake (c : Ctx) (s : VM) (v : Cell) (l : List Cell) (h : s.task.s.items = v :: l) (k : Fin 5)
    (hv : v.toNat = k.val + 1) (name : String) (on : Bool) (hn : (name, on) ∈ [("suspend", false), ("resume", true)]) :
    ∃ p st, primOf name = some p ∧ st.items = l ∧ action c p s =
      .ok ((), (withData s st).setTaskAt k { (withData s st).tasks k with awake := on }) := by
  have key : setAwakeWord c on s =
      .ok ((), (withData s s.task.s.pop.2).setTaskAt k { (withData s s.task.s.pop.2).tasks k with awake := on }) := by
    rw [setAwakeWord, M.bind_apply, popTaskId_in h hv]
    rfl
  simp only [List.mem_cons, List.not_mem_nil, or_false, Prod.mk.injEq] at hn
  rcases hn with ⟨rfl, rfl⟩ | ⟨rfl, rfl⟩
  · exact ⟨_, _, rfl, (popped h).2, key⟩
  · exact ⟨_, _, rfl, (popped h).2, key⟩

/-- C58. For a number of no task they raise an error. -/
theorem C58_no_task (c : Ctx) (s : VM) (v : Cell) (l : List Cell) (h : s.task.s.items = v :: l)
    (hv : v = 0 ∨ 6 ≤ v.toNat) (hm : v ≠ BitVec.intMin 64) (name : String) (hn : name ∈ ["suspend", "resume"]) :
    ∃ p st, primOf name = some p ∧ st.items = l ∧
      action c p s = abortWith c .invalidNumericArgument (withData s st) := by
  have key (on : Bool) : setAwakeWord c on s = abortWith c .invalidNumericArgument (withData s s.task.s.pop.2) := by
    rw [setAwakeWord, M.bind_apply, popTaskId_out h hv hm]
  simp only [List.mem_cons, List.not_mem_nil, or_false] at hn
  rcases hn with rfl | rfl
  · exact ⟨_, _, rfl, (popped h).2, key false⟩
  · exact ⟨_, _, rfl, (popped h).2, key true⟩

theorem setSourceId_zero (c : Ctx) (s : VM) :
    setSourceId c 0 s = .ok ((), s.setTask { s.task with st := { s.task.st with sourceId := 0 } }) := by
  rw [setSourceId]
  vm_simp
  rw [if_neg (by decide), if_pos trivial]

theorem clearInput_terminal {s : VM} (h : s.task.st.sourceId = 0) :
    clearInput s = .ok ((), s.setTask { s.task with inbuf := s.task.inbuf.map fun _ => [] }) := by
  have h' : ¬ 0 < s.task.st.sourceId.toInt := by rw [h]; decide
  rw [clearInput]
  vm_simp [takeInput, inputBuffer, setInputBuffer, if_neg h']
  cases hb : s.task.inbuf with
  | none => rfl
  | some b =>
    vm_simp [putInput, setInputBuffer, if_neg h']
    rfl

theorem reset_run (c : Ctx) (s : VM) :
    reset c s = .ok ((), { s.setTask (fresh s.task) with lastError := none }) := by
  rw [reset]
  vm_simp [setSourceId_zero]
  rw [clearInput_terminal (by rw [VM.task_setTask])]
  vm_simp [leftBracket]
  rfl

/-- C58. `reset` makes the running task start afresh: it forgets its return addresses, the source it was
reading, the rest of the line and the error, and interprets. Its other stacks and everything else are as
before. -/
theorem C58_reset (c : Ctx) (s : VM) :
    ∃ p, primOf "reset" = some p ∧ action c p s = .ok ((), { s.setTask (fresh s.task) with lastError := none }) ∧
      (fresh s.task).r.items = [] ∧ (fresh s.task).r.underflow = false :=
  ⟨_, rfl, reset_run c s, rfl, by simp [fresh, Stack.underflow, Stack.reset]⟩

/-- C58. `activate` wakes another task, which starts with the code after `activate`, and returns from the
word it is in; the pending error is forgotten. -/
theorem C58_activate (c : Ctx) (s : VM) (v x : Cell) (l rl : List Cell) (h : s.task.s.items = v :: l)
    (hr : s.task.r.items = x :: rl) (k : Fin 5) (hv : v.toNat = k.val + 1) (hk : k ≠ s.cur) :
    ∃ p t st rt, primOf "activate" = some p ∧ action c p s = .ok ((), t) ∧ st.items = l ∧ rt.items = rl ∧
      t = { (s.setTask { s.task with s := st, r := rt, st := { s.task.st with ip := x.toNat } }).setTaskAt k
              (activated (s.tasks k) s.task.st.ip) with lastError := none } := by
  have hr' : Rep s.task.r (x :: rl) := hr ▸ rep_items s.task.r
  refine ⟨_, _, _, _, rfl, ?_, (popped h).2, items_eq_iff.2 hr'.pop_snd, rfl⟩
  show activate c s = _
  rw [activate, M.bind_apply, popTaskId_in h hv]
  have hck : s.cur ≠ k := fun e => hk e.symm
  simp only [setAwake, M.bind_apply, modVM_run, getVM_apply, setCur, reset_run, setIp, modSt_apply, rPop_apply]
  have hc : (withData s s.task.s.pop.2).tasks k = s.tasks k := by simp [withData, VM.setTask, hk]
  have hx : s.task.r.pop.1 = x := hr'.pop_fst
  simp only [VM.setTask, VM.setTaskAt, VM.task, withData, activated, fresh] at *
  congr 3
  · funext i
    by_cases h1 : i = k
    · subst h1; simp [hk, hck]
    · by_cases h2 : i = s.cur
      · subst h2; simp [hck, hx]
      · simp [h1, h2]

/-! Examples. -/

/-- A machine with two items on the data stack and one on the return stack. -/
def statusDemo : VM :=
  let s := VM.blank 1024 8192
  s.setTask { s.task with s := (s.task.s.push 3).push 2, r := s.task.r.push 5 }

example : ("utime", fun s : VM => ((s.now / 10 ^ 3 : Nat) : Int)) ∈ reports ∧ statusDemo.task.s.items.length < 255 :=
  ⟨List.mem_of_getElem? (i := 3) rfl, by decide +kernel⟩
example : ("cells", fun i : Int => i * 8) ∈ addresses := List.mem_of_getElem? (i := 2) rfl
example : statusDemo.task.s.items = [2, 3] ∧ statusDemo.task.r.items = [5] ∧ statusDemo.cur ≠ 1 ∧
    (2 : Cell).toNat = (1 : Fin 5).val + 1 := by decide +kernel
example : statusDemo.outbuf ≠ none ∧ SourceThere statusDemo 0 ∧ ¬SourceThere statusDemo 7 := by
  refine ⟨by decide +kernel, .inl rfl, ?_⟩
  rintro (h | ⟨-, ⟨x, h⟩, -⟩)
  · exact absurd h (by decide)
  · cases h
example : inputBuffer statusDemo.task = .ok (some []) := rfl
/-- An open source, for C58_source_texts; for C58_no_source_texts there is none in `statusDemo`. -/
example (f : Handle) : ∃ s : VM, s.task.s.items = [2] ∧ s.task.sources[(2 : Cell).toNat - 1]? = some (some ⟨f, ascii "a.fth"⟩) ∧
    s.task.lines[(2 : Cell).toNat - 1]? = some (some "1 .".toList) ∧ statusDemo.task.sources[(2 : Cell).toNat - 1]? = none :=
  ⟨statusDemo.setTask { statusDemo.task with
    s := (Stack.new cellCanary).push 2, sources := [none, some ⟨f, ascii "a.fth"⟩], lines := [some [], some "1 .".toList] }, rfl, rfl, rfl, rfl⟩

end Verif
