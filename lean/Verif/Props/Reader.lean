import Verif.Lemmas.Reader
import Verif.Lemmas.Does
import Verif.Lemmas.Booted
import Verif.Lemmas.Machine
import Verif.Lemmas.Basic
import Verif.Props.Errors
import Verif.Props.Numbers

/-!
# C64: the interpreter of core.fth does what the interpreter in Rust does
-/

namespace Verif
open Spec Stack

section
variable {lv lo hi n room i : Nat} {a b s t : VM} {cfg : Cfg} {ix : String → Nat} {toks : List (List Char)} {tok : List Char}
  {w : Word}

theorem Spec.HasReader.loaded (h : HasReader lv lo hi ix s) : Loaded s.refs lv s.wl lo hi s.cur s.ds s :=
  ⟨rfl, rfl, rfl, fun _ _ _ => rfl, h.words, fun _ w hw => ⟨w, hw, rfl, rfl⟩⟩

/-- C64. The word `evaluate-input` of core.fth evaluates the tokens of the input one after the other, each as Rust's
`compile_token` or `interpret_token` does, up to the end of the input, and returns to where it was called. The code of
the word has to stay in place while this is done. -/
theorem C64_forth (h : HasReader lv lo hi ix s) (hw : Works cfg n room (Loaded s.refs lv s.wl lo hi s.cur s.ds) toks s t)
    (hd : (data s).length < capacity) (hr : (ret s).length + 1 + room ≤ capacity) :
    Acts cfg (n + 1) (ix "evaluate-input") s (setRet t (ret s)) := by
  have := call_reader (r := ret s) h.region h.uses h.coded hw hd (Nat.le_of_lt (hw.room hd)) hr
  rw [setRet_self] at this
  exact (this h.loaded).1

/-- C64. Rust's `evaluate_input` does the same. -/
theorem C64_rust (h : HasReader lv lo hi ix s) (hw : Works cfg n room (Loaded s.refs lv s.wl lo hi s.cur s.ds) toks s t)
    (hI : Idle s) (he : s.lastError = none) (hr : (ret s).length + room ≤ capacity) :
    ∃ N t1, (∀ fuel, evaluateInput cfg n (fuel + N) s = .ok ((), t1)) ∧ Like t1 (setRet t (ret s)) ∧ pc t1 = pc s := by
  exact works_rust hw h.loaded he hr s (by rw [setRet_self]; exact .refl _) hI

/-- C64. So the two agree: called on an idle machine, the word of core.fth leads to a machine that differs from the one
Rust's `evaluate_input` leaves in nothing but unused places of the stacks and the word pointer. -/
theorem C64_agree (h : HasReader lv lo hi ix s) (hw : Works cfg n room (Loaded s.refs lv s.wl lo hi s.cur s.ds) toks s t)
    (hI : Idle s) (he : s.lastError = none) (hd : (data s).length < capacity) (hr : (ret s).length + 1 + room ≤ capacity) :
    ∃ N t1 s2 t2, (∀ fuel, evaluateInput cfg n (fuel + N) s = .ok ((), t1)) ∧
      execWord cfg (n + 1) (ix "evaluate-input") s = .ok ((), s2) ∧ Steps cfg (n + 1) s2 t2 ∧ Like t2 t1 ∧ pc t2 = pc t1 := by
  obtain ⟨N, t1, h1, h2, h3⟩ := C64_rust h hw hI he (by omega)
  obtain ⟨s2, t2, g1, -, g3, g4, g5⟩ := C64_forth h hw hd hr s (.refl _) (by have := hI.2; omega)
  exact ⟨N, t1, s2, t2, h1, g1, g3, g4.trans h2.symm, g5.trans h3.symm⟩

/-! ### What tokens do -/

theorem parts_setRet {s1 : VM} {r : List Cell} (h : Like s1 (setRet a r)) :
    s1.wl = a.wl ∧ s1.ds = a.ds ∧ s1.tkn = a.tkn ∧ s1.lastError = a.lastError ∧ s1.refs = a.refs ∧ s1.handler = a.handler ∧
      s1.task.st.isCompiling = a.task.st.isCompiling ∧ data s1 = data a := by
  refine ⟨h.wl, h.ds, ?_, ?_, ?_, ?_, ?_, ?_⟩
  · obtain ⟨_, _, _, _, _, -, -, -, rfl⟩ := h; rfl
  · obtain ⟨_, _, _, _, _, -, -, -, rfl⟩ := h; rfl
  · obtain ⟨_, _, _, _, _, -, -, -, rfl⟩ := h; rfl
  · obtain ⟨_, _, _, _, _, -, -, -, rfl⟩ := h; rfl
  · obtain ⟨_, _, _, _, _, -, -, -, e⟩ := h.task; rw [e]; simp [setRet]
  · refine h.data.trans ?_; simp [data, setRet]

/-- C64. A token that names a word is evaluated by executing the word, if the machine interprets and the word is not for
compiling only, or if the machine compiles and the word is immediate. -/
theorem C64_word (d : Dict a) (hi : InSpace a) (ht : a.tkn = some tok) (hn : Newest a (utf8 tok) (some i))
    (hw : a.wl.words[i]? = some w) (hm : if a.task.st.isCompiling then w.isImmediate = true else w.isCompileOnly = false)
    (hx : ∀ r : List Cell, r.length + room ≤ capacity → Acts cfg n i (setRet a r) (setRet b r))
    (he : b.lastError = a.lastError) (hd : (data b).length < capacity)
    (hc : Calm b.task.s ∧ Calm b.task.r ∧ Calm b.task.c ∧ Calm b.task.f) : Evaluates cfg n room a b := by
  refine ⟨fun r hr s1 hl hpc => ?_, he, hd, hc⟩
  obtain ⟨s2, t1, f⟩ := hx r hr s1 hl hpc
  obtain ⟨g1, g2, g3, -, -, -, g7, -⟩ := parts_setRet hl
  refine ⟨s2, t1, ?_, f.2⟩
  have hi' : InSpace s1 := by simpa only [InSpace, g2] using hi
  have hn' : Newest s1 (utf8 tok) (some i) := by simpa only [Newest, Visible, g1, g2] using hn
  have hw' : s1.wl.words[i]? = some w := by rw [g1]; exact hw
  rw [← g7] at hm
  cases hq : s1.task.st.isCompiling
  · rw [hq] at hm
    exact (C33_interpret (c := ctx cfg n) (d.congr g1 g2) hi' (g3.trans ht) hn' hw' hq (by simpa using hm)).trans f.1
  · rw [hq] at hm
    exact (C33_immediate (c := ctx cfg n) (d.congr g1 g2) hi' (g3.trans ht) hn' hw' hq (by simpa using hm)).trans f.1

/-- C64. For instance a token that names one of the built-in words on the data stack. -/
theorem C64_effect (hR : Runtime a.refs lv a.wl) (d : Dict a) (hi : InSpace a) (ht : a.tkn = some tok)
    (hn : Newest a (utf8 tok) (some i)) (hw : a.wl.words[i]? = some w) (hm : a.task.st.isCompiling = false)
    (ho : w.isCompileOnly = false) {name : String} {e : Effect} {ys : List Cell} (he : (name, e) ∈ effects)
    (hp : primOf name = some w.action) (hy : e (data a) = some ys) (hl : (data a).length ≤ capacity)
    (hyl : ys.length < capacity) (hc : Calm a.task.s ∧ Calm a.task.r ∧ Calm a.task.c ∧ Calm a.task.f) :
    Evaluates cfg (n + 1) room a (setData a ys) := by
  have hcap : capacity = 64 := rfl
  refine C64_word (w := w) d hi ht hn hw (by rw [hm]; exact ho) (fun r hr => ?_) rfl (by rw [data_setData (by omega)]; exact hyl)
    ⟨by simpa [setData] using hc.1.holding (by omega), by simpa [setData] using hc.2.1, by simpa [setData] using hc.2.2.1,
      by simpa [setData] using hc.2.2.2⟩
  have hda : data (setRet a r) = data a := by simp [data, setRet]
  have e1 : setRet (setData a ys) r = setData (setRet a r) ys := by simp [setRet, setData]
  rw [e1]
  have g : Region a.ds a.ds.start a.ds.start := ⟨Nat.le_refl _, by simp, hi.1⟩
  have hL : Loaded a.refs lv a.wl a.ds.start a.ds.start a.cur a.ds (setRet a r) :=
    ⟨rfl, rfl, rfl, fun _ _ _ => rfl, hR, fun _ w hw => ⟨w, hw, rfl, rfl⟩⟩
  exact (basic_acts g hL (.effect hw he hp (by rw [hda]; exact hy) (by rw [hda]; exact hl) (by omega))).1

/-- C64. A token that names any other word is evaluated, when the machine compiles, by compiling a call of it. -/
theorem C64_compile (d : Dict a) (hi : SoundSpace a.ds) (ht : a.tkn = some tok) (hn : Newest a (utf8 tok) (some i))
    (hw : a.wl.words[i]? = some w) (hm : a.task.st.isCompiling = true) (hq : w.isImmediate = false) (hs : w.compSem = .word)
    (hr : RoomFor a.ds 1) (hd : (data a).length < capacity)
    (hc : Calm a.task.s ∧ Calm a.task.r ∧ Calm a.task.c ∧ Calm a.task.f) :
    Evaluates cfg n room a { a with ds := appended a.ds (toCell i) } := by
  refine ⟨fun r hr' s1 hl hpc => ?_, rfl, hd, hc⟩
  obtain ⟨g1, g2, g3, -, -, -, g7, -⟩ := parts_setRet hl
  have hi' : InSpace s1 := by simpa only [InSpace, g2] using (⟨hi.small, hi.inside⟩ : InSpace a)
  have hn' : Newest s1 (utf8 tok) (some i) := by simpa only [Newest, Visible, g1, g2] using hn
  have hw' : s1.wl.words[i]? = some w := by rw [g1]; exact hw
  refine ⟨{ s1 with ds := appended a.ds (toCell i) }, _, ?_, rfl, .refl _, ?_, rfl⟩
  · have e : evalToken (ctx cfg n) s1 = compileToken (ctx cfg n) s1 := by
      rw [evalToken, M.bind_apply, getSt_apply]; dsimp only; rw [g7, hm]; rfl
    rw [e]
    refine (token_found (d.congr g1 g2) hi' (g3.trans ht) hn' hw' _).trans ?_
    rw [hq, hs]
    show compileWord _ i s1 = _
    rw [← g2] at hi hr ⊢
    simp only [RoomFor, DataSpace.here, DataSpace.limit] at hr
    rw [compileWord, dsOp_ok (ds_compileCell hi _ (by simp only [DataSpace.here, DataSpace.limit]; omega))]
    rfl
  · obtain ⟨ip, wp, ds, rs, fs, k1, k2, k3, k4⟩ := hl
    exact ⟨ip, wp, ds, rs, fs, k1, k2, k3, by rw [k4]; rfl⟩

/-- C64. A token that is no word and is an integer is evaluated, when the machine interprets, by pushing it. -/
theorem C64_integer {v : Cell} (hs : SoundSpace a.ds) (hu : UnknownToken (ctx cfg n) a tok) (hm : a.task.st.isCompiling = false)
    (hv : IntegerToken (currentBase a).toInt (utf8 tok) v) (he : a.lastError = none) (hd : (data a).length + 1 < capacity)
    (hc : Calm a.task.s ∧ Calm a.task.r ∧ Calm a.task.c ∧ Calm a.task.f) :
    Evaluates cfg n room a (setData a (v :: data a)) := by
  have hcap : capacity = 64 := rfl
  refine ⟨fun r hr s1 hl hpc => ?_, rfl, by rw [data_setData (by simp; omega)]; simpa using hd,
    ⟨by simpa [setData] using hc.1.holding (by simp; omega), by simpa [setData] using hc.2.1, by simpa [setData] using hc.2.2.1,
      by simpa [setData] using hc.2.2.2⟩⟩
  obtain ⟨g1, g2, g3, g4, -, -, g7, g8⟩ := parts_setRet hl
  have hu' : UnknownToken (ctx cfg n) s1 tok := ⟨g3.trans hu.token, find_congr (s := a) g1.symm g2.symm hu.notWord⟩
  have hdl : s1.task.s.items.length < 255 := by
    have : (data s1).length = (data a).length := by rw [g8]
    simp only [data] at this hd ⊢; omega
  have hev : evalToken (ctx cfg n) s1 = .ok ((), withData s1 (s1.task.s.push v)) := by
    have e : evalToken (ctx cfg n) s1 = interpretToken (ctx cfg n) s1 := by
      rw [evalToken, M.bind_apply, getSt_apply]; dsimp only; rw [g7, hm]; rfl
    rw [e, interpretToken_none hu'.token hu'.notWord,
      evaluateNumber_int (s := { s1 with tkn := none }) (by rw [g2]; exact hs)
        ((integerValue_iff _ _ _).2 (by simp only [currentBase] at hv; rw [g2]; exact hv)) (g7.trans hm)]
    have ht := hu'.token
    have hle := g4.trans he
    cases s1
    simp only at ht hle
    subst ht hle
    rfl
  refine ⟨_, _, hev, rfl, .refl _, ?_, ?_⟩
  · rw [push_holding _ _ hdl]
    have e8 : s1.task.s.items = data a := g8
    rw [e8]
    have hh := hl.update (hl.s.hold (v :: data a) (by simp; omega)) hl.r hl.f s1.task.st.ip s1.task.st.wp
    have e2 : (setRet a r).setTask { (setRet a r).task with s := holding (setRet a r).task.s (v :: data a), r := (setRet a r).task.r, f := (setRet a r).task.f } = setRet (setData a (v :: data a)) r := by
      simp [setRet, setData]
    rw [e2] at hh
    exact hh
  · simp [pc, withData]

end

/-- The machine with core.fth, and a text to read. -/
def Spec.imageReading (text : List Char) : VM := image.setTask { image.task with inbuf := some text }

theorem imageReading_hasReader (text : List Char) : HasReader (imageIx "leave") 10984 11144 imageIx (imageReading text) :=
  have h := image_hasReader
  ⟨h.words, h.region, h.uses, h.coded⟩

/-- A machine with no words to find that has the code of `evaluate-input`, ready to read `rest` after `pre`. -/
structure Spec.Bare (s : VM) (pre rest : List Char) (l : List Cell) : Prop where
  loaded : Loaded image.refs (imageIx "leave") image.wl 10984 11144 image.cur image.ds s
  input : Reading s.task pre rest
  token : ∃ t, s.tkn = some t
  calm : Calm s.task.s ∧ Calm s.task.r ∧ Calm s.task.c ∧ Calm s.task.f
  space : SoundSpace s.ds
  base : (currentBase s).toInt = 10
  data : data s = l
  mode : s.task.st.isCompiling = false
  error : s.lastError = none
  words : ∀ b, s.wl.buckets b = 0

theorem Spec.Bare.number {s : VM} {pre bs tok more : List Char} {l : List Cell} {v : Cell} (cfg : Cfg) (n : Nat)
    (h : Bare s pre (bs ++ (tok ++ more)) l) (hbs : ∀ c ∈ bs, Blank c) (hch : ∀ c ∈ tok, ¬Blank c) (hne : tok ≠ [])
    (hmore : EndsToken more) (hl : l.length < 60) (hv : IntegerToken 10 (utf8 tok) v) :
    Next s pre bs tok more ∧ Evaluates cfg n 0 (took s pre bs tok) (setData (took s pre bs tok) (v :: l)) ∧
    Bare (setData (took s pre bs tok) (v :: l)) (pre ++ bs ++ tok) more (v :: l) := by
  have hcap : capacity = 64 := rfl
  have e1 := C64_integer (cfg := cfg) (n := n) (room := 0) (a := took s pre bs tok) (tok := tok) (v := v) h.space
      ⟨rfl, by rw [find]; simp only [findLoop, show (took s pre bs tok).wl.buckets = s.wl.buckets from rfl, h.words]; rfl⟩
      (by rw [took_task]; exact h.mode) (by rw [← h.base] at hv; exact hv) h.error (by rw [data_took, h.data]; omega)
      (by rw [took_task]; exact h.calm)
  rw [data_took, h.data] at e1
  refine ⟨⟨h.input, hbs, hch, hmore, fun e => absurd e hne, h.token⟩, e1, ⟨h.loaded.congr rfl rfl rfl, ⟨?_, ?_, ?_⟩, ⟨_, rfl⟩,
    e1.calm, h.space, h.base, data_setData (by simp; omega), ?_, h.error, h.words⟩⟩
  · have := h.input.buffer
    simp only [setData, VM.task_setTask, took_task]
    simpa [inputBuffer, atPosition] using this
  · simp only [setData, VM.task_setTask, took_task]; rfl
  · have := h.input.bounded
    simpa using this
  · simp only [setData, VM.task_setTask, took_task]; exact h.mode

/-- Non-vacuity of C64_word, C64_effect and C64_compile: the token `dup` with 5 on the stack, interpreted and compiled. -/
example (cfg : Cfg) (n room : Nat) : let a := { desk [5] "" with tkn := some "dup".toList }
    Evaluates cfg (n + 1) room a (setData a [5, 5]) ∧
    let b := a.setTask { a.task with st := { a.task.st with isCompiling := true } }
    Evaluates cfg n room b { b with ds := appended b.ds 18 } := by
  obtain ⟨n1, w, w1, w2, w3, w4, w5⟩ := desk_word [5] "" (List.mem_of_getElem? (i := 2) rfl)
  have hl := desk_listening (l := [5]) (by decide) ""
  have hd := desk_data (l := [5]) (by decide) ""
  have hR := (desk_compiler [5] "").runtime
  obtain ⟨-, -, -, k1, k2, k3, -⟩ := desk_numbers [5] ""
  generalize desk [5] "" = s at *
  intro a
  refine ⟨C64_effect (a := a) (w := w) (i := 18) (tok := "dup".toList) (name := "dup") (ys := [5, 5]) hR (hl.dict.congr rfl rfl) ⟨hl.space.small, hl.space.inside⟩ rfl
    (by simpa only [Newest, Visible] using n1) w1 hl.interpreting w4 (List.mem_of_getElem? (i := 1) rfl) (by rw [w2]; rfl) (by
      show (match data s with | x :: l => some (x :: x :: l) | _ => none) = _
      rw [hd]) (by show (data s).length ≤ _; rw [hd]; decide) (by decide) ⟨hl.data, hl.ret, hl.control, hl.floats⟩, ?_⟩
  intro b
  have hb : data b = [5] := by rw [← hd]; simp [data, b, a]
  refine C64_compile (a := b) (w := w) (i := 18) (tok := "dup".toList) (hl.dict.congr rfl rfl) hl.space rfl
    n1 w1 (by simp [b]) w3 w5 ?_ (by rw [hb]; decide) ?_
  · show s.ds.here + 8 * 1 ≤ s.ds.start + s.ds.cap
    omega
  · simp only [b, VM.task_setTask]
    exact ⟨hl.data, hl.ret, hl.control, hl.floats⟩

/-- Non-vacuity of C64_forth, C64_rust and C64_agree: the machine with core.fth reads `5 7`. -/
example (cfg : Cfg) (n : Nat) : ∃ t, Works cfg n 0 (Loaded image.refs (imageIx "leave") image.wl 10984 11144 image.cur image.ds)
    ["5".toList, "7".toList] (imageReading "5 7".toList) t ∧ data t = [7, 5] ∧ Idle (imageReading "5 7".toList) ∧
    (imageReading "5 7".toList).lastError = none ∧ (data (imageReading "5 7".toList)).length < capacity ∧
    (ret (imageReading "5 7".toList)).length + 1 + 0 ≤ capacity := by
  have h : Bare (imageReading "5 7".toList) [] ([] ++ (['5'] ++ ([' '] ++ (['7'] ++ [])))) [] := by
    refine ⟨(imageReading_hasReader "5 7".toList).loaded, ⟨rfl, rfl, by decide⟩, ⟨_, rfl⟩,
      ⟨⟨?_, ?_, ?_⟩, ⟨?_, ?_, ?_⟩, ⟨?_, ?_, ?_⟩, ⟨?_, ?_, ?_⟩⟩, ⟨by decide, by decide, by decide, by decide, by decide⟩,
      by decide +kernel, by decide +kernel, rfl, rfl, fun _ => rfl⟩ <;> decide +kernel
  have hidle : Idle (imageReading "5 7".toList) := ⟨by decide +kernel, by decide +kernel⟩
  have hret : ret (imageReading "5 7".toList) = [] := by decide +kernel
  generalize imageReading "5 7".toList = s at *
  obtain ⟨n1, e1, h1⟩ := h.number (v := 5) cfg n (by simp) (by decide) (by simp) (by rintro ch cs e; cases e; decide) (by simp)
    (.digits (pre := []) (sg := []) (bs := [53]) (ds := [5]) .none .none (.cons (.inl rfl) .nil) (by simp))
  obtain ⟨n2, e2, h2⟩ := h1.number (v := 7) cfg n (by decide) (by decide) (by simp) (by rintro ch cs e; cases e) (by simp)
    (.digits (pre := []) (sg := []) (bs := [55]) (ds := [7]) .none .none (.cons (.inl rfl) .nil) (by simp))
  refine ⟨_, .token n1 (by simp) e1 h1.loaded (.token n2 (by simp) e2 h2.loaded
    (.done (pre := _) (bs := []) (more := []) ⟨h2.input, by simp, by simp, (by rintro ch cs e; cases e), by simp, h2.token⟩)),
    ?_, hidle, h.error, by rw [h.data]; decide, by rw [hret]; decide⟩
  rw [data_took]
  exact h2.data

/-! ### After an exception the two differ -/

/-- What the two interpreters make of the text, with a handler that does nothing. -/
def outcomes (text : String) : Option (List Cell × Bool × List Cell × Bool) :=
  match evaluateInput demoCfg 4 20 (imageReading text.toList) with
  | .ok (_, t) =>
    match execWord demoCfg 4 (imageIx "evaluate-input") (imageReading text.toList) with
    | .ok (_, s2) =>
      match run demoCfg 4 200 s2 with
      | .ok (_, u) => some (data t, t.lastError.isSome, data u, u.lastError.isSome)
      | .error _ => none
    | .error _ => none
  | .error _ => none

set_option maxRecDepth 100000 in
theorem outcomes_zz : outcomes "zz 5" = some ([], true, [5], false) := by decide +kernel

/-- Beside C64: the two interpreters do not do the same after an exception, if the handler comes back. Rust's
`evaluate_input` stops at the token that raised it and the error is there to be seen; the word of core.fth goes on with
the next token, and a number after it even makes the error disappear. -/
theorem C64_exception_differs : ∃ s t s2 u, HasReader (imageIx "leave") 10984 11144 imageIx s ∧ Idle s ∧ s.lastError = none ∧
    evaluateInput demoCfg 4 20 s = .ok ((), t) ∧ t.lastError.isSome = true ∧ data t = [] ∧
    execWord demoCfg 4 (imageIx "evaluate-input") s = .ok ((), s2) ∧ run demoCfg 4 200 s2 = .ok ((), u) ∧
    u.lastError = none ∧ data u = [5] := by
  have h := outcomes_zz
  have hI : Idle (imageReading "zz 5".toList) := ⟨by decide +kernel, by decide +kernel⟩
  have hR := imageReading_hasReader "zz 5".toList
  have he : (imageReading "zz 5".toList).lastError = none := rfl
  revert h hI hR he
  unfold outcomes
  generalize imageReading "zz 5".toList = s
  intro h hI hR he
  split at h
  · next t h1 =>
    split at h
    · next s2 h2 =>
      split at h
      · next u h3 =>
        simp only [Option.some.injEq, Prod.mk.injEq, Option.isSome_eq_false_iff, Option.isNone_iff_eq_none] at h
        exact ⟨s, t, s2, u, hR, hI, he, h1, h.2.1, h.1, h2, h3, h.2.2.2, h.2.2.1⟩
      · cases h
    · cases h
  · cases h

end Verif
