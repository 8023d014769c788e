import Verif.Lemmas.Accept
import Verif.Lemmas.Reach
import Verif.Lemmas.Machine
import Verif.Props.Control

/-!
# Definitions after a failed definition
-/

namespace Verif
open Spec Stack

/-! ## C44 -/

/-- C44. Resetting a machine that an error has stopped makes it listen again, provided that no label is awaited. -/
theorem C44_reset {c : Ctx} {s : VM} (h : Halted s) :
    ∃ t, reset c s = .ok ((), t) ∧ Listening t ∧ t.wl = s.wl ∧ t.ds = s.ds ∧ t.refs = s.refs ∧ t.handler = s.handler ∧
      t.task.inbuf = s.task.inbuf.map (fun _ => []) ∧ t.task.st.sourceId = 0 ∧ t.task.st.sourceIndex = 0 := by
  obtain ⟨t, e⟩ : ∃ t, reset c s = .ok ((), t) := by
    unfold reset
    have e1 : setSourceId c 0 (s.setTask { s.task with r := s.task.r.reset }) =
        .ok ((), s.setTask { s.task with r := s.task.r.reset, st := { s.task.st with sourceId := 0 } }) := by
      simp only [setSourceId, M.bind_apply, getTask_apply]
      rw [if_neg (by decide), if_pos trivial]
      simp only [modSt_apply, VM.task_setTask, VM.setTask_setTask]
    rw [M.bind_ok (modTask_apply _ _), M.bind_ok e1]
    unfold clearInput
    cases hb : s.task.inbuf with
    | none =>
      have e2 : takeInput (s.setTask { s.task with r := s.task.r.reset, st := { s.task.st with sourceId := 0 } }) =
          .ok (none, s.setTask { s.task with r := s.task.r.reset, inbuf := none, st := { s.task.st with sourceId := 0 } }) := by
        simp only [takeInput, inputBuffer, setInputBuffer, VM.task_setTask, VM.setTask_setTask]
        rw [if_neg (by decide), if_neg (by decide), hb]
      exact ⟨_, M.bind_ok (M.bind_ok e2)⟩
    | some b =>
      have e2 : takeInput (s.setTask { s.task with r := s.task.r.reset, st := { s.task.st with sourceId := 0 } }) =
          .ok (some b, s.setTask { s.task with r := s.task.r.reset, inbuf := none, st := { s.task.st with sourceId := 0 } }) := by
        simp only [takeInput, inputBuffer, setInputBuffer, VM.task_setTask, VM.setTask_setTask]
        rw [if_neg (by decide), if_neg (by decide), hb]
      have e3 : putInput [] (s.setTask { s.task with r := s.task.r.reset, inbuf := none, st := { s.task.st with sourceId := 0 } }) =
          .ok ((), s.setTask { s.task with r := s.task.r.reset, inbuf := some [], st := { s.task.st with sourceId := 0 } }) := by
        simp only [putInput, setInputBuffer, VM.task_setTask, VM.setTask_setTask]
        rw [if_neg (by decide)]
      exact ⟨_, M.bind_ok ((M.bind_ok e2).trans e3)⟩
  have := Does.reset_result e
  refine ⟨t, e, ?_⟩
  have ht : t.task = { s.task with
      r := s.task.r.reset, inbuf := s.task.inbuf.map fun _ => []
      st := { s.task.st with isCompiling := false, abortedWp := 0, sourceIndex := 0, sourceId := 0 } } := by
    rw [this]; exact VM.task_setTask s _
  have hds : t.ds = s.ds := by rw [this]; rfl
  have hwl : t.wl = s.wl := by rw [this]; rfl
  refine ⟨⟨by rw [ht], by rw [this], ?_, ?_, h.dict.congr hwl hds, by rw [hds]; exact h.space, ?_, ?_, ?_, ?_, ?_, ?_⟩, hwl, hds,
    by rw [this]; rfl, by rw [this]; rfl, by rw [ht], by rw [ht], by rw [ht]⟩
  · rw [this]; exact h.token
  · have := h.idle
    simp only [Idle, pc, ht, hds] at this ⊢
    exact this
  · rw [ht]; exact h.data
  · rw [ht]; exact calm_reset _
  · rw [ht]; exact h.floats
  · rw [ht]; exact h.control
  · rw [ht]; exact h.balanced
  · rw [this]; exact h.labels

/-- C44. Then it reads what it is given. -/
theorem C44_source {c : Ctx} {s : VM} (h : Halted s) (hb : s.task.inbuf.isSome) {text : List Char} (hlt : byteLen text < 2 ^ 63) :
    ∃ t, (do reset c; setSource text) s = .ok ((), t) ∧ Listening t ∧ Reading t.task [] text ∧ t.wl = s.wl ∧ t.ds = s.ds ∧
      t.refs = s.refs ∧ t.handler = s.handler := by
  obtain ⟨t, e, hL, h1, h2, h3, h4, h5, h6, h7⟩ := C44_reset (c := c) h
  obtain ⟨b, hb⟩ := Option.isSome_iff_exists.1 hb
  rw [hb] at h5
  have e1 : setSource text t = .ok ((), t.setTask { t.task with inbuf := some text }) := by
    unfold setSource
    have e2 : takeInputE t = .ok ([], t.setTask { t.task with inbuf := none }) := by
      unfold takeInputE
      have : takeInput t = .ok (some [], t.setTask { t.task with inbuf := none }) := by
        simp only [takeInput, inputBuffer, setInputBuffer, h6]
        rw [if_neg (by decide), if_neg (by decide), h5]
        rfl
      exact M.bind_ok this
    rw [M.bind_ok e2, M.bind_ok (modSt_apply _ _)]
    simp only [putInput, setInputBuffer, VM.task_setTask, VM.setTask_setTask]
    rw [if_neg (by rw [h6]; decide)]
    simp only
    rw [show ({ t.task.st with sourceIndex := 0 } : St) = t.task.st by rw [← h7]]
  have ht : (t.setTask { t.task with inbuf := some text }).task = { t.task with inbuf := some text } := VM.task_setTask t _
  refine ⟨t.setTask { t.task with inbuf := some text }, (M.bind_ok e).trans e1, ⟨?_, hL.noError, hL.token, ?_, hL.dict.congr rfl rfl, hL.space,
    ?_, ?_, ?_, ?_, ?_, hL.labels⟩, ⟨?_, ?_, hlt⟩, h1, h2, h3, h4⟩
  · rw [ht]; exact hL.interpreting
  · have := hL.idle
    simp only [Idle, pc, ht] at this ⊢
    exact this
  · rw [ht]; exact hL.data
  · rw [ht]; exact hL.ret
  · rw [ht]; exact hL.floats
  · rw [ht]; exact hL.control
  · rw [ht]; exact hL.balanced
  · rw [ht]
    simp only [inputBuffer, h6]
    rw [if_neg (by decide)]
    rfl
  · rw [ht]; exact h7

/-- C44. A machine an error has stopped, on which everything means what it meant before, compiles every definition after
a reset that it would have compiled before, provided there is room. -/
theorem C44_recovers {cfg : Cfg} {depth lv : Nat} {s t : VM} (hC : Compiler s.refs lv s.wl) (hfl : s.refs.flit ≠ 0)
    (h1 : 1 ≤ s.wl.words.length) (hsz : t.wl.words.length < 2 ^ 64)
    (hk : Keeps s t) (hnew : ∀ nm r, Newest t nm r ↔ Newest s nm r) (h : Halted t) (hb : s.task.inbuf.isSome) :
    Recovers cfg depth lv s t := by
  intro text name items rest hlt hdef hord hsh hgood room
  obtain ⟨u, e1, hL, hin, e2, e3, e4, e5⟩ := C44_source (c := ctx cfg (depth + 2)) h (by rw [hk.inbuf]; exact hb) hlt
  have hw : ∀ (i : Nat) (w : Word), s.wl.words[i]? = some w → u.wl.words[i]? = some w := by
    intro i w h; rw [e2]; exact hk.words i w h
  have hn : ∀ nm r, Newest s nm r → Newest u nm r := fun nm r h =>
    (newest_same_words e2 (fun _ _ _ => by rw [e3]) nm r).2 ((hnew nm r).2 h)
  have hbase : baseOf u = baseOf s := by rw [← hk.base]; simp only [baseOf, e3]
  have hR : u.refs = s.refs := e4.trans hk.refs
  obtain ⟨tc, ts, t1, t2, t3, ic, is, wc, ws, hr1, hr2, hwr, hr3, n1, n2, n3, n4, m1, m2, m3, m4⟩ := hdef.parts
  have hdef' : Definition cfg.fops u text name items rest :=
    ⟨tc, ts, t1, t2, t3, ic, is, wc, ws, hr1, hr2, hwr.mono hn hw hbase, hr3, hn _ _ n1, hw _ _ n2, n3, n4, hn _ _ m1, hw _ _ m2, m3, m4⟩
  obtain ⟨v, f1, f2, f3, f4⟩ := C27_accept (depth := depth) hL (lv := lv) (by rw [hR]; exact hC.mono hw (by rw [e2]; omega))
    (by rw [e2]; exact hsz)
    (by
      obtain ⟨w, h⟩ : ∃ w, s.wl.words[0]? = some w := ⟨_, List.getElem?_eq_getElem (by omega)⟩
      have := hw 0 w h
      exact List.length_pos_iff.2 (by rintro e; rw [e] at this; cases this))
    (by rw [hR]; exact hfl) hin hdef' rfl (fun it h => (hord it h).mono hw) hsh (by rw [e3]; exact room)
    (by rw [hR]; exact hgood)
  rw [e2] at f4
  exact ⟨u, v, e1, f1, f2, f4⟩

theorem inside_after {cfg : Cfg} {depth fuel : Nat} {s t : VM} (h : SoundSpace s.ds)
    (e : evaluateInput cfg depth fuel s = .ok ((), t)) : t.ds.len ≤ t.ds.cap :=
  (((Reach.refl s).tail (.line e)).changes ⟨h.small, h.inside⟩ |>.fit (A := .any _) ⟨⟨h.small, h.inside⟩, trivial⟩).1.2

/-- C44. In particular the machine recovers from a definition that is not nested properly. What is missing for the full
claim: definitions with labels, see `C44_refuted`, and those stopped by other errors. -/
theorem C44_nesting_partial {cfg : Cfg} {depth lv : Nat} {s : VM} (hL : Listening s) (hC : Compiler s.refs lv s.wl)
    (hsz : s.wl.words.length + 1 < 2 ^ 64) (h1 : 1 ≤ s.wl.words.length) (hfl : s.refs.flit ≠ 0)
    {pre text name rest : List Char} {items : List Item}
    (hin : Reading s.task pre text) (hb : s.task.inbuf.isSome) (hdef : Definition cfg.fops s text name items rest) {dfa : Nat}
    (hdfa : dfa = roundUp8 (s.ds.here + 8 + (utf8 (name.map lowerChar)).length))
    (hord : ∀ it ∈ items, it.Ordinary s.wl lv) (hsh : Shallow lv items) (room : dfa + itemsRoom items ≤ s.ds.limit)
    (hcan : s.task.c.canary = .canary ∨ s.task.c.canary = .default) {wh : Word}
    (hh : s.wl.words[s.handler]? = some wh) (hn : wh.action = .core .noop) (hbad : ¬ Nested s.refs lv items) :
    ∃ n t, (∀ fuel, evaluateInput cfg (depth + 2) (fuel + n) s = .ok ((), t)) ∧
      t.lastError = some .controlStructureMismatch ∧ Recovers cfg depth lv s t := by
  obtain ⟨n, t, e1, e2, e3, e4, e5, -, e6⟩ :=
    definition_refused (depth := depth) hL hC (by omega) hfl hin hdef hdfa hord hsh room hcan hh hn hbad
  exact ⟨n, t, e1, e2, C44_recovers hC hfl h1 (by omega) e4 e3 (e5 (inside_after hL.space (e1 0))) hb⟩

/-- C44. It recovers from a definition with an unknown word, wherever it comes. -/
theorem C44_unknown_partial {cfg : Cfg} {depth lv : Nat} {s : VM} (hL : Listening s) (hC : Compiler s.refs lv s.wl)
    (hsz : s.wl.words.length + 1 < 2 ^ 64) (h1 : 1 ≤ s.wl.words.length) (hfl : s.refs.flit ≠ 0)
    {pre text tc t1 name t2 t3 tok rest : List Char} {items : List Item} {ic : Nat} {wc : Word} {ks : List Mark}
    (hin : Reading s.task pre text) (hb : s.task.inbuf.isSome) (hr1 : Reads text tc t1) (hr2 : Reads t1 name t2)
    (n1 : Newest s (utf8 tc) (some ic)) (n2 : s.wl.words[ic]? = some wc) (n3 : wc.action = .core .colon)
    (n4 : wc.isCompileOnly = false) (hwr : Written cfg.fops s t2 items t3) (hr3 : Reads t3 tok rest)
    (u1 : Newest s (utf8 tok) none) (u2 : ∀ v, ¬ IntegerToken (baseOf s) (utf8 tok) v)
    (u3 : ∀ v, ¬ FloatToken cfg.fops (utf8 tok) v) {dfa : Nat}
    (hdfa : dfa = roundUp8 (s.ds.here + 8 + (utf8 (name.map lowerChar)).length))
    (hord : ∀ it ∈ items, it.Ordinary s.wl lv) (hsh : Shallow lv items) (hop : openItems lv items [] = some ks)
    (room : dfa + itemsRoom items ≤ s.ds.limit) {wh : Word}
    (hh : s.wl.words[s.handler]? = some wh) (hn : wh.action = .core .noop) :
    ∃ n t, (∀ fuel, evaluateInput cfg (depth + 2) (fuel + n) s = .ok ((), t)) ∧
      t.lastError = some .undefinedWord ∧ (∀ nm r, Newest t nm r ↔ Newest s nm r) ∧ Recovers cfg depth lv s t := by
  obtain ⟨n, t, e1, e2, e3, e4, e5, -, e6⟩ :=
    definition_unknown (depth := depth) hL hC (by omega) hfl hin hr1 hr2 n1 n2 n3 n4 hwr hr3 u1 u2 u3 hdfa hord hsh hop room hh hn
  exact ⟨n, t, e1, e2, e3, C44_recovers hC hfl h1 (by omega) e4 e3 (e5 (inside_after hL.space (e1 0))) hb⟩

/-- Non-vacuity: an unknown word inside of an `if`. -/
example : ∃ n t, (∀ fuel, evaluateInput demoCfg 5 (fuel + n) (desk [] ": n if dup zz") = .ok ((), t)) ∧
    t.lastError = some .undefinedWord ∧ (∀ nm r, Newest t nm r ↔ Newest (desk [] ": n if dup zz") nm r) ∧
    Recovers demoCfg 3 15 (desk [] ": n if dup zz") t := by
  have hs := @desk_word [] ": n if dup zz"
  obtain ⟨c1, wc, c2, c3, c4, c5, c6⟩ := hs (List.mem_of_getElem? (i := 0) rfl)
  obtain ⟨d1, wd, d2, d3, d4, d5, d6⟩ := hs (List.mem_of_getElem? (i := 2) rfl)
  obtain ⟨q1, wq, q2, q3, q4, q5, q6⟩ := hs (List.mem_of_getElem? (i := 11) rfl)
  obtain ⟨n1, n2, n3, n4, n5, n6, n7, n8, n9⟩ := desk_numbers [] ": n if dup zz"
  obtain ⟨k1, wh, k2, k3⟩ := desk_handler [] ": n if dup zz"
  obtain ⟨z1, z2⟩ := desk_unknown [] ": n if dup zz"
  have hL := desk_listening (l := []) (by simp) ": n if dup zz"
  have hC := desk_compiler [] ": n if dup zz"
  have hR := desk_reading [] (text := ": n if dup zz") (by decide)
  generalize desk [] ": n if dup zz" = s at *
  have hlim : s.ds.limit = 66560 := by simp only [DataSpace.limit, n4, n5]
  have hord : ∀ it ∈ [Item.imm .immIf, .word 18], it.Ordinary s.wl 15 := by
    simp only [List.mem_cons, List.not_mem_nil, or_false]
    rintro it (rfl | rfl)
    · simp [Item.Ordinary, controlWords]
    · exact .inr ⟨_, d2, d6⟩
  refine C44_unknown_partial (depth := 3) (items := [.imm .immIf, .word 18]) (name := "n".toList) (rest := [])
    (t1 := " n if dup zz".toList) (t2 := " if dup zz".toList) (t3 := " zz".toList) (tok := "zz".toList) (tc := ":".toList) hL hC
    (by omega) (by omega) n2 hR (by rw [z2]; rfl) ⟨[], by decide, by decide, by decide, by decide, by decide⟩
    ⟨[' '], by decide, by decide, by decide, by decide, by decide⟩ c1 c2 c3 c5
    (.token (bs := [' ']) (t := "if".toList) (text := " dup zz".toList) (by decide) (by decide) (by decide) (by decide)
        (.imm q1 q2 q4 q3)
        (.token (bs := [' ']) (t := "dup".toList) (text := " zz".toList) (by decide) (by decide) (by decide) (by decide)
          (.word d1 d2 d4) .done))
    ⟨[' '], by decide, by decide, by decide, by decide, by decide⟩ z1 ?_ ?_ rfl hord ?_ rfl ?_ k2 k3
  · intro v
    rw [n8, show (10 : Int) = (10 : Cell).toInt by decide, ← integerValue_iff]
    have : integerValue 10 (utf8 "zz".toList) = none := by decide
    rw [this]; simp
  · intro v
    rw [← floatValue_iff]
    have : ∃ e, floatValue demoCfg.fops (utf8 "zz".toList) = .error e := ⟨_, rfl⟩
    obtain ⟨e, this⟩ := this
    rw [this]; simp
  · intro l M hl hM
    obtain ⟨m, hm⟩ := hl
    rcases l with _ | ⟨a, _ | ⟨b, _ | ⟨c, l⟩⟩⟩ <;> simp at hm
    · cases hM; simp
    · obtain ⟨rfl, -⟩ := hm
      cases hM; simp
    · obtain ⟨rfl, rfl, -⟩ := hm
      cases hM; simp
  · rw [hlim]
    have : (utf8 ("n".toList.map lowerChar)).length = 1 := by decide
    rw [this]
    simp only [roundUp8, itemsRoom, Item.room, List.map_cons, List.map_nil, List.sum_cons, List.sum_nil]
    omega

/-- Evaluate a line. -/
def line (text : String) : M Unit := do
  setSource text.toList
  evaluateInput demoCfg 4 100

/-- C44 is false of definitions with labels: a jump to a label that is never placed makes `;` fail, which is right, but the
label stays awaited after a reset, so the empty definition that comes next fails as well. Without the first
line it is accepted. -/
theorem C44_refuted :
    ∃ s t u : VM, addAll (ctx demoCfg 2) (VM.blank 1024 65536) = .ok ((), s) ∧
      (do line ": a [ 10 ] goto ;"; reset (ctx demoCfg 4); line ": b ;") s = .ok ((), t) ∧
      t.lastError = some .controlStructureMismatch ∧
      line ": b ;" s = .ok ((), u) ∧ u.lastError = none := by
  have h : succeeds (addAll (ctx demoCfg 2)) (VM.blank 1024 65536) = true ∧
     (let s := after (addAll (ctx demoCfg 2)) (VM.blank 1024 65536)
      let m := do line ": a [ 10 ] goto ;"; reset (ctx demoCfg 4); line ": b ;"
      succeeds m s = true ∧ (after m s).lastError = some .controlStructureMismatch ∧
        succeeds (line ": b ;") s = true ∧ (after (line ": b ;") s).lastError = none) := by decide +kernel
  exact ⟨_, _, _, succeeds_spec h.1, succeeds_spec h.2.1, h.2.2.1, succeeds_spec h.2.2.2.1, h.2.2.2.2⟩

end Verif
