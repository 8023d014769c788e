import Verif.Props.Execution
import Verif.Spec.Buffers
import Verif.Lemmas.Demo

/-!
# C42: buffers are never lost
-/

namespace Verif
open Spec

theorem lines_set {l : List (Option (List Char))} (h : ∀ x, x ∈ l → x.isSome) (i : Nat) (b : List Char) :
    ∀ x, x ∈ l.set i (some b) → x.isSome := by
  intro x hx
  rcases List.mem_or_eq_of_mem_set hx with hx | rfl
  · exact h x hx
  · rfl

theorem setInputBuffer_some {t t' : Task} {b : List Char} (h : setInputBuffer t (some b) = .ok t') :
    ((∀ x, x ∈ t.lines → x.isSome) → ∀ x, x ∈ t'.lines → x.isSome) ∧
      (t.inbuf.isSome → t'.inbuf.isSome) := by
  simp only [setInputBuffer] at h
  split at h
  · split at h <;> cases h
    exact ⟨fun hl => lines_set hl _ _, id⟩
  · cases h
    exact ⟨id, fun _ => rfl⟩

/-- Machines that differ in the running task only. -/
theorem Spec.Ready.setTask {s : VM} (h : Ready s) {t : Task}
    (h1 : (∀ x, x ∈ s.task.lines → x.isSome) → ∀ x, x ∈ t.lines → x.isSome)
    (h2 : s.task.inbuf.isSome → t.inbuf.isSome) :
    Ready (s.setTask t) ∧ KeepsTexts s (s.setTask t) := by
  refine ⟨⟨h.token, h.output, fun j => ?_, h.regular⟩, fun j => ?_⟩
  · by_cases hj : j = s.cur
    · subst hj
      rw [VM.tasks_setTask_self]
      exact h1 (h.lines s.cur)
    · rw [show (s.setTask t).tasks j = s.tasks j from if_neg hj]
      exact h.lines j
  · by_cases hj : j = s.cur
    · subst hj
      rw [VM.tasks_setTask_self]
      exact h2
    · rw [show (s.setTask t).tasks j = s.tasks j from if_neg hj]
      exact id

theorem Spec.KeepsTexts.refl (s : VM) : KeepsTexts s s := fun _ h => h

theorem Spec.KeepsTexts.trans {s t u : VM} (h : KeepsTexts s t) (k : KeepsTexts t u) : KeepsTexts s u :=
  fun j hj => k j (h j hj)

/-- No change takes a buffer away. -/
theorem Spec.Change.ready {k : Kind} (hk : k ≠ .refs) {s t : VM} (h : Change k s t) (hs : Ready s) :
    Ready t ∧ KeepsTexts s t := by
  have same : t.tkn = s.tkn → t.outbuf.isSome = s.outbuf.isSome → t.tasks = s.tasks → ¬ Irregular t →
      Ready t ∧ KeepsTexts s t := by
    intro e1 e2 e3 e4
    exact ⟨⟨e1 ▸ hs.token, e2 ▸ hs.output, e3 ▸ hs.lines, e4⟩, fun j => by rw [e3]; exact id⟩
  have at' : ∀ (i : Fin 5) (x : Task), x.lines = (s.tasks i).lines →
      ((s.tasks i).inbuf.isSome → x.inbuf.isSome) →
      Ready (s.setTaskAt i x) ∧ KeepsTexts s (s.setTaskAt i x) := by
    intro i x e1 e2
    refine ⟨⟨hs.token, hs.output, fun j => ?_, hs.regular⟩, fun j => ?_⟩
    · simp only [VM.setTaskAt]
      split
      · rename_i hj; subst hj; rw [e1]; exact hs.lines j
      · exact hs.lines j
    · simp only [VM.setTaskAt]
      split
      · rename_i hj; subst hj; exact e2
      · exact id
  cases k <;> simp only [Change] at h
  case refs => exact absurd rfl hk
  case token =>
    obtain ⟨x, rfl⟩ := h
    exact ⟨⟨rfl, hs.output, hs.lines, hs.regular⟩, .refl s⟩
  case output =>
    obtain ⟨x, rfl⟩ := h
    exact ⟨⟨hs.token, by simpa using hs.output, hs.lines, hs.regular⟩, .refl s⟩
  case standardOut =>
    obtain ⟨x, -, rfl⟩ := h
    exact ⟨⟨hs.token, rfl, hs.lines, hs.regular⟩, .refl s⟩
  case standardError =>
    obtain ⟨x, -, rfl⟩ := h
    exact ⟨⟨hs.token, rfl, hs.lines, hs.regular⟩, .refl s⟩
  case inputText =>
    obtain ⟨b, b', t', -, e, rfl⟩ := h
    obtain ⟨e1, e2⟩ := setInputBuffer_some e
    exact hs.setTask e1 e2
  case inputSlot =>
    obtain ⟨b, t', hb, e, rfl⟩ := h
    cases b with
    | none => exact absurd (hb rfl) hs.regular
    | some b =>
      obtain ⟨e1, e2⟩ := setInputBuffer_some e
      exact hs.setTask e1 e2
  case sourceOpen =>
    obtain ⟨src, ⟨p, -, rfl⟩ | rfl⟩ := h
    · exact hs.setTask id id
    · refine hs.setTask (fun hl x hx => ?_) id
      rcases List.mem_append.1 hx with hx | hx
      · exact hl x hx
      · rw [List.mem_singleton.1 hx]; rfl
  case sourceRead =>
    obtain ⟨i, src, l, -, -, rfl⟩ := h
    exact hs.setTask (fun hl => lines_set hl _ _) id
  case raise =>
    obtain ⟨e, -, rfl⟩ := h
    have := hs.setTask (t := { s.task with
      s := s.task.s.reset, f := s.task.f.reset, c := s.task.c.reset
      st := { s.task.st with abortedWp := s.task.st.wp } }) id id
    exact ⟨⟨this.1.token, this.1.output, this.1.lines, this.1.regular⟩, this.2⟩
  case awake =>
    obtain ⟨i, b, rfl⟩ := h
    exact at' i _ rfl id
  case activate =>
    obtain ⟨i, ip, rfl⟩ := h
    have := at' i (activated (s.tasks i) ip) rfl (by simp [activated])
    exact ⟨⟨this.1.token, this.1.output, this.1.lines, this.1.regular⟩, this.2⟩
  case wordAdd =>
    obtain ⟨name, w, ⟨-, hw⟩, rfl⟩ := h
    refine same rfl rfl rfl ?_
    rintro ⟨w', h1, h2⟩
    simp only [Wordlist.push] at h1
    rw [List.getElem?_append] at h1
    split at h1
    · exact hs.regular ⟨w', h1, h2⟩
    · rw [List.getElem?_singleton] at h1
      split at h1 <;> cases h1
      rw [show _ = w.compSem from rfl, hw] at h2
      cases h2
  case wordLast =>
    obtain ⟨w, w', h0, he, rfl⟩ := h
    refine same rfl rfl rfl ?_
    rintro ⟨v, h1, h2⟩
    simp only [List.getElem?_set] at h1
    split at h1
    · split at h1 <;> cases h1
      rename_i e _
      rw [he.compSem] at h2
      exact hs.regular ⟨w, by rw [← e]; exact h0, h2⟩
    · exact hs.regular ⟨v, h1, h2⟩
  case wordTime =>
    obtain ⟨f, hf, p, rfl⟩ := h
    refine same rfl rfl rfl ?_
    rintro ⟨v, h1, h2⟩
    simp only [List.getElem?_mapIdx, Option.map_eq_some_iff] at h1
    obtain ⟨w, h1, rfl⟩ := h1
    split at h2
    · obtain ⟨a, b, e⟩ := hf w
      rw [e] at h2
      exact hs.regular ⟨w, h1, h2⟩
    · exact hs.regular ⟨w, h1, h2⟩
  case wordForget =>
    obtain ⟨n, b, l, rfl⟩ := h
    refine same rfl rfl rfl ?_
    rintro ⟨v, h1, h2⟩
    simp only [List.getElem?_take] at h1
    split at h1
    · exact hs.regular ⟨v, h1, h2⟩
    · cases h1
  all_goals
    first
    | (obtain ⟨_, rfl⟩ := h; first | exact same rfl rfl rfl hs.regular | exact hs.setTask id id)
    | (obtain ⟨_, _, rfl⟩ := h; first | exact same rfl rfl rfl hs.regular | exact hs.setTask id id)
    | (obtain ⟨_, _, _, rfl⟩ := h; first | exact same rfl rfl rfl hs.regular | exact hs.setTask id id)
    | (obtain ⟨_, _, _, _, rfl⟩ := h; first | exact same rfl rfl rfl hs.regular | exact hs.setTask id id)
    | (obtain ⟨_, _, _, _, _, _, rfl⟩ := h; first | exact same rfl rfl rfl hs.regular | exact hs.setTask id id)
    | (subst h; first | exact same rfl rfl rfl hs.regular | exact hs.setTask id id)

/-- Buffers in their places, as a condition that executions preserve. -/
def Spec.Inv.ready : Inv runKinds :=
  ⟨Ready, fun _ _ _ hk hc hs => (hc.ready (by rintro rfl; exact absurd hk (by decide)) hs).1⟩

theorem Spec.Changes.ready {s t : VM} (h : Changes runKinds s t) (hs : Ready s) :
    Ready t ∧ KeepsTexts s t := by
  induction h with
  | refl => exact ⟨hs, .refl _⟩
  | tail _ hk hc ih =>
    have := hc.ready (by rintro rfl; exact absurd hk (by decide)) ih.1
    exact ⟨this.1, ih.2.trans this.2⟩

/-- C42. However a machine is used, and whatever errors are raised, every buffer is in its place
whenever a word has finished. -/
theorem C42_reach {cfg : Cfg} {s t : VM} (h : Reach cfg s t) (hi : InSpace s) (hs : Ready s) :
    Ready t ∧ KeepsTexts s t :=
  (h.changes hi).ready hs

/-- C42. A word puts the buffers back before it hands control to another word, be it the error handler
or a word it executes: about the words it may call nothing is assumed on machines with a buffer
missing. -/
theorem C42_word (c : Ctx) (p : Prim)
    (hex : ∀ i s u t, InSpace s → Ready s → c.ex i s = .ok (u, t) → Changes runKinds s t)
    {s t : VM} {u : Unit} (hi : InSpace s) (hs : Ready s) (h : action c p s = .ok (u, t)) :
    Ready t ∧ KeepsTexts s t := by
  have hx : ∀ i, Does Inv.ready (c.ex i) := fun i s a s' hf e => hex i s a s' hf.1 hf.2 e
  exact (Does.action (A := Inv.ready) p (fun _ => Does.runHandler hx) (fun _ => hx)
    (fun k hk => List.mem_cons_of_mem _ (Does.footprint_wordKinds p k hk)) _ _ _ ⟨hi, hs⟩ h).ready hs

/-- C42. So no word finds the token missing, -/
theorem C42_token {cfg : Cfg} {s t : VM} (h : Reach cfg s t) (hi : InSpace s) (hs : Ready s) :
    ∃ tok, takeToken t = .ok (tok, { t with tkn := none }) := by
  obtain ⟨tok, e⟩ := Option.isSome_iff_exists.1 (C42_reach h hi hs).1.token
  exact ⟨tok, by rw [takeToken, e]⟩

/-- nor, in a task with a terminal, the text to be read. -/
theorem C42_input {cfg : Cfg} {s t : VM} (h : Reach cfg s t) (hi : InSpace s) (hs : Ready s)
    (ho : ∀ j, CurrentOpen (s.tasks j)) (hb : (s.tasks t.cur).inbuf.isSome) :
    ∃ b t', takeInputE t = .ok (b, t') := by
  obtain ⟨hr, hk⟩ := C42_reach h hi hs
  have hc : CurrentOpen t.task := C40_open h hi ho t.cur
  have hin : ∃ b, inputBuffer t.task = .ok (some b) := by
    rcases hc with h0 | ⟨h1, -, h3⟩
    · obtain ⟨b, e⟩ := Option.isSome_iff_exists.1 (hk _ hb)
      exact ⟨b, by simp only [inputBuffer, h0]; exact congrArg Except.ok e⟩
    · obtain ⟨b, e⟩ := Option.isSome_iff_exists.1 (hr.lines t.cur _ (List.getElem_mem h3))
      exact ⟨b, by simp only [inputBuffer, if_pos h1, List.getElem?_eq_getElem h3]; exact congrArg Except.ok e⟩
  obtain ⟨b, e⟩ := hin
  obtain ⟨x, hx⟩ : ∃ x, setInputBuffer t.task none = .ok x := by
    simp only [setInputBuffer]
    split
    · rename_i hp
      have : t.task.st.sourceId.toNat - 1 < t.task.lines.length := by
        rcases hc with h0 | ⟨-, -, h3⟩
        · rw [h0] at hp; exact absurd hp (by decide)
        · exact h3
      exact ⟨_, if_pos this⟩
    · exact ⟨_, rfl⟩
  refine ⟨b, t.setTask x, ?_⟩
  unfold takeInputE
  rw [M.bind_ok (a := some b) (s' := t.setTask x) (by rw [takeInput, e, hx])]
  rfl

/-- A machine with the standard words, where the word for `s"` is compiled as any other word. -/
example : (match addAll (ctx demoCfg 2) (VM.blank 1024 65536) with
    | .ok (_, s) => s.tkn.isSome && s.outbuf.isSome &&
        (match s.wl.words[s.refs.sQuote]? with
          | some w => s.refs.sQuote != 0 && w.compSem == .word
          | none => false)
    | .error _ => false) = true := by decide +kernel

example : Ready (VM.blank 1024 65536) where
  token := rfl
  output := rfl
  lines j l hl := by
    have : ∀ j, ((VM.blank 1024 65536).tasks j).lines = [] := by decide
    rw [this j] at hl
    cases hl
  regular := by rintro ⟨w, h, -⟩; cases h

end Verif
