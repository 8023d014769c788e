import Verif.Props.Term
import Verif.Props.Text

/-!
# C62: words given to the program, and lines typed
-/

namespace Verif

open Spec

/-! ## Tokens of texts with a blank between them -/

theorem endsToken_append {rest : List Char} (h : EndsToken rest) {more : List Char} (hm : EndsToken more) :
    EndsToken (rest ++ more) := by
  intro ch cs e
  cases rest with
  | nil => exact hm ch cs e
  | cons c' r => cases e; exact h _ r rfl

/-- C62. A blank between two texts keeps their tokens apart. -/
theorem C62_join {a b : List Char} {ts us : List (List Char)} {ch : Char} (hc : Blank ch) (ha : Tokens a ts)
    (hb : Tokens b us) : Tokens (a ++ ch :: b) (ts ++ us) := by
  have blanks : ∀ bs : List Char, (∀ c ∈ bs, Blank c) → Tokens (bs ++ ch :: b) us := by
    intro bs h
    have hbs : ∀ c ∈ bs ++ [ch], Blank c := by
      intro c hc'
      rw [List.mem_append, List.mem_singleton] at hc'
      rcases hc' with hc' | rfl
      · exact h c hc'
      · exact hc
    cases hb with
    | @blank bs' h' =>
      refine .blank fun c hc' => ?_
      have e : bs ++ ch :: b = (bs ++ [ch]) ++ b := by simp
      rw [e, List.mem_append] at hc'
      rcases hc' with hc' | hc'
      · exact hbs c hc'
      · exact h' c hc'
    | @word bs' t rest us h1 h2 h3 h4 h5 =>
      have e : bs ++ ch :: (bs' ++ (t ++ rest)) = ((bs ++ [ch]) ++ bs') ++ (t ++ rest) := by simp
      rw [e]
      refine .word (fun c hc' => ?_) h2 h3 h4 h5
      rw [List.mem_append] at hc'
      rcases hc' with hc' | hc'
      · exact hbs c hc'
      · exact h1 c hc'
  induction ha with
  | blank h => exact blanks _ h
  | @word bs t rest ts h1 h2 h3 h4 h5 ih =>
    have e : bs ++ (t ++ rest) ++ ch :: b = bs ++ (t ++ (rest ++ ch :: b)) := by simp
    rw [e]
    exact .word h1 h2 h3 (endsToken_append h4 fun c cs e => by cases e; exact hc) ih

/-- The text of the arguments, each with a blank after it. -/
def argsText (args : List (List Char)) : List Char := args.flatMap fun w => w ++ [' ']

/-- C62. The tokens of the arguments, in order, are the tokens of their text. -/
theorem C62_tokens {args : List (List Char × List (List Char))} (h : ∀ a ∈ args, Tokens a.1 a.2) :
    Tokens (argsText (args.map Prod.fst)) (args.flatMap Prod.snd) := by
  induction args with
  | nil => exact .blank (by simp [argsText])
  | cons a args ih =>
    have := C62_join (ch := ' ') (by decide) (h a (by simp)) (ih fun b hb => h b (by simp [hb]))
    simpa [argsText] using this

/-! ## The arguments -/

theorem addArgs_run : ∀ (args : List (List Char)) {s : VM} {buf : List Char}, s.task.st.sourceId = 0 →
    s.task.inbuf = some buf →
    addArgs args s = .ok ((), s.setTask { s.task with inbuf := some (buf ++ argsText args) }) := by
  intro args
  induction args with
  | nil =>
    intro s buf h0 hb
    have : s.setTask { s.task with inbuf := some (buf ++ argsText []) } = s := by
      have e : ({ s.task with inbuf := some (buf ++ argsText []) } : Task) = s.task := by
        rw [argsText, List.flatMap_nil, List.append_nil, ← hb]
      rw [e]; exact VM.setTask_task s
    rw [this]; rfl
  | cons w args ih =>
    intro s buf h0 hb
    have hn : ¬ (0 < s.task.st.sourceId.toInt) := by rw [h0]; decide
    have e1 : takeInput s = .ok (some buf, s.setTask { s.task with inbuf := none }) := by
      simp only [takeInput, inputBuffer, setInputBuffer, if_neg hn, hb]
    have hst : ∀ t : Task, (s.setTask t).task = t := fun t => by vm_simp
    have e2 : putInput (buf ++ w ++ [' ']) (s.setTask { s.task with inbuf := none }) =
        .ok ((), s.setTask { s.task with inbuf := some (buf ++ w ++ [' ']) }) := by
      simp only [putInput, hst, setInputBuffer, if_neg hn]
      vm_simp
    have e3 := ih (s := s.setTask { s.task with inbuf := some (buf ++ w ++ [' ']) }) (buf := buf ++ w ++ [' '])
      (by rw [hst]; exact h0) (by rw [hst])
    simp only [addArgs, bind, M.bind, e1, e2, e3]
    vm_simp
    simp [argsText]

/-- C62. The words given to the program are what is left to read after its own source text, whatever blanks they
hold: reading tokens gives those of the first word, then those of the second and so on. -/
theorem C62_args {s : VM} {buf old : List Char} {args : List (List Char × List (List Char))}
    (hr : Reading s.task buf []) (h0 : s.task.st.sourceId = 0) (ht : s.tkn = some old)
    (hb : byteLen buf + byteLen (argsText (args.map Prod.fst)) < 2 ^ 63) (h : ∀ a ∈ args, Tokens a.1 a.2) (k : Nat) :
    ∃ t, addArgs (args.map Prod.fst) s = .ok ((), t) ∧ Reading t.task buf (argsText (args.map Prod.fst)) ∧
      ∃ u, readTokens ((args.flatMap Prod.snd).length + k) t =
        .ok (args.flatMap Prod.snd ++ List.replicate k [], u) := by
  have hn : ¬ (0 < s.task.st.sourceId.toInt) := by rw [h0]; decide
  have hi : s.task.inbuf = some buf := by
    have := hr.buffer
    rw [inputBuffer, if_neg hn, List.append_nil] at this
    exact Except.ok.inj this
  have hr' : Reading (s.setTask { s.task with inbuf := some (buf ++ argsText (args.map Prod.fst)) }).task buf
      (argsText (args.map Prod.fst)) := by
    vm_simp
    exact ⟨by rw [inputBuffer, if_neg hn], hr.position, by rw [byteLen_append]; exact hb⟩
  refine ⟨_, addArgs_run _ h0 hi, hr', ?_⟩
  obtain ⟨n, x, h'⟩ := C18_tokens (args.flatMap Prod.snd) k _ _ _ old hr' (by vm_simp; exact ht) (C62_tokens h)
  exact ⟨_, h'⟩

/-! ## Lines -/

theorem setSource_run {s : VM} {text buf : List Char} (h0 : s.task.st.sourceId = 0) (hi : s.task.inbuf = some buf) :
    setSource text s = .ok ((), s.setTask
      { s.task with inbuf := some text, st := { s.task.st with sourceIndex := 0 } }) := by
  have hn : ¬ (0 < s.task.st.sourceId.toInt) := by rw [h0]; decide
  have e1 : takeInput s = .ok (some buf, s.setTask { s.task with inbuf := none }) := by
    simp only [takeInput, inputBuffer, setInputBuffer, if_neg hn, hi]
  vm_simp [setSource, takeInputE, e1, putInput, setInputBuffer, hn]
  rfl

/-- C62. A line typed at the prompt and entered is what the machine reads next: its tokens in order, and then
nothing. Only the input changes. -/
theorem C62_typed (w : List Char → Nat) (t : Term) {s : VM} {text buf old : List Char} {toks : List (List Char)}
    (h0 : s.task.st.sourceId = 0) (hi : s.task.inbuf = some buf) (ht : s.tkn = some old) (hb : byteLen text < 2 ^ 63)
    (htk : Tokens text toks) (k : Nat) :
    ∃ r t' fs u, readLine w t (typedKeys text ++ [.plain .enter]) = .ok (r, t', fs) ∧ receive r s = .ok ((), u) ∧
      u = s.setTask { s.task with inbuf := some text, st := { s.task.st with sourceIndex := 0 } } ∧
      Reading u.task [] text ∧ ∃ v, readTokens (toks.length + k) u = .ok (toks ++ List.replicate k [], v) := by
  obtain ⟨fs, h⟩ := C61_typed w t text []
  have hn : ¬ (0 < s.task.st.sourceId.toInt) := by rw [h0]; decide
  have hr : Reading (s.setTask { s.task with inbuf := some text, st := { s.task.st with sourceIndex := 0 } }).task []
      text := by
    vm_simp
    exact ⟨by rw [inputBuffer, if_neg hn]; rfl, rfl, by simpa using hb⟩
  refine ⟨_, _, _, _, h, setSource_run h0 hi, rfl, hr, ?_⟩
  obtain ⟨n, x, h'⟩ := C18_tokens toks k _ _ _ old hr (by vm_simp; exact ht) htk
  exact ⟨_, h'⟩

/-- C62. Ctrl-D makes the program stop: the instruction pointer is 0, where `run` ends, and nothing else changes.
An error of the terminal is printed, and the last line stays in the input. -/
theorem C62_end (s : VM) : receive .eof s = .ok ((), s.setTask
      { s.task with st := { s.task.st with ip := 0 } }) ∧
    receive .failed s = .ok ((), { s with outbuf := s.outbuf.map (· ++ ascii "Other") }) := by
  constructor
  · vm_simp [receive, hear, bye, setIp]
  · rfl

/-! ## Instances -/

/-- Two arguments, the second of which is two words. -/
example : ∀ a ∈ [(['1'], [['1']]), (['2', ' ', '.'], [['2'], ['.']])], Tokens a.1 a.2 := by
  have one : ∀ c : Char, ¬ Blank c → ∀ {rest : List Char} {ts}, EndsToken rest → Tokens rest ts →
      Tokens (c :: rest) ([c] :: ts) := by
    intro c hc rest ts h1 h2
    exact .word (bs := []) (t := [c]) (by simp) (by simp) (by simpa using hc) h1 h2
  intro a h
  simp only [List.mem_cons, List.not_mem_nil, or_false] at h
  rcases h with rfl | rfl
  · exact one '1' (by decide) (fun _ _ h => by cases h) (.blank (by simp))
  · refine one '2' (by decide) (fun _ _ h => by cases h; decide) ?_
    exact .word (bs := [' ']) (t := ['.']) (rest := []) (by decide) (by decide) (by decide) (fun _ _ h => by cases h)
      (.blank (by simp))

end Verif
