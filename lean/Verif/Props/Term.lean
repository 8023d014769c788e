import Verif.Lemmas.Term
import Verif.Props.Lines

/-!
# C61: the line editor
-/

namespace Verif

open Spec

/-! ## What is read -/

/-- C61. A line that is entered is the text that the keys made, and it becomes the last line of the history. -/
theorem C61_line (w : List Char → Nat) (t : Term) {es : List Event} (hes : ∀ ev ∈ es, Ongoing ev)
    (rest : List Event) {d : Desk} (hd : d = (Desk.fresh t.history).run es) :
    readLine w t (es ++ .plain .enter :: rest) =
      .ok (.line d.text, ⟨entered d.lines d.text, d.text⟩,
        (Desk.fresh t.history).film w (es ++ [.plain .enter])) := by
  obtain ⟨e, he, h⟩ := editLoop_run w hes (fresh_holds t.history) (.plain .enter :: rest)
  rw [← hd] at he
  have film : ∀ (d : Desk) (es : List Event), d.film w (es ++ [.plain .enter]) =
      d.film w es ++ [((d.run es).press .enter).look w] := by
    intro d es
    induction es generalizing d with
    | nil => rfl
    | cons ev es ih => simp only [List.cons_append, Desk.film, ih]; rfl
  rw [readLine, h, film, ← hd]
  obtain ⟨e1, h1, h2⟩ := pressKey_run he .enter
  have hb : e1.buffer = d.text := by rw [h2.buffer]; simp [Desk.press, Desk.text]
  have hl : e1.history = d.lines := h2.history
  have hne : d.lines ≠ [] := by simp [Desk.lines]
  have hf : finishLine e1 = .ok ⟨entered d.lines d.text, d.text⟩ := by
    unfold finishLine entered
    rw [hb, hl]
    by_cases h0 : d.text = []
    · rw [if_pos (byteLen_eq_zero.2 h0), if_pos h0]
    · rw [if_neg (fun h => h0 (byteLen_eq_zero.1 h)), if_neg h0, if_pos (List.length_pos_iff.2 hne)]
      congr 2
      obtain ⟨a, b, hab⟩ := (snoc_cases d.lines).resolve_left hne
      rw [hab]; simp
  simp only [editLoop, h1, frame_run w h2, hf, bind, Except.bind]

/-- C61. Ctrl-D ends the reading. The empty line that the editor began with stays in the history. -/
theorem C61_eof (w : List Char → Nat) (t : Term) {es : List Event} (hes : ∀ ev ∈ es, Ongoing ev)
    (rest : List Event) {d : Desk} (hd : d = (Desk.fresh t.history).run es) :
    readLine w t (es ++ .control (.char 'd') :: rest) =
      .ok (.eof, ⟨d.lines, d.text⟩, (Desk.fresh t.history).film w es) := by
  obtain ⟨e, he, h⟩ := editLoop_run w hes (fresh_holds t.history) (.control (.char 'd') :: rest)
  rw [← hd] at he
  rw [readLine, h]
  simp only [editLoop, bind, Except.bind, he.history, he.buffer, List.append_nil]

/-- C61. So does an error of the terminal. -/
theorem C61_failed (w : List Char → Nat) (t : Term) {es : List Event} (hes : ∀ ev ∈ es, Ongoing ev)
    (rest : List Event) {d : Desk} (hd : d = (Desk.fresh t.history).run es) :
    readLine w t (es ++ .error :: rest) =
      .ok (.failed, ⟨d.lines, d.text⟩, (Desk.fresh t.history).film w es) := by
  obtain ⟨e, he, h⟩ := editLoop_run w hes (fresh_holds t.history) (.error :: rest)
  rw [← hd] at he
  rw [readLine, h]
  simp only [editLoop, bind, Except.bind, he.history, he.buffer, List.append_nil]

/-- C61. Nothing else does. -/
theorem C61_waiting (w : List Char → Nat) (t : Term) {es : List Event} (hes : ∀ ev ∈ es, Ongoing ev)
    {d : Desk} (hd : d = (Desk.fresh t.history).run es) :
    readLine w t es = .ok (.waiting, ⟨d.lines, d.text⟩, (Desk.fresh t.history).film w es) := by
  obtain ⟨e, he, h⟩ := editLoop_run w hes (fresh_holds t.history) []
  rw [← hd] at he
  rw [List.append_nil] at h
  rw [readLine, h]
  simp only [editLoop, bind, Except.bind, he.history, he.buffer, List.append_nil]

/-- C61. Whatever comes from the keyboard, reading a line does not panic: positions stay between characters,
and the history is never indexed outside of it. -/
theorem C61_total (w : List Char → Nat) (t : Term) (es : List Event) : ∃ r, readLine w t es = .ok r := by
  have : (∀ ev ∈ es, Ongoing ev) ∨ ∃ a ev b, es = a ++ ev :: b ∧ (∀ ev ∈ a, Ongoing ev) ∧ ¬Ongoing ev := by
    induction es with
    | nil => exact .inl (by simp)
    | cons ev es ih =>
      by_cases ho : Ongoing ev
      · rcases ih with h | ⟨a, e, b, h1, h2, h3⟩
        · exact .inl (by simpa using ⟨ho, h⟩)
        · exact .inr ⟨ev :: a, e, b, by rw [h1]; rfl, by simpa using ⟨ho, h2⟩, h3⟩
      · exact .inr ⟨[], ev, es, rfl, by simp, ho⟩
  rcases this with h | ⟨a, ev, b, rfl, h2, h3⟩
  · exact ⟨_, C61_waiting w t h rfl⟩
  · by_cases h4 : ev = .plain .enter
    · subst h4; exact ⟨_, C61_line w t h2 b rfl⟩
    · by_cases h5 : ev = .control (.char 'd')
      · subst h5; exact ⟨_, C61_eof w t h2 b rfl⟩
      · by_cases h6 : ev = .error
        · subst h6; exact ⟨_, C61_failed w t h2 b rfl⟩
        · exact absurd ⟨h4, h5, h6⟩ h3

/-! ## What keys make -/

/-- The events of typing a text. -/
def typedKeys (text : List Char) : List Event := text.map fun ch => .plain (.char ch)

theorem typing_ongoing (text : List Char) : ∀ ev ∈ typedKeys text, Ongoing ev := by
  intro ev h
  obtain ⟨ch, _, rfl⟩ := List.mem_map.1 h
  exact ⟨by simp, by simp, by simp⟩

/-- C61. A text that is typed goes to the left of the cursor. -/
theorem C61_typing (d : Desk) (text : List Char) :
    d.run (typedKeys text) = { d with left := d.left ++ text } := by
  induction text generalizing d with
  | nil => simp [typedKeys, Desk.run]
  | cons ch text ih =>
    have : d.run (typedKeys (ch :: text)) = (d.press (.char ch)).run (typedKeys text) := rfl
    rw [this, ih]
    simp [Desk.press]

/-- C61. A text typed and entered is what is read, and is added to the history unless it is empty. -/
theorem C61_typed (w : List Char → Nat) (t : Term) (text : List Char) (rest : List Event) :
    ∃ fs, readLine w t (typedKeys text ++ .plain .enter :: rest) =
      .ok (.line text, ⟨if text = [] then t.history else t.history ++ [text], text⟩, fs) := by
  have hd : (Desk.fresh t.history).run (typedKeys text) = ⟨t.history, [], text, [], []⟩ := by
    rw [C61_typing]; rfl
  refine ⟨(Desk.fresh t.history).film w (typedKeys text ++ [.plain .enter]),
    (C61_line w t (typing_ongoing text) rest hd.symm).trans ?_⟩
  simp [Desk.text, Desk.lines, entered]

/-- C61. Backspace takes away the character typed last, whatever is around it. -/
theorem C61_backspace (d : Desk) (ch : Char) : d.run [.plain (.char ch), .plain .backspace] = d := by
  simp [Desk.run, Desk.happen, Desk.press]

/-- C61. Left and right undo each other, and do not change the text. -/
theorem C61_move (d : Desk) : (d.press .left).text = d.text ∧ (d.press .right).text = d.text ∧
    (d.left ≠ [] → (d.press .left).press .right = d) ∧ (d.right ≠ [] → (d.press .right).press .left = d) := by
  obtain ⟨bf, old, l, r, af⟩ := d
  refine ⟨?_, ?_, ?_, ?_⟩
  · rcases snoc_cases l with rfl | ⟨a, b, rfl⟩ <;> simp [Desk.press, Desk.text]
  · cases r <;> simp [Desk.press, Desk.text]
  · intro h
    obtain ⟨a, b, rfl⟩ := (snoc_cases l).resolve_left h
    simp [Desk.press]
  · intro h
    cases r with
    | nil => exact absurd rfl h
    | cons ch r => simp [Desk.press]

/-- Up through some lines. -/
theorem run_up (a : List (List Char)) (l : List Char) (b : List (List Char)) (old left right : List Char)
    (aft : List (List Char)) :
    (Desk.mk (a ++ l :: b) old left right aft).run (List.replicate (b.length + 1) (.plain .up)) =
      ⟨a, l, l, [], b ++ (left ++ right) :: aft⟩ := by
  have : ∀ n (b : List (List Char)) (old left right : List Char) (aft : List (List Char)), b.length = n →
      (Desk.mk (a ++ l :: b) old left right aft).run (List.replicate (n + 1) (.plain .up)) =
      ⟨a, l, l, [], b ++ (left ++ right) :: aft⟩ := by
    intro n
    induction n with
    | zero =>
      intro b old left right aft h
      rw [List.length_eq_zero_iff] at h
      subst h
      simp [Desk.run, Desk.happen, Desk.press, Desk.text]
    | succ n ih =>
      intro b old left right aft h
      rcases snoc_cases b with rfl | ⟨b', m, rfl⟩
      · simp at h
      · rw [List.replicate_succ]
        have e : Desk.happen ⟨a ++ l :: (b' ++ [m]), old, left, right, aft⟩ (.plain .up) =
            ⟨a ++ l :: b', m, m, [], (left ++ right) :: aft⟩ := by
          have e2 : a ++ l :: (b' ++ [m]) = (a ++ l :: b') ++ [m] := by simp
          rw [e2]
          generalize a ++ l :: b' = p
          simp [Desk.happen, Desk.press, Desk.text]
        have := ih b' m m [] ((left ++ right) :: aft) (by simpa using h)
        simp only [Desk.run, List.foldl_cons, e] at this ⊢
        rw [this]
        simp
  exact this _ _ _ _ _ _ rfl

/-- C61. The `n`-th up after a fresh prompt brings the `n`-th last line of the history. Entered, it is read
again, and the history is as before with that line once more at its end. -/
theorem C61_recall (w : List Char → Nat) (t : Term) {a : List (List Char)} {l : List Char} {b : List (List Char)}
    (h : t.history = a ++ l :: b) (hl : l ≠ []) (rest : List Event) :
    ∃ fs, readLine w t (List.replicate (b.length + 1) (.plain .up) ++ .plain .enter :: rest) =
      .ok (.line l, ⟨t.history ++ [l], l⟩, fs) := by
  have hd : (Desk.fresh t.history).run (List.replicate (b.length + 1) (.plain .up)) = ⟨a, l, l, [], b ++ [[]]⟩ := by
    rw [h]; exact run_up a l b [] [] [] []
  refine ⟨(Desk.fresh t.history).film w (List.replicate (b.length + 1) (.plain .up) ++ [.plain .enter]),
    (C61_line w t (fun ev hev => ?_) rest hd.symm).trans ?_⟩
  · rw [(List.mem_replicate.1 hev).2]; decide
  · have : (a ++ l :: (b ++ [[]])).dropLast = a ++ l :: b := by
      rw [← List.cons_append, ← List.append_assoc, List.dropLast_concat]
    simp only [Desk.text, Desk.lines, entered, List.append_nil, hl, if_false, this, h]

/-- C61. Up and then down brings back what was being typed, with the cursor at its end. -/
theorem C61_up_down (d : Desk) (h : d.before ≠ []) :
    d.run [.plain .up, .plain .down] = ⟨d.before, d.text, d.text, [], d.after⟩ := by
  obtain ⟨bf, old, l, r, af⟩ := d
  obtain ⟨a, b, rfl⟩ := (snoc_cases bf).resolve_left h
  simp [Desk.run, Desk.happen, Desk.press, Desk.text]

/-! ## The history -/

/-- Keys that choose another line. -/
def Browses : Event → Prop
  | .plain .up => True
  | .plain .down => True
  | _ => False

/-- Keys that change the text. -/
def Alters : Event → Prop
  | .plain (.char _) => True
  | .plain .backspace => True
  | _ => False

theorem happen_still {ev : Event} (h : ¬Browses ev) (d : Desk) : (d.happen ev).before = d.before ∧
    (d.happen ev).old = d.old ∧ (d.happen ev).after = d.after := by
  obtain ⟨bf, old, l, r, af⟩ := d
  cases ev with
  | plain k =>
    cases k with
    | up => exact absurd trivial h
    | down => exact absurd trivial h
    | left => rcases snoc_cases l with rfl | ⟨a, b, rfl⟩ <;> simp [Desk.happen, Desk.press]
    | right => cases r <;> simp [Desk.happen, Desk.press]
    | _ => exact ⟨rfl, rfl, rfl⟩
  | _ => exact ⟨rfl, rfl, rfl⟩

theorem run_still {es : List Event} (h : ∀ ev ∈ es, ¬Browses ev) (d : Desk) : (d.run es).before = d.before ∧
    (d.run es).old = d.old ∧ (d.run es).after = d.after := by
  induction es generalizing d with
  | nil => exact ⟨rfl, rfl, rfl⟩
  | cons ev es ih =>
    have h1 := ih (fun e he => h e (by simp [he])) (d.happen ev)
    have h2 := happen_still (h ev (by simp)) d
    exact ⟨h1.1.trans h2.1, h1.2.1.trans h2.2.1, h1.2.2.trans h2.2.2⟩

theorem happen_browse {ev : Event} (h : ¬Alters ev) (d : Desk) (hd : d.after ≠ [] → d.old = d.text) :
    (d.happen ev).before ++ (d.happen ev).text :: (d.happen ev).after = d.before ++ d.text :: d.after ∧
      ((d.happen ev).after ≠ [] → (d.happen ev).old = (d.happen ev).text) := by
  obtain ⟨bf, old, l, r, af⟩ := d
  cases ev with
  | plain k =>
    cases k with
    | up => rcases snoc_cases bf with rfl | ⟨a, b, rfl⟩ <;> simp [Desk.happen, Desk.press, Desk.text]
    | down => cases af <;> simp [Desk.happen, Desk.press, Desk.text]
    | left =>
      rcases snoc_cases l with rfl | ⟨a, b, rfl⟩ <;> simpa [Desk.happen, Desk.press, Desk.text] using hd
    | right => cases r <;> simpa [Desk.happen, Desk.press, Desk.text] using hd
    | char ch => exact absurd trivial h
    | backspace => exact absurd trivial h
    | enter => simpa [Desk.happen, Desk.press, Desk.text] using hd
    | other => exact ⟨rfl, hd⟩
  | _ => exact ⟨rfl, hd⟩

theorem run_browse {es : List Event} (h : ∀ ev ∈ es, ¬Alters ev) (d : Desk) (hd : d.after ≠ [] → d.old = d.text) :
    (d.run es).before ++ (d.run es).text :: (d.run es).after = d.before ++ d.text :: d.after ∧
      ((d.run es).after ≠ [] → (d.run es).old = (d.run es).text) := by
  induction es generalizing d with
  | nil => exact ⟨rfl, hd⟩
  | cons ev es ih =>
    have h2 := happen_browse (h ev (by simp)) d hd
    have h1 := ih (fun e he => h e (by simp [he])) (d.happen ev) h2.2
    exact ⟨h1.1.trans h2.1, h1.2⟩

/-- C61. Entering a line leaves the older lines alone when one types, then looks for an older line without
changing anything, then changes the line that was found. Missing: an older line that is changed and then left with
up or down stays changed, see `C61_older_refuted`. -/
theorem C61_older_partial (w : List Char → Nat) (t : Term) {es1 es2 es3 : List Event}
    (hes : ∀ ev ∈ es1 ++ es2 ++ es3, Ongoing ev) (h1 : ∀ ev ∈ es1, ¬Browses ev) (h2 : ∀ ev ∈ es2, ¬Alters ev)
    (h3 : ∀ ev ∈ es3, ¬Browses ev) (rest : List Event) :
    ∃ text fs, readLine w t (es1 ++ es2 ++ es3 ++ .plain .enter :: rest) =
      .ok (.line text, ⟨if text = [] then t.history else t.history ++ [text], text⟩, fs) := by
  have key : ((Desk.fresh t.history).run (es1 ++ es2 ++ es3)).lines.dropLast = t.history := by
    simp only [Desk.run, List.foldl_append]
    have e1 := run_still h1 (Desk.fresh t.history)
    simp only [Desk.run] at e1
    generalize List.foldl Desk.happen (Desk.fresh t.history) es1 = d1 at e1
    obtain ⟨hb, ho, ha⟩ := e1
    have e2 := run_browse h2 d1 (fun h => absurd ha h)
    simp only [Desk.run] at e2
    generalize List.foldl Desk.happen d1 es2 = d2 at e2
    have e3 := run_still h3 d2
    simp only [Desk.run] at e3
    generalize List.foldl Desk.happen d2 es3 = d3 at e3
    rw [Desk.lines, e3.1, e3.2.1, e3.2.2]
    rw [hb, ha] at e2
    have e4 := congrArg List.dropLast e2.1
    simp only [Desk.fresh, List.dropLast_concat] at e4
    rw [← e4]
    cases h : d2.after with
    | nil => simp
    | cons l ls =>
      rw [e2.2 (by rw [h]; simp)]
  refine ⟨((Desk.fresh t.history).run (es1 ++ es2 ++ es3)).text,
    (Desk.fresh t.history).film w (es1 ++ es2 ++ es3 ++ [.plain .enter]),
    (C61_line w t hes rest rfl).trans ?_⟩
  simp only [entered, key]

/-- C61. The number of lines grows by one, or stays when nothing was entered. -/
theorem C61_count (w : List Char → Nat) (t : Term) {es : List Event} (hes : ∀ ev ∈ es, Ongoing ev)
    (rest : List Event) : ∃ text t' fs, readLine w t (es ++ .plain .enter :: rest) = .ok (.line text, t', fs) ∧
      t'.history.length = t.history.length + (if text = [] then 0 else 1) ∧
      (text ≠ [] → t'.history.getLast? = some text) := by
  refine ⟨_, _, _, C61_line w t hes rest rfl, ?_, ?_⟩
  · have : ∀ (es : List Event) (d : Desk), (d.run es).lines.length = d.lines.length := by
      intro es
      induction es with
      | nil => intro d; rfl
      | cons ev es ih =>
        intro d
        rw [show d.run (ev :: es) = (d.happen ev).run es from rfl, ih]
        obtain ⟨bf, old, l, r, af⟩ := d
        cases ev with
        | plain k =>
          cases k with
          | up => rcases snoc_cases bf with rfl | ⟨a, b, rfl⟩ <;> simp [Desk.happen, Desk.press, Desk.lines]
          | down => cases af <;> simp [Desk.happen, Desk.press, Desk.lines]
          | left => rcases snoc_cases l with rfl | ⟨a, b, rfl⟩ <;> simp [Desk.happen, Desk.press, Desk.lines]
          | right => cases r <;> simp [Desk.happen, Desk.press, Desk.lines]
          | _ => rfl
        | _ => rfl
    have hl := this es (Desk.fresh t.history)
    have hf : (Desk.fresh t.history).lines.length = t.history.length + 1 := by simp [Desk.fresh, Desk.lines]
    simp only [entered]
    split <;> simp [hl, hf]
  · intro h
    simp only [entered, if_neg h]
    simp

/-- C61. Older lines can change: up, `x`, down, enter leaves `x` at the end of a line that was entered before. -/
theorem C61_older_refuted : ¬∀ (w : List Char → Nat) (t : Term) (es : List Event) (r : Reply) (t' : Term)
    (fs : List Picture), readLine w t es = .ok (r, t', fs) → t.history <+: t'.history := by
  intro h
  have e := C61_line List.length ⟨[['a', 'b']], []⟩
    (es := [.plain .up, .plain (.char 'x'), .plain .down]) (by decide) [] rfl
  exact absurd (h _ _ _ _ _ _ e) (by decide)

/-! ## The history file -/

theorem fileLines_run {cs : List Char} {ls : List (List Char × List Char)} (h : Lines cs ls) :
    ∀ {n : Nat}, (utf8 cs).length ≤ n → fileLines n (utf8 cs) = ls.map Prod.fst := by
  induction ls generalizing cs with
  | nil =>
    cases h
    intro n _
    cases n <;> rfl
  | cons x ls ih =>
    obtain ⟨l, e⟩ := x
    obtain ⟨rest, rfl, h1, h2, h3, h4⟩ := h.head
    intro n hn
    have hne : utf8 (l ++ e) ≠ [] := by
      intro h0
      have := decodeUtf8_utf8 (l ++ e)
      rw [h0] at this
      have e0 := decodeUtf8_utf8 []
      rw [show utf8 [] = [] from rfl, this] at e0
      exact h2 (Option.some.inj e0)
    have hpos := List.length_pos_iff.2 hne
    rw [utf8_append] at hn ⊢
    rw [List.length_append] at hn
    cases n with
    | zero => omega
    | succ n =>
      rw [utf8_append] at h3
      simp only [fileLines, List.append_eq_nil_iff, hne, false_and, if_false, h3, decodeUtf8_utf8, h4,
        List.map_cons]
      rw [List.drop_left, ih h1 (by omega)]

/-- C61. The history is the last 32 lines of the history file. -/
theorem C61_new {cs : List Char} {ls : List (List Char × List Char)} (h : Lines cs ls) :
    Term.new (some (utf8 cs)) = ⟨lastOf 32 (ls.map Prod.fst), []⟩ := by
  simp only [Term.new, fileLines_run h (Nat.le_refl _), lastOf]
  congr 2
  split <;> omega

/-- C61. The history begins with at most 32 lines, whatever the file holds. -/
theorem C61_new_count (file : Option (List Byte)) : (Term.new file).history.length ≤ 32 := by
  unfold Term.new
  cases file <;> simp only [List.length_drop] <;> split <;> omega

theorem lines_join {ls : List (List Char)} (h : ∀ l ∈ ls, Storable l) :
    Lines (ls.flatMap fun l => l ++ ['\n']) (ls.map fun l => (l, ['\n'])) := by
  induction ls with
  | nil => exact .nil
  | cons l ls ih =>
    have hl := h l (by simp)
    have := Lines.lf hl.1 hl.2 (ih fun l' hl' => h l' (by simp [hl']))
    simpa using this

/-- C61. What is saved when the program ends is found again when it starts: the lines among the last 32 that are
not empty. -/
theorem C61_saved {t : Term} (h : ∀ l ∈ t.history, Storable l) :
    Term.new (some t.saved) = ⟨(lastOf 32 t.history).filter (· ≠ []), []⟩ := by
  have hs : t.saved = utf8 (((lastOf 32 t.history).filter (· ≠ [])).flatMap fun l => l ++ ['\n']) := by
    have hstart : (if 32 < t.history.length then t.history.length - 32 else 0) = t.history.length - 32 := by
      split <;> omega
    simp only [Term.saved, hstart, lastOf]
    generalize t.history.drop (t.history.length - 32) = ls
    induction ls with
    | nil => rfl
    | cons l ls ih =>
      by_cases hl : l = []
      · subst hl
        simp only [List.flatMap_cons]
        rw [ih]
        simp [byteLen]
      · have : 0 < byteLen l := Nat.pos_of_ne_zero fun h => hl (byteLen_eq_zero.1 h)
        rw [List.filter_cons_of_pos (by simpa using hl)]
        simp only [List.flatMap_cons, ih, if_pos this, utf8_append, utf8_newline]
  have hl : ∀ l ∈ (lastOf 32 t.history).filter (· ≠ []), Storable l :=
    fun l hl => h l (List.mem_of_mem_drop (List.mem_filter.1 hl).1)
  rw [hs, C61_new (lines_join hl), List.map_map]
  have : (Prod.fst ∘ fun l : List Char => (l, ['\n'])) = id := rfl
  rw [this, List.map_id]
  congr 1
  unfold lastOf
  have hle := List.length_filter_le (fun l : List Char => decide (l ≠ [])) (t.history.drop (t.history.length - 32))
  rw [List.length_drop] at hle
  rw [show (List.filter (fun l : List Char => decide (l ≠ [])) (t.history.drop (t.history.length - 32))).length - 32
    = 0 by omega, List.drop_zero]

/-- C61. So a history of lines that are not empty survives, up to its last 32 lines. -/
theorem C61_kept {t : Term} (h : ∀ l ∈ t.history, Storable l) (hne : [] ∉ t.history) :
    (Term.new (some t.saved)).history = lastOf 32 t.history := by
  rw [C61_saved h]
  apply List.filter_eq_self.2
  intro l hl
  have : l ∈ t.history := List.mem_of_mem_drop hl
  simp only [ne_eq, decide_eq_true_eq]
  rintro rfl
  exact hne this

/-- C61. But only the last 31 lines survive Ctrl-D, since the empty line of the prompt counts as one of the 32. -/
theorem C61_quit (w : List Char → Nat) {t : Term} (h : ∀ l ∈ t.history, Storable l) (hne : [] ∉ t.history) :
    ∃ t' fs, readLine w t [.control (.char 'd')] = .ok (.eof, t', fs) ∧
      (Term.new (some t'.saved)).history = lastOf 31 t.history := by
  refine ⟨_, _, C61_eof w t (es := []) (by simp) [] rfl, ?_⟩
  have e : ((Desk.fresh t.history).run []).lines = t.history ++ [[]] := rfl
  rw [e, C61_saved (by
    intro l hl
    simp only [List.mem_append, List.mem_singleton] at hl
    rcases hl with hl | rfl
    · exact h l hl
    · exact ⟨by simp, by simp⟩)]
  simp only [lastOf, List.length_append, List.length_cons, List.length_nil]
  rw [show t.history.length + (0 + 1) - 32 = t.history.length - 31 by omega,
    List.drop_append_of_le_length (by omega), List.filter_append]
  have : List.filter (fun l : List Char => decide (l ≠ [])) [[]] = [] := rfl
  rw [this, List.append_nil]
  apply List.filter_eq_self.2
  intro l hl
  have : l ∈ t.history := List.mem_of_mem_drop hl
  simp only [ne_eq, decide_eq_true_eq]
  rintro rfl
  exact hne this

/-- C61. So it is not true that a program ended by Ctrl-D keeps as many lines as one ended by `bye`. -/
theorem C61_quit_refuted : ¬∀ (w : List Char → Nat) (t t' : Term) (fs : List Picture), (∀ l ∈ t.history, Storable l) →
    [] ∉ t.history → readLine w t [.control (.char 'd')] = .ok (.eof, t', fs) →
    (Term.new (some t'.saved)).history = (Term.new (some t.saved)).history := by
  intro h
  have hs : ∀ l ∈ (Term.mk (List.replicate 32 ['a']) []).history, Storable l := by
    intro l hl
    rw [(List.mem_replicate.1 hl).2]
    exact ⟨by decide, by decide⟩
  have hne : [] ∉ (Term.mk (List.replicate 32 ['a']) []).history := by decide
  obtain ⟨t', fs, h1, h2⟩ := C61_quit List.length hs hne
  have := h _ _ _ _ hs hne h1
  rw [h2, C61_kept hs hne] at this
  exact absurd (congrArg List.length this) (by decide)

/-! ## Instances -/

/-- A letter of two bytes and one of three, a step back over each of them, and one of them deleted. -/
example : (readLine List.length ⟨[['d', 'u', 'p']], []⟩
    [.plain (.char 'é'), .plain (.char '語'), .plain .left, .plain .left, .plain .right, .plain (.char 'x'),
      .plain .backspace, .plain .backspace, .control (.char 'c'), .other, .plain .enter]).toOption =
    some (.line ['語'], ⟨[['d', 'u', 'p'], ['語']], ['語']⟩,
      [⟨['é'], 1⟩, ⟨['é', '語'], 2⟩, ⟨['é', '語'], 1⟩, ⟨['é', '語'], 0⟩, ⟨['é', '語'], 1⟩, ⟨['é', 'x', '語'], 2⟩,
        ⟨['é', '語'], 1⟩, ⟨['語'], 0⟩, ⟨['語'], 0⟩, ⟨['語'], 0⟩, ⟨['語'], 1⟩]) := by decide +kernel

example : ∀ ev ∈ [Event.plain (.char 'é'), .plain .left, .control (.char 'c'), .other], Ongoing ev := by decide

/-- Typing, looking for a line, changing it. -/
example : (∀ ev ∈ typedKeys ['1'] ++ [.plain .up, .plain .up, .plain .down] ++ [.plain .backspace, .plain (.char 'x')],
    Ongoing ev) ∧ (∀ ev ∈ typedKeys ['1'], ¬Browses ev) ∧
    (∀ ev ∈ [Event.plain .up, .plain .up, .plain .down], ¬Alters ev) ∧
    ∀ ev ∈ [Event.plain .backspace, .plain (.char 'x')], ¬Browses ev := by
  refine ⟨by decide, ?_, ?_, ?_⟩ <;> intro ev h <;> simp [typedKeys] at h <;> rcases h with rfl | rfl | rfl <;>
    simp [Browses, Alters]

example : Storable ['w', 'o', 'r', 'd', 's'] := ⟨by decide, by decide⟩

/-- The second line from the end of a history of three. -/
example : (Term.mk [['1'], ['2'], ['3']] []).history = [['1']] ++ ['2'] :: [['3']] := rfl

/-- Lines are kept apart, whatever ends them, and the empty ones are in the history until it is saved. -/
example : Lines ['a', '\r', '\n', '\n', 'b'] [(['a'], ['\r', '\n']), ([], ['\n']), (['b'], [])] :=
  .crlf (l := ['a']) (rest := ['\n', 'b']) (by decide)
    (.lf (l := []) (rest := ['b']) (by decide) (by decide) (.last (by decide) (by decide)))

end Verif
