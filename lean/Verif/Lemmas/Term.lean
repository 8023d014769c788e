import Verif.Spec.Term
import Verif.Lemmas.Text

/-!
# Facts about the line editor
-/

namespace Verif

open Spec

theorem byteLen_snoc (a : List Char) (c : Char) : byteLen (a ++ [c]) = byteLen a + c.utf8Size := by
  simp [byteLen]

theorem utf8Size_pos (c : Char) : 0 < c.utf8Size := c.utf8Size_pos

/-- A prefix ends on a boundary. -/
theorem isBoundary_prefix (a b : List Char) : isBoundary (a ++ b) (byteLen a) = true := by
  simp [isBoundary, splitAtByte_append]

/-- There is no boundary inside a character. -/
theorem isBoundary_inside (a b : List Char) (c : Char) {x : Nat} (h1 : byteLen a < x)
    (h2 : x < byteLen a + c.utf8Size) : isBoundary (a ++ c :: b) x = false := by
  induction a generalizing x with
  | nil =>
    cases x with
    | zero => simp [byteLen] at h1
    | succ n =>
      simp only [byteLen] at h2
      simp only [isBoundary, List.nil_append, splitAtByte]
      rw [if_neg (by omega)]; rfl
  | cons d a ih =>
    cases x with
    | zero => omega
    | succ n =>
      simp only [byteLen] at h1 h2
      have := ih (x := n + 1 - d.utf8Size) (by omega) (by omega)
      simp only [isBoundary, Option.isSome_eq_false_iff, Option.isNone_iff_eq_none] at this
      simp only [isBoundary, List.cons_append, splitAtByte]
      rw [if_pos (by omega), this]; rfl

theorem boundaryDown_prefix (a b : List Char) : boundaryDown (a ++ b) (byteLen a) = byteLen a := by
  cases h : byteLen a with
  | zero => rfl
  | succ n => rw [boundaryDown, ← h, if_pos (isBoundary_prefix a b)]

/-- Going down from inside a character leads to its beginning. -/
theorem boundaryDown_inside (a b : List Char) (c : Char) (k : Nat) (h : k < c.utf8Size) :
    boundaryDown (a ++ c :: b) (byteLen a + k) = byteLen a := by
  induction k with
  | zero => exact boundaryDown_prefix a (c :: b)
  | succ k ih =>
    rw [← Nat.add_assoc, boundaryDown, if_neg (by rw [isBoundary_inside a b c (by omega) (by omega)]; decide)]
    exact ih (by omega)

theorem boundaryUp_prefix (a b : List Char) : boundaryUp (a ++ b) (byteLen a) = .ok (byteLen a) := by
  rw [boundaryUp, if_pos (isBoundary_prefix a b)]

/-- Going up from inside a character leads to its end. -/
theorem boundaryUp_inside (a b : List Char) (c : Char) (k : Nat) (h0 : k < c.utf8Size) :
    boundaryUp (a ++ c :: b) (byteLen a + (c.utf8Size - k)) = .ok (byteLen a + c.utf8Size) := by
  induction k with
  | zero =>
    have := boundaryUp_prefix (a ++ [c]) b
    rw [byteLen_snoc] at this
    simpa using this
  | succ k ih =>
    rw [boundaryUp, if_neg (by rw [isBoundary_inside a b c (by omega) (by omega)]; decide),
      if_pos (by simp [byteLen]; omega)]
    have := ih (by omega)
    rwa [show c.utf8Size - k = c.utf8Size - (k + 1) + 1 by omega, ← Nat.add_assoc] at this

theorem boundaryUp_next (a b : List Char) (c : Char) :
    boundaryUp (a ++ c :: b) (byteLen a + 1) = .ok (byteLen (a ++ [c])) := by
  have h := utf8Size_pos c
  have := boundaryUp_inside a b c (c.utf8Size - 1) (by omega)
  rwa [show c.utf8Size - (c.utf8Size - 1) = 1 by omega, ← byteLen_snoc] at this

theorem byteLen_eq_zero {s : List Char} : byteLen s = 0 ↔ s = [] := by
  cases s with
  | nil => simp [byteLen]
  | cons c s => have := utf8Size_pos c; simp [byteLen]; omega

/-- A list is empty or ends in something. -/
theorem snoc_cases {α : Type} (l : List α) : l = [] ∨ ∃ a b, l = a ++ [b] := by
  cases h : l.getLast? with
  | none => exact .inl (List.getLast?_eq_none_iff.1 h)
  | some b =>
    obtain ⟨a, ha⟩ := List.getLast?_eq_some_iff.1 h
    exact .inr ⟨a, b, ha⟩

theorem keepDraft_run {e : Editor} {d : Desk} (h : Holds e d) :
    keepDraft e = .ok { e with history := d.before ++ d.text :: d.after } := by
  rw [keepDraft, if_pos (by rw [h.history, h.h]; simp [Desk.lines])]
  rw [h.history, h.h, h.buffer]
  simp [Desk.lines]

theorem recall_run {e : Editor} {a : List (List Char)} {l : List Char} {b : List (List Char)}
    (h1 : e.history = a ++ l :: b) (h2 : e.h = a.length) :
    recall e = .ok { e with buffer := l, x := byteLen l } := by
  unfold recall
  rw [h1, h2]
  simp

/-- Keys do to the editor what they do to the desk. -/
theorem pressKey_run {e : Editor} {d : Desk} (h : Holds e d) (k : Key) :
    ∃ e', pressKey e k = .ok e' ∧ Holds e' (d.press k) := by
  have hb : e.buffer = d.left ++ d.right := h.buffer
  cases k with
  | backspace =>
    rcases snoc_cases d.left with hl | ⟨a, c, hl⟩
    · refine ⟨e, ?_, ?_⟩
      · rw [pressKey, if_neg (by rw [h.x, hl]; simp [byteLen])]
      · have : d.press .backspace = d := by
          cases d; simp only [Desk.press] at *; simp [hl]
        rw [this]; exact h
    · have hp := utf8Size_pos c
      have hx : e.x = byteLen a + c.utf8Size := by rw [h.x, hl, byteLen_snoc]
      rw [hl, List.append_assoc] at hb
      simp only [List.cons_append, List.nil_append] at hb
      have hd : boundaryDown e.buffer (e.x - 1) = byteLen a := by
        rw [hb, hx, show byteLen a + c.utf8Size - 1 = byteLen a + (c.utf8Size - 1) by omega]
        exact boundaryDown_inside a d.right c _ (by omega)
      refine ⟨{ e with buffer := a ++ d.right, x := byteLen a }, ?_, ?_⟩
      · rw [pressKey, if_pos (by omega)]
        simp only [hd]
        simp only [removeAt, hb, splitAtByte_append]
        rfl
      · exact ⟨by simpa [Desk.press, Desk.lines] using h.history, by simp [Desk.press, Desk.text, hl],
          by simpa [Desk.press] using h.h, by simp [Desk.press, hl]⟩
  | enter =>
    exact ⟨_, rfl, by simpa [Desk.press, Desk.lines] using h.history, by simpa [Desk.press, Desk.text] using h.buffer,
      by simpa [Desk.press] using h.h, by simp [Desk.press, h.buffer]⟩
  | char c =>
    have hu := boundaryUp_next d.left d.right c
    refine ⟨{ e with buffer := d.left ++ c :: d.right, x := byteLen (d.left ++ [c]) }, ?_, ?_⟩
    · simp only [pressKey, insertAt, hb, h.x, splitAtByte_append]
      simp only [bind, Except.bind, hu]
    · exact ⟨by simpa [Desk.press, Desk.lines] using h.history, by simp [Desk.press, Desk.text],
        by simpa [Desk.press] using h.h, by simp [Desk.press]⟩
  | up =>
    simp only [pressKey, keepDraft_run h, bind, Except.bind]
    rcases snoc_cases d.before with hl | ⟨a, l, hl⟩
    · rw [recall_run (a := []) (l := d.text) (b := d.after) (by simp [hl]) (by simp [h.h, hl])]
      refine ⟨_, rfl, ?_⟩
      simp only [Desk.press, hl]
      exact ⟨by simp [Desk.lines], by simp [Desk.text], by simp [h.h, hl], rfl⟩
    · rw [recall_run (a := a) (l := l) (b := d.text :: d.after) (by simp [hl]) (by simp [h.h, hl])]
      refine ⟨_, rfl, ?_⟩
      simp only [Desk.press, hl]
      exact ⟨by simp [Desk.lines], by simp [Desk.text], by simp [h.h, hl], by simp⟩
  | down =>
    simp only [pressKey, keepDraft_run h, bind, Except.bind]
    cases ha : d.after with
    | nil =>
      rw [recall_run (a := d.before) (l := d.text) (b := []) (by simp) (by simp [h.h])]
      refine ⟨_, rfl, ?_⟩
      simp only [Desk.press, ha]
      exact ⟨by simp [Desk.lines], by simp [Desk.text], by simp [h.h], rfl⟩
    | cons l rest =>
      rw [recall_run (a := d.before ++ [d.text]) (l := l) (b := rest) (by simp) (by
        simp only [h.h, List.length_append, List.length_cons, List.length_nil]
        rw [if_neg (by omega)])]
      refine ⟨_, rfl, ?_⟩
      simp only [Desk.press, ha]
      refine ⟨by simp [Desk.lines], by simp [Desk.text], ?_, by simp⟩
      simp only [h.h, List.length_append, List.length_cons, List.length_nil]
      rw [if_neg (by omega)]
  | left =>
    rcases snoc_cases d.left with hl | ⟨a, c, hl⟩
    · have hx : e.x = 0 := by rw [h.x, hl]; rfl
      refine ⟨e, ?_, ?_⟩
      · simp only [pressKey, hx]
        cases e; simp only at hx; subst hx; rfl
      · simp only [Desk.press, hl]; exact h
    · have hp := utf8Size_pos c
      have hx : e.x = byteLen a + c.utf8Size := by rw [h.x, hl, byteLen_snoc]
      rw [hl, List.append_assoc] at hb
      simp only [List.cons_append, List.nil_append] at hb
      refine ⟨{ e with x := byteLen a }, ?_, ?_⟩
      · simp only [pressKey]
        rw [if_pos (by omega), hb, hx, show byteLen a + c.utf8Size - 1 = byteLen a + (c.utf8Size - 1) by omega,
          boundaryDown_inside a d.right c _ (by omega)]
      · simp only [Desk.press, hl, List.getLast?_append, List.getLast?_singleton, Option.some_or]
        exact ⟨by simpa [Desk.lines] using h.history, by simp [Desk.text, hb], by simpa using h.h, by simp⟩
  | right =>
    cases hr : d.right with
    | nil =>
      refine ⟨e, ?_, ?_⟩
      · simp only [pressKey]
        have hx : e.x = byteLen e.buffer := by rw [hb, hr, h.x]; simp
        rw [if_neg (by omega)]
        have := boundaryUp_prefix d.left d.right
        rw [← hb, ← h.x] at this
        simp only [this, bind, Except.bind]
      · simp only [Desk.press, hr]; exact h
    | cons c rest =>
      have hp := utf8Size_pos c
      rw [hr] at hb
      refine ⟨{ e with x := byteLen (d.left ++ [c]) }, ?_, ?_⟩
      · simp only [pressKey]
        rw [if_pos (by rw [hb, h.x]; simp [byteLen]; omega), hb, h.x, boundaryUp_next]
        simp only [bind, Except.bind]
      · simp only [Desk.press, hr]
        exact ⟨by simpa [Desk.lines] using h.history, by simp [Desk.text, hb], by simpa using h.h, by simp⟩
  | other => exact ⟨e, rfl, h⟩

theorem frame_run {e : Editor} {d : Desk} (w : List Char → Nat) (h : Holds e d) :
    frame w e = .ok (d.look w) := by
  simp only [frame, h.buffer, h.x, Desk.text, splitAtByte_append, Desk.look]

/-- Events that do not end the line do to the editor what they do to the desk, and are drawn. -/
theorem editLoop_run (w : List Char → Nat) {es : List Event} (hes : ∀ ev ∈ es, Ongoing ev) :
    ∀ {e : Editor} {d : Desk}, Holds e d → ∀ rest : List Event, ∃ e', Holds e' (d.run es) ∧
      editLoop w e (es ++ rest) = (do
        let (r, t, fs) ← editLoop w e' rest
        .ok (r, t, d.film w es ++ fs)) := by
  induction es with
  | nil =>
    intro e d h rest
    refine ⟨e, h, ?_⟩
    simp only [List.nil_append, Desk.film]
    cases editLoop w e rest <;> rfl
  | cons ev es ih =>
    intro e d h rest
    have ho := hes ev (by simp)
    have hes' : ∀ ev ∈ es, Ongoing ev := fun ev hev => hes ev (by simp [hev])
    have still : ∀ e' : Editor, Holds e' (d.happen ev) → editLoop w e ((ev :: es) ++ rest) = (do
        let f ← frame w e'
        let (r, t, fs) ← editLoop w e' (es ++ rest)
        .ok (r, t, f :: fs)) → ∃ e', Holds e' (d.run (ev :: es)) ∧
      editLoop w e (ev :: es ++ rest) = (do
        let (r, t, fs) ← editLoop w e' rest
        .ok (r, t, d.film w (ev :: es) ++ fs)) := by
      intro e1 h1 he
      obtain ⟨e2, h2, h3⟩ := ih hes' h1 rest
      refine ⟨e2, h2, ?_⟩
      rw [he, frame_run w h1, h3]
      cases editLoop w e2 rest <;> rfl
    cases ev with
    | plain k =>
      obtain ⟨e1, h1, h2⟩ := pressKey_run h k
      refine still e1 h2 ?_
      have : k ≠ .enter := fun hk => ho.1 (by rw [hk])
      cases k <;> first | exact absurd rfl this | (simp only [List.cons_append, editLoop, h1]; rfl)
    | control k =>
      refine still e h ?_
      have : k ≠ .char 'd' := fun hk => ho.2.1 (by rw [hk])
      simp only [List.cons_append]
      rw [editLoop]
      · intro hk; cases hk
      · intro hk; cases hk; exact this rfl
      · intro hk; cases hk
      · intro k hk; cases hk
    | other => exact still e h rfl
    | error => exact absurd rfl ho.2.2

theorem fresh_holds (history : List (List Char)) :
    Holds ⟨history ++ [[]], [], (history ++ [[]]).length - 1, 0⟩ (Desk.fresh history) :=
  ⟨by simp [Desk.lines, Desk.fresh], rfl, by simp [Desk.fresh], rfl⟩

end Verif
