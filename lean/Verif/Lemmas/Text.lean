import Verif.Spec.Text
import Verif.Lemmas.Stack
import Verif.Lemmas.Memory
import Verif.Lemmas.Setters

/-!
# Input text
-/

namespace Verif
open Spec Stack

theorem utf8Size_pos' (ch : Char) : 0 < ch.utf8Size := Char.utf8Size_pos ch

@[simp] theorem byteLen_append (a b : List Char) : byteLen (a ++ b) = byteLen a + byteLen b := by
  induction a with
  | nil => simp [byteLen]
  | cons c a ih => simp [byteLen, ih]; omega

theorem byteLen_pos {a : List Char} (h : a ≠ []) : 0 < byteLen a := by
  cases a with
  | nil => simp at h
  | cons c a => have := utf8Size_pos' c; simp [byteLen]; omega

theorem splitAtByte_append (pre rest : List Char) :
    splitAtByte (pre ++ rest) (byteLen pre) = some (pre, rest) := by
  induction pre with
  | nil => cases rest <;> rfl
  | cons c pre ih =>
    have hp := utf8Size_pos' c
    simp only [byteLen, List.cons_append]
    obtain ⟨n, hn⟩ : ∃ n, c.utf8Size + byteLen pre = n + 1 := ⟨c.utf8Size + byteLen pre - 1, by omega⟩
    rw [hn]
    simp only [splitAtByte]
    rw [if_pos (by omega)]
    have : n + 1 - c.utf8Size = byteLen pre := by omega
    rw [this, ih]

theorem splitAtByte_some {text pre rest : List Char} {n : Nat}
    (h : splitAtByte text n = some (pre, rest)) : text = pre ++ rest ∧ n = byteLen pre := by
  induction text generalizing n pre with
  | nil =>
    cases n with
    | zero => simp [splitAtByte] at h; obtain ⟨rfl, rfl⟩ := h; simp [byteLen]
    | succ n => simp [splitAtByte] at h
  | cons c cs ih =>
    cases n with
    | zero => simp [splitAtByte] at h; obtain ⟨rfl, rfl⟩ := h; simp [byteLen]
    | succ n =>
      simp only [splitAtByte] at h
      split at h
      · next hle =>
        split at h
        · next a b hs =>
          simp only [Option.some.injEq, Prod.mk.injEq] at h
          obtain ⟨rfl, rfl⟩ := h
          obtain ⟨h1, h2⟩ := ih hs
          exact ⟨by rw [h1]; rfl, by simp [byteLen]; omega⟩
        · simp at h
      · simp at h

theorem isSpace_iff (ch : Char) : isSpace ch = true ↔ Blank ch := by
  simp [isSpace, Blank, or_assoc]

theorem scanWord_blank : ∀ (bs rest : List Char) (idx : Nat), (∀ ch ∈ bs, Blank ch) →
    scanWord (bs ++ rest) idx [] = scanWord rest (idx + byteLen bs) [] := by
  intro bs
  induction bs with
  | nil => intro rest idx _; simp [byteLen]
  | cons c bs ih =>
    intro rest idx h
    have hc := (isSpace_iff c).2 (h c (by simp))
    simp only [List.cons_append, scanWord, hc, if_true, List.isEmpty_nil, byteLen]
    rw [ih _ _ (fun ch hch => h ch (by simp [hch]))]
    congr 1; omega

theorem scanWord_word : ∀ (t rest : List Char) (idx : Nat) (tok : List Char),
    (∀ ch ∈ t, ¬ Blank ch) → EndsToken rest → t ≠ [] ∨ tok ≠ [] →
    scanWord (t ++ rest) idx tok = (tok ++ t, idx + byteLen t) := by
  intro t
  induction t with
  | nil =>
    intro rest idx tok _ he hne
    have hne : tok ≠ [] := by simpa using hne
    cases rest with
    | nil => simp [scanWord, byteLen]
    | cons c cs =>
      have hc := (isSpace_iff c).2 (he c cs rfl)
      have : tok.isEmpty = false := by simpa using hne
      simp [scanWord, byteLen, hc, this]
  | cons c t ih =>
    intro rest idx tok h he _
    have hc : isSpace c = false := by
      have := h c (by simp)
      rw [← isSpace_iff] at this
      simpa using this
    simp only [List.cons_append, scanWord, hc, Bool.false_eq_true, if_false, byteLen]
    rw [ih _ _ _ (fun ch hch => h ch (by simp [hch])) he (.inr (by simp))]
    simp [Nat.add_assoc]

theorem scanWord_end (bs : List Char) (h : ∀ ch ∈ bs, Blank ch) :
    scanWord bs 0 [] = ([], byteLen bs) := by
  have := scanWord_blank bs [] 0 h
  simpa [scanWord] using this

/-- Taking the input buffer. -/
theorem takeInput_ok {s : VM} {b : Option (List Char)} (h : inputBuffer s.task = .ok b) :
    ∃ t, setInputBuffer s.task none = .ok t ∧ takeInput s = .ok (b, s.setTask t) ∧
      t.st = s.task.st ∧ t.s = s.task.s ∧ t.r = s.task.r ∧ t.f = s.task.f ∧ t.c = s.task.c ∧
      (∀ t' : Task, t'.lines = t.lines → t'.inbuf = t.inbuf →
        t'.st.sourceId = s.task.st.sourceId → ∀ b', b = some b' →
        setInputBuffer t' (some b') = .ok { t' with lines := s.task.lines, inbuf := s.task.inbuf }) := by
  simp only [inputBuffer] at h
  by_cases hs : 0 < s.task.st.sourceId.toInt
  · rw [if_pos hs] at h
    split at h
    · next l hl =>
      simp only [Except.ok.injEq] at h
      subst h
      have hlt : s.task.st.sourceId.toNat - 1 < s.task.lines.length := by
        rw [List.getElem?_eq_some_iff] at hl
        exact hl.1
      have hset : setInputBuffer s.task none =
          .ok { s.task with lines := s.task.lines.set (s.task.st.sourceId.toNat - 1) none } := by
        simp only [setInputBuffer, if_pos hs, if_pos hlt]
      have hin : inputBuffer s.task = .ok l := by simp only [inputBuffer, if_pos hs, hl]
      refine ⟨_, hset, by simp only [takeInput, hin, hset], rfl, rfl, rfl, rfl, rfl, ?_⟩
      intro t' h1 h2 h3 b' hb
      subst hb
      simp only [setInputBuffer, h3, if_pos hs]
      simp only at h1 h2
      rw [h1, List.length_set, if_pos hlt, List.set_set]
      have : s.task.lines.set (s.task.st.sourceId.toNat - 1) (some b') = s.task.lines := by
        apply List.ext_getElem?
        intro i
        rw [List.getElem?_set]
        split
        · next he => subst he; rw [hl]
        · rfl
      rw [this, ← h2]
    · simp at h
  · rw [if_neg hs] at h
    simp only [Except.ok.injEq] at h
    have hset : setInputBuffer s.task none = .ok { s.task with inbuf := none } := by
      simp only [setInputBuffer, if_neg hs]
    have hin : inputBuffer s.task = .ok b := by simp only [inputBuffer, if_neg hs, h]
    refine ⟨_, hset, by simp only [takeInput, hin, hset], rfl, rfl, rfl, rfl, rfl, ?_⟩
    intro t' h1 h2 h3 b' hb
    subst hb
    simp only [setInputBuffer, h3, if_neg hs, h]
    simp only at h1
    rw [← h1]

/-- The input buffer is put back as it was; position, token and data stack may have changed. -/
theorem putInput_back {s : VM} {t u : Task} {buf : List Char}
    (hset : setInputBuffer s.task none = .ok t) (hb : inputBuffer s.task = .ok (some buf))
    (h1 : u.lines = t.lines) (h2 : u.inbuf = t.inbuf)
    (h3 : u.st.sourceId = s.task.st.sourceId) :
    setInputBuffer u (some buf) = .ok { u with lines := s.task.lines, inbuf := s.task.inbuf } := by
  obtain ⟨t', e1, _, _, _, _, _, _, e⟩ := takeInput_ok hb
  rw [hset] at e1
  simp only [Except.ok.injEq] at e1
  subst e1
  exact e u h1 h2 h3 buf rfl

theorem setInputBuffer_other {t u : Task} {b : Option (List Char)} (h : setInputBuffer t b = .ok u) :
    u = { t with lines := u.lines, inbuf := u.inbuf } := by
  simp only [setInputBuffer] at h
  split at h
  · split at h
    · simp only [Except.ok.injEq] at h; rw [← h]
    · simp at h
  · simp only [Except.ok.injEq] at h; rw [← h]

/-- Take the buffer, change the task without touching the buffers, put it back. -/
theorem putInput_back' {s : VM} {t : Task} {w : VM} {buf : List Char}
    (hset : setInputBuffer s.task none = .ok t) (hb : inputBuffer s.task = .ok (some buf))
    (h1 : w.task.lines = t.lines) (h2 : w.task.inbuf = t.inbuf)
    (h3 : w.task.st.sourceId = s.task.st.sourceId) :
    putInput buf w =
      .ok ((), w.setTask { w.task with lines := s.task.lines, inbuf := s.task.inbuf }) := by
  simp only [putInput, putInput_back hset hb h1 h2 h3]

/-- One `parse_word` inside a text. -/
theorem parseWord_reading {s : VM} {pre rest : List Char} {old : List Char}
    (hr : Reading s.task pre rest) (ht : s.tkn = some old) {tok : List Char} {n : Nat}
    (hs : rest ≠ [] → scanWord rest 0 [] = (tok, n)) (he : rest = [] → tok = [] ∧ n = 0) :
    parseWord s = .ok ((), (s.setTask (atPosition s.task (byteLen pre + n))).setTkn (some tok)) := by
  obtain ⟨t, h1, h2, h3, _⟩ := takeInput_ok (s := s.setTkn none) (b := some (pre ++ rest))
    hr.buffer
  rw [VM.task_setTkn] at h1 h3
  have hother := setInputBuffer_other h1
  have hpos := hr.position
  vm_simp [parseWord, takeToken_run ht, h2, h3, hpos]
  by_cases hrest : rest = []
  · obtain ⟨rfl, rfl⟩ := he hrest
    subst hrest
    rw [if_neg (by simp)]
    rw [putInput_back' h1 hr.buffer (by vm_simp) (by vm_simp) (by vm_simp [h3])]
    vm_simp
    have : ({ t with lines := s.task.lines, inbuf := s.task.inbuf } : Task) =
        atPosition s.task (byteLen pre + 0) := by
      rw [hother]; simp only [atPosition, Nat.add_zero, ← hpos]
    rw [this]
  · have hlt : byteLen pre < byteLen (pre ++ rest) := by
      have := byteLen_pos hrest; simp; omega
    rw [if_pos hlt]
    vm_simp [sourceFrom, splitAtByte_append, hs hrest]
    rw [putInput_back' h1 hr.buffer (by vm_simp) (by vm_simp) (by vm_simp [h3])]
    vm_simp
    have : ({ t with st := { t.st with sourceIndex := t.st.sourceIndex + n },
                     lines := s.task.lines, inbuf := s.task.inbuf } : Task) =
        atPosition s.task (byteLen pre + n) := by
      rw [hother]; simp only [atPosition, ← hpos]
    rw [this]

theorem reading_advance {t : Task} {pre a rest : List Char} (h : Reading t pre (a ++ rest)) :
    Reading (atPosition t (byteLen pre + byteLen a)) (pre ++ a) rest := by
  refine ⟨?_, by simp [atPosition], by rw [List.append_assoc]; exact h.bounded⟩
  rw [List.append_assoc]; exact h.buffer

/-! ### parse -/

theorem scanTo_eq (v : Cell) : ∀ (taken rest : List Char) (idx : Nat) (tok : List Char),
    (∀ ch ∈ taken, BitVec.ofNat 64 ch.toNat ≠ v) →
    scanTo v (taken ++ rest) idx tok = scanTo v rest (idx + byteLen taken) (tok ++ taken) := by
  intro taken
  induction taken with
  | nil => intro rest idx tok _; simp [byteLen]
  | cons c taken ih =>
    intro rest idx tok h
    simp only [List.cons_append, scanTo, if_neg (h c (by simp)), byteLen]
    rw [ih _ _ _ (fun ch hch => h ch (by simp [hch]))]
    simp [Nat.add_assoc]

theorem scanTo_delimited {v : Cell} {rest taken after : List Char} {found : Bool}
    (h : Delimited v rest taken after found) :
    ∃ mid, rest = taken ++ (mid ++ after) ∧ scanTo v rest 0 [] = (taken, byteLen (taken ++ mid)) ∧
      (found = true → ∃ d : Char, BitVec.ofNat 64 d.toNat = v ∧ mid = [d]) := by
  obtain ⟨h1, h2⟩ := h
  cases found with
  | true =>
    simp only [if_true] at h2
    obtain ⟨d, hd, rfl⟩ := h2
    refine ⟨[d], rfl, ?_, fun _ => ⟨d, hd, rfl⟩⟩
    rw [scanTo_eq v taken _ _ _ h1]
    simp [scanTo, hd, byteLen]
  | false =>
    simp only [Bool.false_eq_true, if_false] at h2
    obtain ⟨rfl, rfl⟩ := h2
    refine ⟨[], by simp, ?_, by simp⟩
    have := scanTo_eq v rest [] 0 [] h1
    simpa [scanTo] using this

/-- `parse` inside a text. -/
theorem parse_reading {c : Ctx} {s : VM} {pre rest taken after old : List Char} {found : Bool}
    {v : Cell} {l : List Cell} (hr : Reading s.task pre rest) (ht : s.tkn = some old)
    (hi : s.task.s.items = v :: l) (hd : Delimited v rest taken after found) :
    ∃ st' mid, rest = taken ++ (mid ++ after) ∧ st'.items = l ∧
      (found = true → ∃ d : Char, BitVec.ofNat 64 d.toNat = v ∧ mid = [d]) ∧
      parse c s = .ok ((), (s.setTask
        { atPosition s.task (byteLen (pre ++ (taken ++ mid))) with s := st' }).setTkn
          (some taken)) := by
  obtain ⟨mid, hm1, hm2, hm3⟩ := scanTo_delimited hd
  obtain ⟨t, h1, h2, h3, h4, _⟩ := takeInput_ok hr.buffer
  have hother := setInputBuffer_other h1
  have hrep := items_eq_iff.1 hi
  have hpos := hr.position
  refine ⟨s.task.s.pop.2, mid, hm1, items_eq_iff.2 hrep.toPop.rep, hm3, ?_⟩
  have hle : byteLen pre + byteLen (taken ++ mid) < usizeMod := by
    have := hr.bounded
    rw [hm1] at this
    simp only [byteLen_append, usizeMod] at *
    omega
  vm_simp [parse, takeInputE, h2, h3, h4, hrep.pop_fst]
  rw [takeToken_run (t := old) (by vm_simp [ht])]
  vm_simp [h3, hpos, sourceFrom, splitAtByte_append, hm2, uadd_ok hle]
  rw [putInput_back' h1 hr.buffer (by vm_simp) (by vm_simp) (by vm_simp)]
  vm_simp
  have e3 : ({ t with st := { s.task.st with sourceIndex := byteLen pre + byteLen (taken ++ mid) },
                      s := s.task.s.pop.2, lines := s.task.lines, inbuf := s.task.inbuf } : Task) =
      { atPosition s.task (byteLen (pre ++ (taken ++ mid))) with s := s.task.s.pop.2 } := by
    rw [hother]; simp only [atPosition, byteLen_append]
  rw [e3]

end Verif
