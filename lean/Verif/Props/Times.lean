import Verif.Spec.Times
import Verif.Lemmas.Dictionary
import Verif.Lemmas.Setters
import Verif.Lemmas.Demo

/-!
# Recorded execution times
-/

namespace Verif
open Spec

theorem Spec.Change.times {k : Kind} {s t : VM} (h : Change k s t) (h1 : k ≠ .wordTime) (h2 : k ≠ .wordForget) {i : Nat} {w : Word}
    (hw : s.wl.words[i]? = some w) :
    ∃ v, t.wl.words[i]? = some v ∧ v.minTime = w.minTime ∧ v.maxTime = w.maxTime := by
  have same : t.wl = s.wl → ∃ v, t.wl.words[i]? = some v ∧ v.minTime = w.minTime ∧ v.maxTime = w.maxTime :=
    fun e => ⟨w, by rw [e]; exact hw, rfl, rfl⟩
  cases k with
  | wordTime => exact absurd rfl h1
  | wordForget => exact absurd rfl h2
  | wordAdd =>
    obtain ⟨n, x, -, rfl⟩ := h
    refine ⟨w, ?_, rfl, rfl⟩
    have hi := (List.getElem?_eq_some_iff.1 hw).1
    simp only [Wordlist.push]
    rw [List.getElem?_append_left hi]
    exact hw
  | wordLast =>
    obtain ⟨x, y, hx, hxy, rfl⟩ := h
    by_cases hi : s.wl.last = i
    · subst hi
      rw [hx] at hw
      cases hw
      have hl := (List.getElem?_eq_some_iff.1 hx).1
      exact ⟨y, by simp [hl], hxy.minTime, hxy.maxTime⟩
    · exact ⟨w, by simp [hi, hw], rfl, rfl⟩
  | savedBuckets => cases h; exact ⟨w, hw, rfl, rfl⟩
  | inputText => obtain ⟨_, _, _, _, _, rfl⟩ := h; exact same rfl
  | inputSlot => obtain ⟨_, _, _, _, rfl⟩ := h; exact same rfl
  | sourceOpen => obtain ⟨_, ⟨_, _, rfl⟩ | rfl⟩ := h <;> exact same rfl
  | sourceClose => obtain ⟨_, _, _, rfl⟩ := h; exact same rfl
  | sourceRead => obtain ⟨_, _, _, _, _, rfl⟩ := h; exact same rfl
  | fileOpen => obtain ⟨_, _, _, rfl⟩ := h; exact same rfl
  | fileUse => obtain ⟨_, _, _, _, rfl⟩ := h; exact same rfl
  | fileClose => obtain ⟨_, _, _, rfl⟩ := h; exact same rfl
  | sourceId => obtain ⟨_, _, rfl⟩ := h; exact same rfl
  | output => obtain ⟨_, rfl⟩ := h; exact same rfl
  | standardOut => obtain ⟨_, _, rfl⟩ := h; exact same rfl
  | standardError => obtain ⟨_, _, rfl⟩ := h; exact same rfl
  | raise => obtain ⟨_, _, rfl⟩ := h; exact same rfl
  | clear => cases h; exact same rfl
  | labelSets => obtain ⟨_, _, rfl⟩ := h; exact same rfl
  | labelTable => obtain ⟨_, _, rfl⟩ := h; exact same rfl
  | memWrite => obtain ⟨_, _, _, _, _, _, rfl⟩ := h; exact same rfl
  | memAppend => obtain ⟨_, _, _, _, _, rfl⟩ := h; exact same rfl
  | memHere => obtain ⟨_, _, rfl⟩ := h; exact same rfl
  | awake => obtain ⟨_, _, rfl⟩ := h; exact same rfl
  | switch => obtain ⟨_, _, rfl⟩ := h; exact same rfl
  | activate => obtain ⟨_, _, rfl⟩ := h; exact same rfl
  | _ => obtain ⟨_, rfl⟩ := h; exact same rfl

theorem Spec.Changes.times {K : List Kind} {s t : VM} (h : Changes K s t) (h1 : .wordTime ∉ K) (h2 : .wordForget ∉ K) {i : Nat}
    {w : Word} (hw : s.wl.words[i]? = some w) :
    ∃ v, t.wl.words[i]? = some v ∧ v.minTime = w.minTime ∧ v.maxTime = w.maxTime := by
  induction h with
  | refl => exact ⟨w, hw, rfl, rfl⟩
  | @tail u v k h hk hc ih =>
    obtain ⟨x, e1, e2, e3⟩ := ih
    obtain ⟨y, f1, f2, f3⟩ := hc.times (fun e => h1 (e ▸ hk)) (fun e => h2 (e ▸ hk)) e1
    exact ⟨y, f1, f2.trans e2, f3.trans e3⟩

/-- What `(xtime)` does. -/
theorem setXtime_inv {c : Ctx} {t u : VM} (h : action c (.tool .setXtime) t = .ok ((), u)) :
    ∃ d w, usub c.oc (t.now / 1000) t.task.s.pop2.1.1.toNat = .ok d ∧
      t.wl.words[t.task.s.pop2.1.2.toNat]? = some w ∧
      u.wl.words = t.wl.words.set t.task.s.pop2.1.2.toNat (w.addTime d) := by
  obtain ⟨⟨t0, xt⟩, s1, e1, h⟩ := M.bind_inv (show (sPop2 >>= _) t = _ from h)
  rw [sPop2_apply] at e1
  cases e1
  obtain ⟨v, s2, e2, h⟩ := M.bind_inv h
  cases e2
  obtain ⟨d, s3, e3, h⟩ := M.bind_inv h
  obtain ⟨hd, rfl⟩ : usub c.oc (t.now / 1000) t.task.s.pop2.1.1.toNat = .ok d ∧
      s3 = t.setTask { t.task with s := t.task.s.pop2.2 } := by
    unfold liftE at e3
    split at e3
    · rename_i hx
      cases e3
      exact ⟨hx, rfl⟩
    · cases e3
  unfold modWord at h
  split at h
  · rename_i w hw
    cases h
    exact ⟨d, w, hd, hw, rfl⟩
  · cases h

/-- C50, the part proved: if no recorded duration is 0, then after any number of recorded executions, with anything else in
between, the two times kept for a word are the least and the greatest of its recorded durations. -/
theorem C50_partial {c : Ctx} {i : Nat} {s t : VM} {l : List Nat} (h : Records c i s l t) (hi : 0 < i) :
    ∃ w, t.wl.words[i]? = some w ∧
      ((l = [] → w.maxTime = 0) ∧ (l ≠ [] → w.maxTime ∈ l) ∧ ∀ x ∈ l, x ≤ w.maxTime) ∧
      ((l = [] → w.minTime = 0) ∧ (l ≠ [] → w.minTime ∈ l) ∧ ∀ x ∈ l, w.minTime ≤ x) ∧ ∀ x ∈ l, 0 < x := by
  induction h with
  | @none w hw h1 h2 => exact ⟨w, hw, ⟨fun _ => h2, by simp, by simp⟩, ⟨fun _ => h1, by simp, by simp⟩, by simp⟩
  | @record t u l d h hx hd ht ha ih =>
    obtain ⟨w, hw, ⟨a1, a2, a3⟩, ⟨b1, b2, b3⟩, c1⟩ := ih
    obtain ⟨d', w', e1, e2, e3⟩ := setXtime_inv ha
    rw [usub_ok (by omega)] at e1
    have e1 : t.now / 1000 - t.task.s.pop2.1.1.toNat = d' := by injection e1
    obtain rfl : d' = d := by omega
    rw [hx, hw] at e2
    cases e2
    rw [hx] at e3
    have hl := (List.getElem?_eq_some_iff.1 hw).1
    refine ⟨w.addTime d', by rw [e3]; simp [hl], ?_, ?_, ?_⟩
    · simp only [Word.addTime]
      refine ⟨by simp, fun _ => ?_, ?_⟩
      · rcases Nat.le_total w.maxTime d' with hm | hm
        · rw [Nat.max_eq_right hm]; simp
        · rw [Nat.max_eq_left hm]
          by_cases hl0 : l = []
          · rw [a1 hl0] at hm; omega
          · exact List.mem_append_left _ (a2 hl0)
      · intro x hxm
        rcases List.mem_append.1 hxm with hxm | hxm
        · have := a3 x hxm; omega
        · cases List.mem_singleton.1 hxm; omega
    · simp only [Word.addTime]
      refine ⟨by simp, fun _ => ?_, ?_⟩
      · split
        · rename_i h0
          have hl0 : l ≠ [] := fun e => h0 (b1 e)
          rcases Nat.le_total w.minTime d' with hm | hm
          · rw [Nat.min_eq_left hm]; exact List.mem_append_left _ (b2 hl0)
          · rw [Nat.min_eq_right hm]; simp
        · simp
      · intro x hxm
        split
        · rcases List.mem_append.1 hxm with hxm | hxm
          · have := b3 x hxm; omega
          · cases List.mem_singleton.1 hxm; omega
        · rename_i h0
          rcases List.mem_append.1 hxm with hxm | hxm
          · have h1 := b2 (by rintro rfl; cases hxm)
            have := c1 _ h1
            omega
          · cases List.mem_singleton.1 hxm; omega
    · intro x hxm
      rcases List.mem_append.1 hxm with hxm | hxm
      · exact c1 x hxm
      · cases List.mem_singleton.1 hxm; exact hd
  | @another t u l h hx ha ih =>
    obtain ⟨w, hw, hr⟩ := ih
    obtain ⟨d', w', e1, e2, e3⟩ := setXtime_inv ha
    exact ⟨w, by rw [e3, List.getElem?_set_ne hx]; exact hw, hr⟩
  | @clear t u l h ha ih =>
    obtain ⟨w, hw, ⟨a1, a2, a3⟩, ⟨b1, b2, b3⟩, c1⟩ := ih
    have hu : u.wl.words = t.wl.words.take 1 ++ (t.wl.words.drop 1).map fun w =>
        if w.minTime > 0 then { w with minTime := 0, maxTime := 0 } else w := by
      cases ha; rfl
    have hl := (List.getElem?_eq_some_iff.1 hw).1
    have hget : u.wl.words[i]? = some (if w.minTime > 0 then { w with minTime := 0, maxTime := 0 } else w) := by
      have h1 : (t.wl.words.take 1).length = 1 := by simp; omega
      rw [hu, List.getElem?_append_right (by omega), h1, List.getElem?_map, List.getElem?_drop,
        show 1 + (i - 1) = i by omega, hw]
      rfl
    refine ⟨_, hget, ⟨fun _ => ?_, by simp, by simp⟩, ⟨fun _ => ?_, by simp, by simp⟩, by simp⟩
    · split
      · rfl
      · rename_i h0
        by_cases hl0 : l = []
        · exact a1 hl0
        · have := c1 _ (b2 hl0); omega
    · split
      · rfl
      · omega
  | others h h1 h2 hc ih =>
    obtain ⟨w, hw, hr⟩ := ih
    obtain ⟨v, e1, e2, e3⟩ := hc.times h1 h2 hw
    exact ⟨v, e1, by rw [e2, e3]; exact hr⟩

theorem intercalate_cons {α : Type} (bar x : List α) (xs : List (List α)) :
    List.intercalate bar (x :: xs) = x ++ (xs.map (bar ++ ·)).flatten := by
  induction xs generalizing x with
  | nil => simp [List.intercalate]
  | cons y ys ih =>
    have := ih y
    simp only [List.intercalate, List.intersperse_cons_cons, List.flatten_cons] at this ⊢
    rw [this]
    simp

/-- The entry of a word. -/
def timeEntry (d : DataSpace) (w : Word) : List Byte :=
  nameIn d w ++ ascii "|" ++ digits 10 w.minTime ++ ascii "," ++ digits 10 w.maxTime

theorem xtimeLoop_skip {oc : Bool} {d : DataSpace} {w : Word} {ws : List Word} (h : ¬ 0 < w.minTime) (first : Bool) :
    xtimeLoop oc d (w :: ws) first = xtimeLoop oc d ws first := by
  rw [xtimeLoop, if_neg h]

theorem xtimeLoop_cons {oc : Bool} {d : DataSpace} {w : Word} {ws : List Word} (hw : 0 < w.minTime)
    (h : d.getStr oc w.nfa = .ok (nameIn d w)) (first : Bool) {txt : List Byte} (ht : xtimeLoop oc d ws false = .ok txt) :
    xtimeLoop oc d (w :: ws) first = .ok ((if first then [] else ascii "|") ++ (timeEntry d w ++ txt)) := by
  have hbar : ascii "|" = [124] := by decide
  have hcomma : ascii "," = [44] := by decide
  rw [xtimeLoop, if_pos hw, nameOf, h, ht, timeEntry, hbar, hcomma]
  generalize digits 10 w.minTime = A
  generalize digits 10 w.maxTime = B
  generalize nameIn d w = N
  show Except.ok _ = Except.ok _
  simp only [List.append_assoc]

/-- The words with a record. -/
def timed (ws : List Word) : List Word := ws.filter fun w => decide (0 < w.minTime)

theorem timed_pos {w : Word} {ws : List Word} (h : 0 < w.minTime) : timed (w :: ws) = w :: timed ws :=
  List.filter_cons_of_pos (decide_eq_true h)

theorem timed_neg {w : Word} {ws : List Word} (h : ¬ 0 < w.minTime) : timed (w :: ws) = timed ws :=
  List.filter_cons_of_neg (by rw [decide_eq_true_eq]; exact h)

theorem xtimeLoop_later {oc : Bool} {d : DataSpace} {ws : List Word} (h : ∀ w ∈ ws, d.getStr oc w.nfa = .ok (nameIn d w)) :
    xtimeLoop oc d ws false = .ok (((timed ws).map (timeEntry d)).map (ascii "|" ++ ·)).flatten := by
  induction ws with
  | nil => rw [xtimeLoop, timed, List.filter_nil, List.map_nil, List.map_nil, List.flatten_nil]
  | cons w ws ih =>
    have ih' := ih fun w hw => h w (.tail _ hw)
    by_cases hw : 0 < w.minTime
    · rw [xtimeLoop_cons hw (h w (.head _)) false ih', timed_pos hw, List.map_cons, List.map_cons, List.flatten_cons,
        if_neg Bool.false_ne_true, List.append_assoc]
    · rw [xtimeLoop_skip hw, timed_neg hw, ih']

theorem xtimeLoop_entries {oc : Bool} {d : DataSpace} {ws : List Word} (h : ∀ w ∈ ws, d.getStr oc w.nfa = .ok (nameIn d w)) :
    xtimeLoop oc d ws true = .ok (List.intercalate (ascii "|") ((timed ws).map (timeEntry d))) := by
  induction ws with
  | nil => rw [xtimeLoop, timed, List.filter_nil, List.map_nil, List.intercalate, List.intersperse_nil, List.flatten_nil]
  | cons w ws ih =>
    by_cases hw : 0 < w.minTime
    · rw [xtimeLoop_cons hw (h w (.head _)) true (xtimeLoop_later fun w hw => h w (.tail _ hw)), timed_pos hw, List.map_cons,
        intercalate_cons, if_pos rfl, List.nil_append]
    · rw [xtimeLoop_skip hw, timed_neg hw, ih fun w hw => h w (.tail _ hw)]

/-- C50. What `.xtime` prints: the records of all words that have one, newest word first, separated by bars. -/
theorem C50_report {c : Ctx} {s : VM} (hd : Dict s) (hi : InSpace s) {buf : List Byte} (hb : s.outbuf = some buf) :
    action c (.tool .dotXtime) s = .ok ((), { s with
      outbuf := some (buf ++ List.intercalate (ascii "|") (timeEntries s.ds s.wl.words)) }) := by
  have h1 := xtimeLoop_entries (oc := c.oc) (d := s.ds) (ws := (s.wl.words.drop 1).reverse) (by
    intro w hw
    rw [List.mem_reverse] at hw
    obtain ⟨i, hi'⟩ := List.getElem?_of_mem (List.mem_of_mem_drop hw)
    exact hd.getStr hi hi')
  have h2 : (timed (s.wl.words.drop 1).reverse).map (timeEntry s.ds) = timeEntries s.ds s.wl.words := rfl
  rw [h2] at h1
  show dotXtime c s = _
  generalize List.intercalate (ascii "|") (timeEntries s.ds s.wl.words) = txt at *
  simp only [dotXtime, M.bind_apply, getVM_apply, hb]
  rw [h1]
  simp only [liftE, outBytes, modVM_apply, hb, Option.map_some]

/-- A machine with two words, at 9 microseconds. -/
def watch : VM :=
  let s := VM.blank 1024 65536
  { s with wl := { s.wl with words := [Word.new (.core .noop) .word 0 0, Word.new (.core .noop) .word 0 0] }, now := 9000 }

/-- Record a duration of `d` microseconds for word 1. -/
def recorded (d : Nat) : M Unit := do
  sPush2 (BitVec.ofNat 64 (9 - d)) 1
  action (ctx demoCfg 2) (.tool .setXtime)

/-- Non-vacuity: durations of 5, 3 and 8 microseconds. -/
example : ∃ t, Records (ctx demoCfg 2) 1 watch [5, 3, 8] t := by
  have h : succeeds (recorded 5) watch = true ∧ succeeds (recorded 3) (after (recorded 5) watch) = true ∧
      succeeds (recorded 8) (after (recorded 3) (after (recorded 5) watch)) = true := by decide +kernel
  have step : ∀ {t : VM} {l : List Nat} {d : Nat}, Records (ctx demoCfg 2) 1 watch l t → 0 < d → d < 9 → t.now = 9000 →
      succeeds (recorded d) t = true →
      (t.setTask { t.task with s := t.task.s.push2 (BitVec.ofNat 64 (9 - d)) 1 }).task.s.pop2.1 = (BitVec.ofNat 64 (9 - d), 1) →
      Records (ctx demoCfg 2) 1 watch (l ++ [d]) (after (recorded d) t) := by
    intro t l d hr h0 h9 hnow hs hp
    have hc : Changes [.dataStack] t (t.setTask { t.task with s := t.task.s.push2 (BitVec.ofNat 64 (9 - d)) 1 }) :=
      .tail (k := .dataStack) (.refl _) (by decide) ⟨_, rfl⟩
    refine .record (.others hr (by decide) (by decide) hc) (by rw [hp]; rfl) h0 ?_ (succeeds_spec hs)
    rw [hp]
    show (BitVec.ofNat 64 (9 - d)).toNat + d = t.now / 1000
    rw [hnow, BitVec.toNat_ofNat]
    omega
  have h0 : Records (ctx demoCfg 2) 1 watch [] watch := .none rfl rfl rfl
  have h1 := step (d := 5) h0 (by decide) (by decide) rfl h.1 (by decide +kernel)
  have h2 := step (d := 3) h1 (by decide) (by decide) (by decide +kernel) h.2.1 (by decide +kernel)
  exact ⟨_, step (d := 8) h2 (by decide) (by decide) (by decide +kernel) h.2.2 (by decide +kernel)⟩

/-- C50 is false when a duration is 0 microseconds: after durations of 5, 0 and 7 the least is reported as 7. -/
theorem C50_refuted : ∃ t w, (do recorded 5; recorded 0; recorded 7) watch = .ok ((), t) ∧ t.wl.words[1]? = some w ∧
    w.minTime = 7 := by
  have h : succeeds (do recorded 5; recorded 0; recorded 7) watch = true ∧
      ((after (do recorded 5; recorded 0; recorded 7) watch).wl.words[1]?.map (·.minTime)) = some 7 := by decide +kernel
  obtain ⟨w, h1, h2⟩ := Option.map_eq_some_iff.1 h.2
  exact ⟨_, w, succeeds_spec h.1, h1, h2⟩

/-- Nor does `0xtime` then clear the record: after durations of 5 and 0, `0xtime` and a duration of 3, the greatest is 5. -/
theorem C50_clear_refuted : ∃ t w, (do recorded 5; recorded 0; action (ctx demoCfg 2) (.tool .clearXtime); recorded 3) watch = .ok ((), t) ∧
    t.wl.words[1]? = some w ∧ w.maxTime = 5 := by
  have h : succeeds (do recorded 5; recorded 0; action (ctx demoCfg 2) (.tool .clearXtime); recorded 3) watch = true ∧
      ((after (do recorded 5; recorded 0; action (ctx demoCfg 2) (.tool .clearXtime); recorded 3) watch).wl.words[1]?.map
        (·.maxTime)) = some 5 := by decide +kernel
  obtain ⟨w, h1, h2⟩ := Option.map_eq_some_iff.1 h.2
  exact ⟨_, w, succeeds_spec h.1, h1, h2⟩

end Verif
