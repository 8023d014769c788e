import Verif.Lemmas.Safe
import Verif.Props.Errors
import Verif.Props.Recover

/-!
# What cannot crash the interpreter
-/

namespace Verif
open Spec

theorem evalToken_safe {cfg : Cfg} {depth : Nat} {s : VM} {tok : List Char} (h : Waiting s) (ht : s.tkn = some tok)
    (hs : ∀ i w, Newest s (utf8 tok) (some i) → s.wl.words[i]? = some w → safe w.action = true) :
    ∃ t, Verif.evalToken (ctx cfg (depth + 2)) s = .ok ((), t) ∧ Spec.Beside s t := by
  have hq := Safe.waiting_quiet h
  have hin : InSpace s := ⟨h.space.small, h.space.inside⟩
  obtain ⟨r, h1, h2⟩ := h.dict.find hin (ctx cfg (depth + 2)) (utf8 tok)
  cases r with
  | none =>
    obtain ⟨t, h3, h4⟩ := Safe.evaluateNumber (c := ctx cfg (depth + 2)) (tok := tok) Safe.mild hq h.interpreting
    have e : Verif.evalToken (ctx cfg (depth + 2)) s = interpretToken (ctx cfg (depth + 2)) s := by
      simp only [Verif.evalToken, M.bind_apply, getSt_apply, h.interpreting, Bool.false_eq_true, if_false]
    have hs' : { s with tkn := some tok } = s := by rw [← ht]
    rw [hs'] at h4
    exact ⟨t, e.trans ((interpretToken_none ht h1).trans h3), h4⟩
  | some i =>
    obtain ⟨w, hw⟩ : ∃ w, s.wl.words[i]? = some w := by
      obtain ⟨⟨_, w, hw, _⟩, _⟩ := h2
      exact ⟨w, hw⟩
    by_cases hc : w.isCompileOnly = true
    · rw [C33_compileOnly h.dict hin ht h2 hw h.interpreting hc]
      obtain ⟨_, t, h3, h4⟩ := Safe.abortWith (c := ctx cfg (depth + 2)) Safe.mild .interpretingCompileOnly s hq
      rw [abortWith_run] at h3
      exact ⟨t, h3, h4⟩
    · rw [C33_interpret h.dict hin ht h2 hw h.interpreting (by simpa using hc)]
      exact Safe.execWord hq hw (hs i w h2 hw)


/-- Reading a token. -/
theorem word_safe {s : VM} {pre rest : List Char} {toks : List (List Char)} (h : Waiting s)
    (hr : Reading s.task pre rest) (htk : Tokens rest toks) :
    ∃ a tok pre' rest', parseWord s = .ok ((), a) ∧ a.tkn = some tok ∧ Waiting a ∧ a.wl = s.wl ∧ a.ds = s.ds ∧
      a.lastError = s.lastError ∧ Reading a.task pre' rest' ∧
      (toks = [] ∧ tok = [] ∧ rest' = [] ∨ ∃ ts, toks = tok :: ts ∧ tok ≠ [] ∧ Tokens rest' ts) := by
  obtain ⟨old, hold⟩ := Option.isSome_iff_exists.1 h.token
  have hw : ∀ n tok, Waiting ((s.setTask (atPosition s.task n)).setTkn (some tok)) := fun n tok => by
    refine ⟨?_, rfl, ?_, ?_, h.space, h.handler⟩
    · vm_simp [atPosition]; exact h.interpreting
    · have := h.idle
      simp only [Idle, pc] at this ⊢
      vm_simp [atPosition]
      exact this
    · obtain ⟨h1, h2, h3, h4, h5, h6⟩ := h.dict
      constructor <;> assumption
  cases htk with
  | blank hb =>
    have hp := parseWord_reading hr hold (tok := []) (n := byteLen rest)
      (fun _ => scanWord_end rest hb) (by rintro rfl; simp [byteLen])
    have hr' := reading_advance (t := s.task) (pre := pre) (a := rest) (rest := []) (by simpa using hr)
    exact ⟨_, [], _, [], hp, rfl, hw _ _, rfl, rfl, rfl, by vm_simp [id]; exact hr', .inl ⟨rfl, rfl, rfl⟩⟩
  | @word bs t rest ts hb hnt hnb he hts =>
    have hsc : scanWord (bs ++ (t ++ rest)) 0 [] = (t, byteLen (bs ++ t)) := by
      rw [scanWord_blank _ _ _ hb, scanWord_word t rest _ [] hnb he (.inl hnt)]
      simp
    have hp := parseWord_reading hr hold (fun _ => hsc) (by intro h; simp at h; exact absurd h.2.1 hnt)
    have hr' := reading_advance (t := s.task) (pre := pre) (a := bs ++ t) (rest := rest) (by simpa using hr)
    exact ⟨_, t, _, rest, hp, rfl, hw _ _, rfl, rfl, rfl, by vm_simp [id]; exact hr', .inr ⟨ts, rfl, hnt, hts⟩⟩

/-- C43, the part proved. Whatever is on the stacks, a line of numbers, unknown tokens and safe words is evaluated
without a crash: evaluation ends, either with an error pending or with the whole line read, the machine again waits
for input, and the dictionary and the data space are as before. -/
theorem C43_partial {cfg : Cfg} {depth fuel : Nat} {s : VM} {pre rest : List Char} {toks : List (List Char)}
    (h : Waiting s) (hr : Reading s.task pre rest) (htk : Tokens rest toks) (hs : AllSafe s toks)
    (hf : toks.length < fuel) :
    ∃ t, evaluateInput cfg (depth + 2) fuel s = .ok ((), t) ∧ Waiting t ∧ t.wl = s.wl ∧ t.ds = s.ds ∧
      (t.lastError ≠ none ∨ ∃ pre', Reading t.task pre' []) := by
  induction toks generalizing s pre rest fuel with
  | nil =>
    obtain ⟨fuel, rfl⟩ : ∃ k, fuel = k + 1 := ⟨fuel - 1, by simp at hf; omega⟩
    obtain ⟨a, tok, pre', rest', h1, h2, h3, h4, h5, -, h6, ⟨-, rfl, rfl⟩ | ⟨ts, h7, -⟩⟩ := word_safe h hr htk
    · refine ⟨a, ?_, h3, h4, h5, .inr ⟨_, h6⟩⟩
      simp only [evaluateInput, M.bind_apply, h1, getVM_apply, h2, if_true]
      rfl
    · cases h7
  | cons tok ts ih =>
    simp only [List.length_cons] at hf
    obtain ⟨fuel, rfl⟩ : ∃ k, fuel = k + 2 := ⟨fuel - 2, by omega⟩
    obtain ⟨a, tok', pre', rest', h1, h2, h3, h4, h5, -, h6, ⟨h7, -⟩ | ⟨ts', h7, h8, h9⟩⟩ := word_safe h hr htk
    · cases h7
    cases h7
    obtain ⟨b, e1, b1⟩ := evalToken_safe (cfg := cfg) (depth := depth) h3 h2
      fun i w hn hw => hs tok (.head _) i w (Safe.newest_beside h4 h5 hn) (by rw [← h4]; exact hw)
    have w1 := Safe.waiting_beside h3 b1
    have hne : ¬ a.tkn = some [] := by rw [h2]; simp [h8]
    have hread : ∀ {x y : VM}, Beside x y → Reading x.task pre' rest' → Reading y.task pre' rest' := by
      intro x y hb hx
      refine ⟨?_, hb.sourceIndex.trans hx.position, hx.bounded⟩
      have := hx.buffer
      simp only [inputBuffer, hb.inbuf, hb.sourceId, hb.lines] at this ⊢
      exact this
    conv => enter [1, t, 1, 1]; unfold evaluateInput
    simp only [M.bind_apply, h1, getVM_apply]
    rw [if_neg hne]
    simp only [M.bind_apply, e1, getError_apply]
    by_cases he : b.lastError.isSome = true
    · rw [if_pos he]
      exact ⟨b, rfl, w1, b1.wl.trans h4, b1.ds.trans h5, .inl (by intro h0; rw [h0] at he; cases he)⟩
    · rw [if_neg he]
      obtain ⟨_, c, e2, b2⟩ := Safe.checkStacks (c := ctx cfg (depth + 2)) Safe.mild b (Safe.waiting_quiet w1)
      have w2 := Safe.waiting_beside w1 b2
      rw [M.bind_apply, idle_run w1.idle]
      simp only [M.bind_apply, e2, getError_apply]
      by_cases he2 : c.lastError.isSome = true
      · rw [if_pos he2]
        exact ⟨c, rfl, w2, b2.wl.trans (b1.wl.trans h4), b2.ds.trans (b1.ds.trans h5),
          .inl (by intro h0; rw [h0] at he2; cases he2)⟩
      · rw [if_neg he2]
        have hwl := b2.wl.trans (b1.wl.trans h4)
        have hds := b2.ds.trans (b1.ds.trans h5)
        obtain ⟨t, h10, h11, h12, h13, h14⟩ := ih (fuel := fuel + 1) w2 (hread (b1.trans b2) h6) h9
          (fun tk hm i w hn hw => hs tk (.tail _ hm) i w (Safe.newest_beside hwl hds hn) (by rw [← hwl]; exact hw))
          (by omega)
        exact ⟨t, h10, h11, h12.trans hwl, h13.trans hds, h14⟩

/-- Non-vacuity: a word on any stack (also one that is too short for it), a number and an unknown token. -/
example (l : List Cell) (hl : l.length ≤ 64) : ∃ t, evaluateInput demoCfg 5 9 (desk l "dup 0 zz") = .ok ((), t) ∧ Waiting t ∧
    t.wl = (desk l "dup 0 zz").wl ∧ t.ds = (desk l "dup 0 zz").ds ∧
    (t.lastError ≠ none ∨ ∃ pre', Reading t.task pre' []) := by
  obtain ⟨d1, wd, d2, d3, d4, d5, d6⟩ := @desk_word l "dup 0 zz" _ _ _ _ _ (List.mem_of_getElem? (i := 2) rfl)
  obtain ⟨_, _, _, _, _, _, _, _, n9⟩ := desk_numbers l "dup 0 zz"
  obtain ⟨z1, -⟩ := desk_unknown l "dup 0 zz"
  have hL := desk_listening hl "dup 0 zz"
  obtain ⟨_, hH⟩ := desk_handler l "dup 0 zz"
  have hR : Reading (desk l "dup 0 zz").task [] "dup 0 zz".toList := desk_reading l (by decide)
  generalize desk l "dup 0 zz" = s at *
  refine C43_partial (depth := 3) (toks := ["dup".toList, "0".toList, "zz".toList])
    ⟨hL.interpreting, hL.token, hL.idle, hL.dict, hL.space, hH⟩ hR
    (.word (bs := []) (t := "dup".toList) (rest := " 0 zz".toList) (by decide) (by decide) (by decide) (by decide)
      (.word (bs := [' ']) (t := "0".toList) (rest := " zz".toList) (by decide) (by decide) (by decide) (by decide)
        (.word (bs := [' ']) (t := "zz".toList) (rest := []) (by decide) (by decide) (by decide) (by decide)
          (.blank (by simp))))) ?_ (by decide)
  intro tok hm i w hn hw
  simp only [List.mem_cons, List.not_mem_nil, or_false] at hm
  rcases hm with rfl | rfl | rfl
  · cases Newest.unique hn d1
    rw [d2] at hw
    cases hw
    rw [d3]
    rfl
  · cases Newest.unique hn n9
  · cases Newest.unique hn z1

/-- Whether a computation panics. -/
def panics (m : M Unit) (s : VM) : Bool :=
  match m s with
  | .error .panic => true
  | _ => false

theorem panics_spec {m : M Unit} {s : VM} (h : panics m s = true) : m s = .error .panic := by
  unfold panics at h
  split at h
  · assumption
  · cases h

/-- C43 is false: on the machine as it is built, a line that ends in `s"` within a definition panics. -/
theorem C43_refuted : ∃ s : VM, addAll (ctx demoCfg 2) (VM.blank 1024 65536) = .ok ((), s) ∧ s.lastError = none ∧
    line ": x s\"" s = .error .panic := by
  have h : succeeds (addAll (ctx demoCfg 2)) (VM.blank 1024 65536) = true ∧
     (let s := after (addAll (ctx demoCfg 2)) (VM.blank 1024 65536)
      s.lastError = none ∧ panics (line ": x s\"") s = true) := by decide +kernel
  exact ⟨_, succeeds_spec h.1, h.2.1, panics_spec h.2.2⟩

end Verif
