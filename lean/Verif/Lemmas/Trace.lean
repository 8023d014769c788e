import Verif.Spec.Trace
import Verif.Props.Dictionary
import Verif.Lemmas.Compile
import Verif.Lemmas.Printing

/-!
# The search for the word an address belongs to
-/

namespace Verif
open Spec Stack

theorem Spec.Dict.traceable {s : VM} (h : Dict s) (hi : InSpace s) : Traceable s := by
  refine ⟨hi.1, h.low, fun i w hw => ?_, fun i j v w hij hv hw => ?_⟩
  · obtain ⟨h1, h2, h3, h4, h5⟩ := h.inside hi hw
    simp only [DataSpace.limit]; omega
  · have h1 := h.high i v hv
    have h2 := h.apart i j v w hij hv hw
    omega

theorem Spec.Traceable.getStr {s : VM} (h : Traceable s) {i : Nat} {w : Word} {oc : Bool}
    (hw : s.wl.words[i]? = some w) : s.ds.getStr oc w.nfa = .ok (nameIn s.ds w) := by
  have h1 := h.low i w hw
  have hl := h.high i w hw
  have hsm := h.small
  have hu : uadd oc w.nfa 8 = .ok (w.nfa + 8) := by
    apply uadd_ok
    have : usizeMod = 2 ^ 64 := rfl
    omega
  have v1 : s.ds.getCell w.nfa = .ok (s.ds.cellAt w.nfa) := if_pos ⟨h1, by omega⟩
  have v2 : s.ds.getBytes (w.nfa + 8) (s.ds.cellAt w.nfa).toNat = .ok (nameIn s.ds w) := by
    unfold DataSpace.getBytes nameIn
    by_cases h0 : (s.ds.cellAt w.nfa).toNat = 0
    · rw [if_pos h0, h0]; rfl
    · rw [if_neg h0, if_pos ⟨by omega, hl⟩]
  unfold DataSpace.getStr
  rw [v1, Except.ok_bind', hu, Except.ok_bind', v2]

theorem Spec.Traceable.congr {s t : VM} (h : Traceable s) (h1 : t.wl.words = s.wl.words) (h2 : t.ds = s.ds) : Traceable t := by
  obtain ⟨a, b, c, d⟩ := h
  rw [← h2, ← h1] at *
  exact ⟨a, b, c, d⟩

theorem Spec.Traceable.findXt {s : VM} (h : Traceable s) (a : Nat) :
    match s.wl.findXt a with
    | some i => Belongs s a i
    | none => ∀ (j : Nat) v, s.wl.words[j]? = some v → a < v.nfa := by
  have := C48_findXt h.rising a
  split at this
  · rename_i i e
    rw [e]
    obtain ⟨w, h1, h2, h3⟩ := this
    exact ⟨⟨w, h1, h2⟩, fun j v hj hv => h3 j v hv hj⟩
  · rename_i e
    rw [e]
    exact this

theorem getLast_filter {α : Type} {p : α → Bool} : ∀ {l : List α} {i : Nat} {x : α}, l[i]? = some x → p x = true →
    (∀ (j : Nat) y, i < j → l[j]? = some y → p y = false) → (l.filter p).getLast? = some x := by
  intro l
  induction l with
  | nil => intro i x h; simp at h
  | cons y l ih =>
    intro i x h hp hn
    cases i with
    | zero =>
      simp only [List.getElem?_cons_zero, Option.some.injEq] at h
      subst h
      have : l.filter p = [] := by
        rw [List.filter_eq_nil_iff]
        intro z hz
        obtain ⟨j, hj⟩ := List.getElem?_of_mem hz
        rw [hn (j + 1) z (by omega) (by simpa using hj)]
        simp
      rw [List.filter_cons_of_pos hp, this]
      rfl
    | succ i =>
      have h' := ih (by simpa using h) hp (fun j z hj hz => hn (j + 1) z (by omega) (by simpa using hz))
      rw [List.filter_cons]
      split
      · rw [List.getLast?_cons, h']; rfl
      · exact h'

theorem whereabouts_some {s : VM} {a i : Nat} {w : Word} (h : Belongs s a i) (hw : s.wl.words[i]? = some w) :
    whereabouts s a = nameIn s.ds w ++ [32] := by
  obtain ⟨⟨v, hv, h1⟩, h2⟩ := h
  rw [hw] at hv
  cases hv
  rw [whereabouts, getLast_filter hw (by simpa using h1) (fun j y hj hy => by
    have := h2 j y hj hy
    simp; omega)]

theorem whereabouts_none {s : VM} {a : Nat} (h : ∀ (j : Nat) v, s.wl.words[j]? = some v → a < v.nfa) :
    whereabouts s a = ascii "unknown(" ++ digits 16 a ++ ascii ") " := by
  have : s.wl.words.filter (fun w => decide (w.nfa ≤ a)) = [] := by
    rw [List.filter_eq_nil_iff]
    intro z hz
    obtain ⟨j, hj⟩ := List.getElem?_of_mem hz
    have := h j z hj
    simp; omega
  rw [whereabouts, this]
  rfl

theorem btEntry_ok {s : VM} (h : Traceable s) (oc : Bool) (a : Nat) : btEntry oc s a = .ok (whereabouts s a) := by
  have := h.findXt a
  rw [btEntry]
  cases hf : s.wl.findXt a with
  | some i =>
    rw [hf] at this
    obtain ⟨⟨w, hw, h1⟩, h2⟩ := this
    simp only [hw]
    rw [nameOf, h.getStr hw, whereabouts_some ⟨⟨w, hw, h1⟩, h2⟩ hw]
    rfl
  | none =>
    rw [hf] at this
    rw [whereabouts_none this]

theorem btLoop_ok {s : VM} (h : Traceable s) (oc : Bool) (l : List Cell) :
    btLoop oc s l = .ok (l.flatMap fun v => whereabouts s v.toNat) := by
  induction l with
  | nil => rfl
  | cons v l ih =>
    rw [btLoop, btEntry_ok h, Except.ok_bind', ih, Except.ok_bind', List.flatMap_cons]

theorem btAborted_ok {s : VM} (h : Traceable s) (oc : Bool) (hw : s.task.st.abortedWp < s.wl.words.length) :
    btAborted oc s = .ok (culprit s) := by
  rw [btAborted, culprit]
  split
  · rfl
  · have e := List.getElem?_eq_getElem hw
    simp only [e]
    rw [nameOf, h.getStr e]
    rfl

theorem dotBacktrace_ok {c : Ctx} {s : VM} (h : Traceable s) (hw : s.task.st.abortedWp < s.wl.words.length) :
    dotBacktrace c s = .ok ((), { s with outbuf := s.outbuf.map (· ++ trace s) }) := by
  rw [dotBacktrace, M.bind_ok (getVM_apply s)]
  cases ho : s.outbuf with
  | none => cases s; simp only at ho; subst ho; rfl
  | some b =>
    dsimp only
    rw [btLoop_ok h, btAborted_ok h _ hw, btEntry_ok h]
    have e : s.task.r.asList = (ret s).reverse := by
      rw [ret, ← asList_reverse, List.reverse_reverse]
    simp only [liftE_ok, M.bind_apply, e]
    obtain ⟨t, h1, h2⟩ := outBytes_prints (trace s) s
    rw [Prints, ho] at h2
    rw [← h2]
    exact h1

end Verif
