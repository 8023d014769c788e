import Verif.Lemmas.Trace
import Verif.Lemmas.Machine

/-!
# C48: addresses of words, and backtraces
-/

namespace Verif
open Spec Stack

/-- C48. The words of a sound dictionary come one after the other and their names can be read. -/
theorem C48_sound {s : VM} (h : Dict s) (hi : InSpace s) : Traceable s := h.traceable hi

/-- C48. The search finds the word an address belongs to. -/
theorem C48_found {s : VM} (h : Traceable s) (a i : Nat) : s.wl.findXt a = some i ↔ Belongs s a i := by
  have := h.findXt a
  constructor
  · intro e
    rwa [e] at this
  · rintro ⟨⟨w, hw, h1⟩, h2⟩
    cases hf : s.wl.findXt a with
    | none =>
      rw [hf] at this
      have := this i w hw
      omega
    | some j =>
      rw [hf] at this
      obtain ⟨⟨v, hv, k1⟩, k2⟩ := this
      rcases Nat.lt_trichotomy i j with hij | rfl | hij
      · have := h2 j v hij hv; omega
      · rfl
      · have := k2 i w hij hw; omega

/-- C48. It fails only for an address before all words. -/
theorem C48_unknown {s : VM} (h : Traceable s) (a : Nat) :
    s.wl.findXt a = none ↔ ∀ (j : Nat) v, s.wl.words[j]? = some v → a < v.nfa := by
  have := h.findXt a
  constructor
  · intro e
    rwa [e] at this
  · intro hn
    cases hf : s.wl.findXt a with
    | none => rfl
    | some j =>
      rw [hf] at this
      obtain ⟨⟨v, hv, k1⟩, -⟩ := this
      have := hn j v hv
      omega

/-- C48. Every address from the header of a word up to the header of the next one belongs to it; so do all addresses from
the header of the last word on. -/
theorem C48_own {s : VM} (h : Traceable s) {a i : Nat} {w : Word} (hw : s.wl.words[i]? = some w) (h1 : w.nfa ≤ a)
    (h2 : ∀ v, s.wl.words[i + 1]? = some v → a < v.nfa) : Belongs s a i ∧ whereabouts s a = nameIn s.ds w ++ [32] := by
  have hb : Belongs s a i := by
    refine ⟨⟨w, hw, h1⟩, fun j v hij hv => ?_⟩
    have hlt := (List.getElem?_eq_some_iff.1 hv).1
    have hn : s.wl.words[i + 1]? = some s.wl.words[i + 1] := List.getElem?_eq_getElem (by omega)
    have := h2 _ hn
    by_cases hj : j = i + 1
    · subst hj; exact h2 v hv
    · exact Nat.lt_trans this (h.rising _ _ _ _ (by omega) hn hv)
  exact ⟨hb, whereabouts_some hb hw⟩

/-- C48. `.backtrace` prints, for each return address, the oldest one first, the name of the word it belongs to, then the name of
the word that raised the last error, then the name of the word being executed. Nothing else changes. -/
theorem C48_trace (c : Ctx) {s : VM} (h : Traceable s) (hw : s.task.st.abortedWp < s.wl.words.length) :
    ∃ p t, primOf ".backtrace" = some p ∧ action c p s = .ok ((), t) ∧ Prints (trace s) s t :=
  ⟨_, _, rfl, dotBacktrace_ok h hw, rfl⟩

example : Traceable builtBase := C48_sound built_dict.1 built_dict.2

/-- Three words with empty names, and the machine within the second. -/
example : ∃ s : VM, Traceable s ∧ s.task.st.abortedWp < s.wl.words.length ∧ Belongs s 1045 1 := by
  have ht : Traceable { VM.blank 1024 65536 with
      wl := { Wordlist.empty with words := [Word.new (.core .noop) .word 1032 1040, Word.new (.core .noop) .word 1040 1048,
        Word.new (.core .noop) .word 1048 1056] }
      ds := { (VM.blank 1024 65536).ds with bytes := fun _ => 0 } } := by
    refine ⟨by decide, fun i w hw => ?_, fun i w hw => ?_, fun i j v w hij hv hw => ?_⟩
    · rcases i with _ | _ | _ | i <;> simp at hw <;> subst hw <;> decide
    · rcases i with _ | _ | _ | i <;> simp at hw <;> subst hw <;> decide
    · rcases i with _ | _ | _ | i <;> rcases j with _ | _ | _ | j <;> simp at hw hv <;> first | omega | (subst hw; subst hv; decide)
  exact ⟨_, ht, by decide, (C48_own ht (i := 1) rfl (by decide) (fun v hv => by cases hv; decide)).1⟩

end Verif
