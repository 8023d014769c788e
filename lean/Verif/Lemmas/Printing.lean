import Verif.Spec.Printing
import Verif.Props.Execution
import Verif.Props.Numbers
import Verif.Lemmas.Files
import Verif.Lemmas.Compile

/-!
# Lemmas about what is printed
-/

namespace Verif
open Spec

theorem standardOut_unique (p : Prim) : .standardOut ∈ footprint p → p = .out .flushOutput := by
  cases p with
  | core p => cases p <;> decide
  | out p => cases p <;> decide
  | tool p => cases p <;> decide
  | env p => cases p <;> decide
  | flt p => cases p <;> decide
  | unit p => cases p <;> decide
  | file p => cases p <;> decide
  | load p => cases p <;> decide
  | receive => decide

/-- The three places of output are untouched by all other changes. -/
theorem Spec.Change.streams {k : Kind} {u v : VM} (hc : Change k u v) (h1 : k ≠ .output)
    (h2 : k ≠ .standardOut) (h3 : k ≠ .standardError) :
    v.stdout = u.stdout ∧ v.stderr = u.stderr ∧ v.outbuf = u.outbuf := by
  cases k <;> simp only [Change] at hc
  case output => exact absurd rfl h1
  case standardOut => exact absurd rfl h2
  case standardError => exact absurd rfl h3
  case sourceOpen => obtain ⟨src, ⟨p, -, rfl⟩ | rfl⟩ := hc <;> exact ⟨rfl, rfl, rfl⟩
  all_goals
    first
    | (obtain ⟨_, rfl⟩ := hc; exact ⟨rfl, rfl, rfl⟩)
    | (obtain ⟨_, _, rfl⟩ := hc; exact ⟨rfl, rfl, rfl⟩)
    | (obtain ⟨_, _, _, rfl⟩ := hc; exact ⟨rfl, rfl, rfl⟩)
    | (obtain ⟨_, _, _, _, rfl⟩ := hc; exact ⟨rfl, rfl, rfl⟩)
    | (obtain ⟨_, _, _, _, _, rfl⟩ := hc; exact ⟨rfl, rfl, rfl⟩)
    | (obtain ⟨_, _, _, _, _, _, rfl⟩ := hc; exact ⟨rfl, rfl, rfl⟩)
    | (subst hc; exact ⟨rfl, rfl, rfl⟩)

/-- What one change does to the streams. -/
theorem Spec.Change.grows {k : Kind} {u v : VM} (hc : Change k u v) :
    u.stdout <+: v.stdout ∧ u.stderr <+: v.stderr ∧ (∀ b, written b u ≤ written b v) ∧
      (k ≠ .standardError → outText u <+: outText v) := by
  by_cases h1 : k = .output
  · subst h1
    obtain ⟨x, rfl⟩ := hc
    refine ⟨List.prefix_refl _, List.prefix_refl _, fun b => ?_, fun _ => ?_⟩
    · simp only [written]
      cases u.outbuf <;> simp
    · simp only [outText]
      cases u.outbuf with
      | none => exact List.prefix_refl _
      | some o => exact ⟨x, by simp⟩
  by_cases h2 : k = .standardOut
  · subst h2
    obtain ⟨x, hx, rfl⟩ := hc
    refine ⟨⟨x ++ [10], by simp⟩, List.prefix_refl _, fun b => ?_, fun _ => ?_⟩
    · simp only [written, hx, List.count_append, Option.getD_some, List.count_nil]
      omega
    · exact ⟨[10], by simp [outText, hx]⟩
  by_cases h3 : k = .standardError
  · subst h3
    obtain ⟨x, hx, rfl⟩ := hc
    refine ⟨List.prefix_refl _, ⟨x ++ [10], by simp⟩, fun b => ?_, fun h => absurd rfl h⟩
    simp only [written, hx, List.count_append, Option.getD_some, List.count_nil]
    omega
  obtain ⟨e1, e2, e3⟩ := hc.streams h1 h2 h3
  refine ⟨e1 ▸ List.prefix_refl _, e2 ▸ List.prefix_refl _, fun b => ?_, fun _ => ?_⟩
  · simp only [written, e1, e2, e3]; exact Nat.le_refl _
  · simp only [outText, e1, e3]; exact List.prefix_refl _

/-- Adding bytes to the buffer. -/
theorem outBytes_prints (x : List Byte) (s : VM) :
    ∃ t, outBytes x s = .ok ((), t) ∧ Prints x s t :=
  ⟨_, rfl, by cases h : s.outbuf <;> simp [Prints, h]⟩

theorem showCells_listing (l : List Cell) : Listing l (showCells l) := by
  induction l with
  | nil => exact .nil
  | cons v l ih =>
    have hf : fmtBase 10 v = some (fmtDec v) := rfl
    obtain ⟨t1, t2, -⟩ := fmtBase_token 10 v _ hf
    have : showCells (v :: l) = fmtDec v ++ 32 :: showCells l := by simp [showCells]
    rw [this]
    exact .cons t1 (by intro e; rw [e] at t2; simp at t2) (fmtBase_printable 10 v _ hf) ih

theorem wordsLoop_hidden {oc : Bool} {d : DataSpace} {w : Word} {ws : List Word} (h : w.hidden = true) :
    wordsLoop oc d (w :: ws) = wordsLoop oc d ws := by
  rw [wordsLoop, if_pos h]

theorem wordsLoop_shown {oc : Bool} {d : DataSpace} {w : Word} {ws : List Word} {n x : List Byte}
    (h : w.hidden = false) (h1 : d.getStr oc w.nfa = .ok n) (h2 : wordsLoop oc d ws = .ok x) :
    wordsLoop oc d (w :: ws) = .ok (n ++ [32] ++ x) := by
  rw [wordsLoop, if_neg (by simp [h]), nameOf, h1, h2]
  rfl

theorem wordsLoop_names {oc : Bool} {d : DataSpace} {l : List Word}
    (h : ∀ w ∈ l, d.getStr oc w.nfa = .ok (nameIn d w)) :
    wordsLoop oc d l = .ok (((l.filter fun w => !w.hidden).map (nameIn d)).flatMap (· ++ [32])) := by
  induction l with
  | nil => rfl
  | cons w l ih =>
    have ih := ih fun v hv => h v (List.mem_cons_of_mem _ hv)
    cases hh : w.hidden with
    | true => rw [wordsLoop_hidden hh, ih, List.filter_cons_of_neg (by simp [hh])]
    | false =>
      rw [wordsLoop_shown hh (h w List.mem_cons_self) ih, List.filter_cons_of_pos (by simp [hh]),
        List.map_cons, List.flatMap_cons]

end Verif
