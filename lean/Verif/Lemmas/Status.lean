import Verif.Spec.Status
import Verif.Lemmas.Effects
import Verif.Lemmas.Printing

/-!
# The words that report or set the state of the machine
-/

namespace Verif
open Spec Stack

variable {c : Ctx} {name : String} {p : Prim}

/-- The word named `name` pushes `f s` and does nothing else. -/
def Reports (c : Ctx) (name : String) (f : VM → Int) : Prop :=
  ∃ p, primOf name = some p ∧ ∀ s : VM, s.task.s.items.length < 255 →
    ∃ st, action c p s = .ok ((), withData s st) ∧ st.items = wrap (f s) :: s.task.s.items

theorem reports_push (hp : primOf name = some p) {f : VM → Int}
    (h : ∀ s, action c p s = .ok ((), withData s (s.task.s.push (wrap (f s))))) : Reports c name f :=
  ⟨p, hp, fun s hs => ⟨_, h s, items_eq_iff.2 ((rep_items s.task.s).push hs _)⟩⟩

theorem wrap_nat (n : Nat) : wrap (n : Int) = BitVec.ofNat 64 n := by
  simp [wrap, BitVec.ofInt_natCast]

theorem reports_ok : ∀ e ∈ reports, Reports c e.1 e.2 := by
  simp only [reports, List.forall_mem_cons, List.not_mem_nil, false_imp_iff, implies_true, and_true]
  refine ⟨?_, ?_, ?_, ?_, ?_, ?_, ?_, ?_, ?_, ?_, ?_, ?_⟩
  · exact reports_push rfl fun s => rfl
  · exact reports_push rfl fun s => rfl
  · exact reports_push rfl fun s => by dsimp only; rw [wrap_nat]; rfl
  · exact reports_push rfl fun s => by dsimp only; rw [wrap_nat]; rfl
  · exact reports_push rfl fun s => by
      dsimp only
      have : ((s.cur.val : Int) + 1) = ((s.cur.val + 1 : Nat) : Int) := by omega
      rw [this, wrap_nat]; rfl
  · exact reports_push rfl fun s => by
      dsimp only
      show compiling s = _
      vm_simp [compiling]
      cases s.task.st.isCompiling <;> rfl
  · exact reports_push rfl fun s => by
      dsimp only
      show tokenEmpty s = _
      vm_simp [tokenEmpty]
      cases s.tkn with
      | none => rfl
      | some t => cases t <;> rfl
  · exact reports_push rfl fun s => by dsimp only; rw [wrap_toInt]; rfl
  · exact reports_push rfl fun s => by dsimp only; rw [wrap_nat]; rfl
  · exact reports_push rfl fun s => by
      dsimp only
      rw [← Int.natCast_add, wrap_nat]; rfl
  · exact reports_push rfl fun s => by
      dsimp only
      have : ((s.ds.start : Int) + 8) = ((s.ds.start + 8 : Nat) : Int) := by omega
      rw [this, wrap_nat]; rfl
  · exact reports_push rfl fun s => by
      dsimp only
      show pError s = _
      vm_simp [pError]
      cases s.lastError <;> rfl

/-- The word named `name` replaces a number by `f` of it, and does nothing else. -/
def Computes (c : Ctx) (name : String) (f : Int → Int) : Prop :=
  ∃ p, primOf name = some p ∧ ∀ (s : VM) (v : Cell) (l : List Cell), s.task.s.items = v :: l →
    (c.oc = true → -2 ^ 63 ≤ f v.toInt ∧ f v.toInt < 2 ^ 63) →
    ∃ st, action c p s = .ok ((), withData s st) ∧ st.items = wrap (f v.toInt) :: l

theorem iadd_eq {oc : Bool} {a b : Cell} (h : oc = true → -2 ^ 63 ≤ a.toInt + b.toInt ∧ a.toInt + b.toInt < 2 ^ 63) :
    iadd oc a b = .ok (wrap (a.toInt + b.toInt)) := by
  have e : wrap (a.toInt + b.toInt) = a + b := by simp [wrap, BitVec.ofInt_add, BitVec.ofInt_toInt]
  rw [e, iadd]
  split
  · rfl
  · rename_i h1
    rw [if_neg]
    intro h2
    have := h h2
    exact h1 (by simp [inIsize]; omega)

theorem imul_eq {oc : Bool} {a b : Cell} (h : oc = true → -2 ^ 63 ≤ a.toInt * b.toInt ∧ a.toInt * b.toInt < 2 ^ 63) :
    imul oc a b = .ok (wrap (a.toInt * b.toInt)) := by
  have e : wrap (a.toInt * b.toInt) = a * b := by simp [wrap, BitVec.ofInt_mul, BitVec.ofInt_toInt]
  rw [e, imul]
  split
  · rfl
  · rename_i h1
    rw [if_neg]
    intro h2
    have := h h2
    exact h1 (by simp [inIsize]; omega)

theorem replaced {s : VM} {v w : Cell} {l : List Cell} (h : s.task.s.items = v :: l) :
    (s.task.s.pop.2.push w).items = w :: l := by
  have hr : Rep s.task.s (v :: l) := h ▸ rep_items s.task.s
  have : (v :: l).length ≤ 255 := by rw [← h, items_length]; have := s.task.s.len.isLt; omega
  exact items_eq_iff.2 (hr.pop_snd.push (by simp at this; omega) w)

theorem popped {s : VM} {v : Cell} {l : List Cell} (h : s.task.s.items = v :: l) :
    s.task.s.pop.1 = v ∧ s.task.s.pop.2.items = l := by
  have hr : Rep s.task.s (v :: l) := h ▸ rep_items s.task.s
  exact ⟨hr.pop_fst, items_eq_iff.2 hr.pop_snd⟩

theorem computes_add (hp : primOf name = some p) (b : Cell) (k : Int) (hk : b.toInt = k)
    (ha : action c p = (do let v ← sPop; let r ← liftE (iadd c.oc v b); sPush r)) : Computes c name (· + k) := by
  refine ⟨p, hp, fun s v l h1 h2 => ⟨_, ?_, replaced (w := wrap (v.toInt + k)) h1⟩⟩
  subst hk
  rw [ha]
  vm_simp [(popped h1).1, iadd_eq h2]
  rfl

theorem computes_mul (hp : primOf name = some p) (b : Cell) (k : Int) (hk : b.toInt = k)
    (ha : action c p = (do let v ← sPop; let r ← liftE (imul c.oc v b); sPush r)) : Computes c name (· * k) := by
  refine ⟨p, hp, fun s v l h1 h2 => ⟨_, ?_, replaced (w := wrap (v.toInt * k)) h1⟩⟩
  subst hk
  rw [ha]
  vm_simp [(popped h1).1, imul_eq h2]
  rfl

theorem addresses_ok : ∀ e ∈ addresses, Computes c e.1 e.2 := by
  simp only [addresses, List.forall_mem_cons, List.not_mem_nil, false_imp_iff, implies_true, and_true]
  exact ⟨computes_add rfl 1 1 rfl rfl, computes_add rfl 8 8 rfl rfl, computes_mul rfl 8 8 rfl rfl,
    computes_add rfl 8 8 rfl rfl, computes_mul rfl 8 8 rfl rfl⟩

theorem settings_ok : ∀ e ∈ settings, ∃ p, primOf e.1 = some p ∧ ∀ s, action c p s = .ok ((), e.2 s) := by
  simp only [settings, List.forall_mem_cons, List.not_mem_nil, false_imp_iff, implies_true, and_true]
  exact ⟨⟨_, rfl, fun s => rfl⟩, ⟨_, rfl, fun s => rfl⟩, ⟨_, rfl, fun s => rfl⟩, ⟨_, rfl, fun s => rfl⟩,
    ⟨_, rfl, fun s => rfl⟩⟩

theorem takers_ok : ∀ e ∈ takers, ∃ p, primOf e.1 = some p ∧ ∀ (s : VM) (v : Cell) (l : List Cell),
    s.task.s.items = v :: l → ∃ st, action c p s = .ok ((), e.2 v (withData s st)) ∧ st.items = l := by
  simp only [takers, List.forall_mem_cons, List.not_mem_nil, false_imp_iff, implies_true, and_true]
  refine ⟨⟨_, rfl, fun s v l h => ⟨_, ?_, (popped h).2⟩⟩, ⟨_, rfl, fun s v l h => ⟨_, ?_, (popped h).2⟩⟩⟩
  all_goals rw [← (popped h).1]; rfl

theorem texts_ok : ∀ e ∈ texts, ∃ p, primOf e.1 = some p ∧ ∀ s : VM,
    ∃ t, action c p s = .ok ((), t) ∧ Prints (e.2 s) s t := by
  simp only [texts, List.forall_mem_cons, List.not_mem_nil, false_imp_iff, implies_true, and_true]
  refine ⟨⟨_, rfl, fun s => ?_⟩, ⟨_, rfl, fun s => ?_⟩, ⟨_, rfl, fun s => ⟨_, rfl, rfl⟩⟩⟩
  · show ∃ t, dotToken s = _ ∧ _
    vm_simp [dotToken]
    cases h : s.tkn with
    | none => exact ⟨s, rfl, by simp [Prints, utf8]⟩
    | some t => exact ⟨_, rfl, rfl⟩
  · show ∃ t, dotError s = _ ∧ _
    vm_simp [dotError]
    cases h : s.lastError with
    | none => exact ⟨s, rfl, by simp [Prints]⟩
    | some t => exact ⟨_, rfl, rfl⟩

end Verif
