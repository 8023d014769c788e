import Verif.Spec.Literals
import Verif.Lemmas.Accept
import Verif.Lemmas.Run
import Verif.Lemmas.Alike

/-!
# Literals survive compilation
-/

namespace Verif
open Spec Stack

/-- A program of literals. -/
def litStmt : List Item → Stmt
  | [] => .skip
  | .lit v :: l => .seq (.lit v) (litStmt l)
  | .flt v :: l => .seq (.flt v) (litStmt l)
  | .str bs :: l => .seq (.str 0 bs) (litStmt l)
  | _ :: l => litStmt l

theorem litStmt_items {R : Refs} {lv : Nat} : ∀ {items : List Item}, (∀ it ∈ items, it.IsLiteral) → (litStmt items).items R lv = items
  | [], _ => rfl
  | it :: l, h => by
    have hl := litStmt_items (R := R) (lv := lv) (items := l) fun x hx => h x (List.mem_cons_of_mem _ hx)
    have hi := h it List.mem_cons_self
    cases it <;> simp_all [litStmt, Stmt.items, Item.IsLiteral]

theorem litStmt_calls : ∀ (items : List Item), (litStmt items).calls = []
  | [] => rfl
  | it :: l => by
    have hl := litStmt_calls l
    cases it <;> simp_all [litStmt, Stmt.calls]

theorem litStmt_leaves : ∀ (items : List Item), (litStmt items).leavesOk false = true
  | [] => rfl
  | it :: l => by
    have hl := litStmt_leaves l
    cases it <;> simp_all [litStmt, Stmt.leavesOk]

theorem litStmt_height : ∀ (items : List Item), (litStmt items).height = 0
  | [] => rfl
  | it :: l => by
    have hl := litStmt_height l
    cases it <;> simp_all [litStmt, Stmt.height]

theorem floats_setFloats {s : VM} {l : List F64} (h : l.length < 256) : floats (setFloats s l) = l := by
  simp [floats, setFloats, holding_items _ h]

theorem Spec.Alike.setFloats {s t : VM} (h : Alike s t) {l : List F64} (hl : l.length < 256) :
    Alike (setFloats s l) (setFloats t l) := by
  obtain ⟨ds, rs, fs, h1, h2, h3, rfl⟩ := h
  refine ⟨ds, rs, holding fs l, ?_, ?_, ?_, ?_⟩
  · simpa [Spec.setFloats] using h1
  · simpa [Spec.setFloats] using h2
  · simpa [Spec.setFloats] using h3.hold l hl
  · simp [Spec.setFloats]

theorem alike_floats (s : VM) {l m : List F64} (hl : l.length ≤ capacity) (hm : m.length < 256) :
    Alike (setFloats (setFloats s l) m) (setFloats s m) := by
  refine ⟨s.task.s, s.task.r, holding (holding s.task.f l) m, ?_, ?_, ?_, ?_⟩
  · simpa [setFloats] using LikeStack.refl _
  · simpa [setFloats] using LikeStack.refl _
  · simpa [setFloats] using LikeStack.holding2 s.task.f hl hm
  · simp [setFloats]

theorem setFloats_self (s : VM) : setFloats s (floats s) = s := by
  simp only [setFloats, floats, holding_self]
  exact VM.setTask_task s

theorem setData_setFloats (s : VM) (l : List Cell) (m : List F64) :
    setData (setFloats s m) l = setFloats (setData s l) m := by
  simp [setFloats, setData]

theorem setRet_setFloats (s : VM) (l : List Cell) (m : List F64) :
    setRet (setFloats s m) l = setFloats (setRet s l) m := by
  simp [setFloats, setRet]

/-- Running a program of literals. What it pushes does not depend on the rest of the machine. -/
theorem lits_sem {R : Refs} {lv : Nat} {d : DataSpace} {W : Nat → VM → VM → Prop} : ∀ {items : List Item} {a b : Nat} {l : List Cell}
    {f : List F64}, (∀ it ∈ items, it.IsLiteral) → l.length + cellsOf items ≤ capacity → f.length + floatsOf items ≤ capacity →
    ((litStmt items).place b).At R lv d a → d.start ≤ a → (litStmt items).next a ≤ d.limit →
    ∃ ys zs, Gives d items l f ys zs ∧ ys.length ≤ capacity ∧ zs.length ≤ capacity ∧ ∀ v, data v = l → floats v = f →
      ∃ u, Sem W (.stmt ((litStmt items).place b)) v .normal u ∧ Alike u (setFloats (setData v ys) zs)
  | [], a, _, l, f, _, hc, hf, _, _, _ => ⟨l, f, .done, by omega, by omega, fun v h1 h2 => ⟨v, .skip, by
      subst h1 h2
      rw [setData_self, setFloats_self]
      exact .refl v⟩⟩
  | .word _ :: l, _, _, _, _, h, _, _, _, _, _ => (h _ List.mem_cons_self).elim
  | .imm _ :: l, _, _, _, _, h, _, _, _, _, _ => (h _ List.mem_cons_self).elim
  | .lit x :: items, a, b, l, f, h, hc, hf, hat, hs, hn => by
    simp only [cellsOf, floatsOf, litStmt, Stmt.place, Stmt.At, Stmt.next, capacity] at *
    obtain ⟨ys, zs, e1, e2, e3, e4⟩ := lits_sem (W := W) (l := x :: l) (f := f) (fun y hy => h y (List.mem_cons_of_mem _ hy))
      (by simp [capacity]; omega) (by simp [capacity]; omega) hat.2 (by omega) hn
    simp only [capacity] at e2 e3
    refine ⟨ys, zs, .lit e1, e2, e3, fun v h1 h2 => ?_⟩
    obtain ⟨u, k1, k2⟩ := e4 (setData v (x :: data v)) (by rw [data_setData (by rw [h1]; simp; omega), h1])
      (by rw [← h2]; simp [floats, setData])
    refine ⟨u, .seq (.lit (by rw [h1]; simp [capacity]; omega)) k1, k2.trans (.setFloats ?_ (by omega))⟩
    exact alike_data v (by rw [h1]; simp [capacity]; omega) (by omega)
  | .flt x :: items, a, b, l, f, h, hc, hf, hat, hs, hn => by
    simp only [cellsOf, floatsOf, litStmt, Stmt.place, Stmt.At, Stmt.next, capacity] at *
    obtain ⟨ys, zs, e1, e2, e3, e4⟩ := lits_sem (W := W) (l := l) (f := x :: f) (fun y hy => h y (List.mem_cons_of_mem _ hy))
      (by simp [capacity]; omega) (by simp [capacity]; omega) hat.2 (by simp only [roundUp8]; omega) hn
    simp only [capacity] at e2 e3
    refine ⟨ys, zs, .flt e1, e2, e3, fun v h1 h2 => ?_⟩
    obtain ⟨u, k1, k2⟩ := e4 (setFloats v (x :: floats v)) (by rw [← h1]; simp [data, setFloats])
      (by rw [floats_setFloats (by rw [h2]; simp; omega), h2])
    refine ⟨u, .seq (.flt (by rw [h2]; simp [capacity]; omega)) k1, k2.trans ?_⟩
    rw [setData_setFloats]
    exact alike_floats _ (by rw [h2]; simp [capacity]; omega) (by omega)
  | .str bs :: items, a, b, l, f, h, hc, hf, hat, hs, hn => by
    simp only [cellsOf, floatsOf, litStmt, Stmt.place, Stmt.At, Stmt.next, capacity] at *
    obtain rfl : b = a := by have := hat.1.2.2.2; omega
    have hle := Stmt.le_next (litStmt items) (roundUp8 (b + 16 + bs.length))
    obtain ⟨ys, zs, e1, e2, e3, e4⟩ := lits_sem (W := W) (l := BitVec.ofNat 64 bs.length :: BitVec.ofNat 64 (b + 16) :: l) (f := f)
      (fun y hy => h y (List.mem_cons_of_mem _ hy))
      (by simp [capacity]; omega) (by simp [capacity]; omega) hat.2 (by simp only [roundUp8]; omega) hn
    simp only [capacity] at e2 e3
    refine ⟨ys, zs, .str hat.1.2.2.1 (by omega) (by simp only [roundUp8] at *; omega) e1, e2, e3, fun v h1 h2 => ?_⟩
    obtain ⟨u, k1, k2⟩ := e4 (setData v (BitVec.ofNat 64 bs.length :: BitVec.ofNat 64 (b + 16) :: data v))
      (by rw [data_setData (by rw [h1]; simp; omega), h1]) (by rw [← h2]; simp [floats, setData])
    refine ⟨u, .seq (.str (by rw [h1]; simp [capacity]; omega)) k1, k2.trans (.setFloats ?_ (by omega))⟩
    exact alike_data v (by rw [h1]; simp [capacity]; omega) (by omega)

end Verif
