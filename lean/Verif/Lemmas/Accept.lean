import Verif.Lemmas.Reject

/-!
# What is nested properly may come in that order, and fits
-/

namespace Verif
open Spec Stack

section
variable {R : Refs} {lv N : Nat}

/-- `N` bounds what is open after any of the items. -/
def Bounded (lv N : Nat) (items : List Item) (K : List Mark) : Prop :=
  ∀ l M, l <+: items → openItems lv l K = some M → M.length ≤ N

theorem Bounded.head {l m : List Item} {K : List Mark} (h : Bounded lv N (l ++ m) K) : Bounded lv N l K :=
  fun a M h1 h2 => h a M (h1.trans (List.prefix_append l m)) h2

theorem Bounded.tail {l m : List Item} {K K' : List Mark} (h : Bounded lv N (l ++ m) K) (ho : openItems lv l K = some K') :
    Bounded lv N m K' :=
  fun a M h1 h2 => h (l ++ a) M ((List.prefix_append_right_inj l).2 h1) (by rw [openItems_append, ho]; exact h2)

theorem Bounded.first {i : Item} {m : List Item} {K K' : List Mark} (h : Bounded lv N (i :: m) K)
    (ho : openItem lv i K = some K') : Bounded lv N m K' := by
  refine Bounded.tail (l := [i]) h ?_
  simp [openItems, ho]

theorem Bounded.now {items : List Item} {K : List Mark} (h : Bounded lv N items K) : K.length ≤ N :=
  h [] K (List.nil_prefix) rfl

theorem closeCase_of : ∀ {J K : List Mark}, closeCase J = some K → openAfter .immOf J = some (.of_ :: J)
  | .endof :: _, _, _ => rfl
  | .case_ :: _, _, _ => rfl
  | [], _, h => by cases h
  | .if_ :: _, _, h => by cases h
  | .else_ :: _, _, h => by cases h
  | .begin_ :: _, _, h => by cases h
  | .while_ :: _, _, h => by cases h
  | .do_ :: _, _, h => by cases h
  | .of_ :: _, _, h => by cases h

theorem closeCase_mem : ∀ {J K : List Mark}, closeCase J = some K → Mark.do_ ∈ K → Mark.do_ ∈ J
  | .endof :: J, K, h, hd => by
    have : closeCase J = some K := h
    simp [closeCase_mem this hd]
  | .case_ :: _, _, h, hd => by
    have := Option.some.inj h
    subst this
    simp [hd]
  | [], _, h, _ => by cases h
  | .if_ :: _, _, h, _ => by cases h
  | .else_ :: _, _, h, _ => by cases h
  | .begin_ :: _, _, h, _ => by cases h
  | .while_ :: _, _, h, _ => by cases h
  | .do_ :: _, _, h, _ => by cases h
  | .of_ :: _, _, h, _ => by cases h

theorem openItems_cons (i : Item) (l : List Item) {K K' : List Mark} (h : openItem lv i K = some K') :
    openItems lv (i :: l) K = openItems lv l K' := by simp [openItems, h]

theorem openItems_then {l m : List Item} {K K' : List Mark} (h : openItems lv l K = some K') :
    openItems lv (l ++ m) K = openItems lv m K' := by rw [openItems_append, h]; rfl

mutual
/-- A structured program leaves open what was open. -/
theorem open_stmt (hx : R.exit ≠ lv) : ∀ (p : Stmt) (b : Bool) (K : List Mark), p.leavesOk b = true → lv ∉ p.calls →
    (b = true → .do_ ∈ K) → openItems lv (p.items R lv) K = some K ∧
      ∀ N, Bounded lv N (p.items R lv) K → K.length + p.height ≤ N
  | .skip, b, K, _, _, _ => ⟨rfl, fun N h => h.now⟩
  | .lit v, b, K, _, _, _ => ⟨rfl, fun N h => h.now⟩
  | .flt v, b, K, _, _, _ => ⟨rfl, fun N h => h.now⟩
  | .str n v, b, K, _, _, _ => ⟨rfl, fun N h => h.now⟩
  | .word i, b, K, _, h2, _ => by
    have : i ≠ lv := by intro e; subst e; simp [Stmt.calls] at h2
    exact ⟨by simp [Stmt.items, openItems, openItem, this], fun N h => h.now⟩
  | .exit, b, K, _, _, _ => ⟨by simp [Stmt.items, openItems, openItem, hx], fun N h => h.now⟩
  | .leave, b, K, h1, _, h3 => by
    have := h3 h1
    exact ⟨by simp [Stmt.items, openItems, openItem, this], fun N h => h.now⟩
  | .seq p q, b, K, h1, h2, h3 => by
    simp only [Stmt.leavesOk, Bool.and_eq_true] at h1
    simp only [Stmt.calls, List.mem_append, not_or] at h2
    obtain ⟨a1, a2⟩ := open_stmt hx p b K h1.1 h2.1 h3
    obtain ⟨b1, b2⟩ := open_stmt hx q b K h1.2 h2.2 h3
    refine ⟨by rw [Stmt.items, openItems_then a1, b1], fun N h => ?_⟩
    have e1 := a2 N h.head
    have e2 := b2 N (h.tail a1)
    simp only [Stmt.height]; omega
  | .ifThen p, b, K, h1, h2, h3 => by
    obtain ⟨a1, a2⟩ := open_stmt hx p b (.if_ :: K) h1 h2 (fun h => by simp [h3 h])
    refine ⟨?_, fun N h => ?_⟩
    · rw [Stmt.items, List.cons_append, openItems_cons _ _ rfl, openItems_then a1, openItems_cons _ _ rfl]; rfl
    · rw [Stmt.items, List.cons_append] at h
      have e1 := a2 N (h.first rfl).head
      simp only [Stmt.height, List.length_cons] at e1 ⊢; omega
  | .ifElse p q, b, K, h1, h2, h3 => by
    simp only [Stmt.leavesOk, Bool.and_eq_true] at h1
    simp only [Stmt.calls, List.mem_append, not_or] at h2
    obtain ⟨a1, a2⟩ := open_stmt hx p b (.if_ :: K) h1.1 h2.1 (fun h => by simp [h3 h])
    obtain ⟨b1, b2⟩ := open_stmt hx q b (.else_ :: K) h1.2 h2.2 (fun h => by simp [h3 h])
    have e : Stmt.items R lv (.ifElse p q) = .imm .immIf :: (p.items R lv ++ (.imm .immElse :: (q.items R lv ++ [.imm .immThen]))) := by
      simp [Stmt.items]
    rw [e]
    refine ⟨?_, fun N h => ?_⟩
    · rw [openItems_cons _ _ rfl, openItems_then a1, openItems_cons _ _ rfl, openItems_then b1, openItems_cons _ _ rfl]; rfl
    · have e1 := a2 N (h.first rfl).head
      have e2 := b2 N (((h.first rfl).tail a1).first rfl).head
      simp only [Stmt.height, List.length_cons] at e1 e2 ⊢; omega
  | .untilLoop p, b, K, h1, h2, h3 => by
    obtain ⟨a1, a2⟩ := open_stmt hx p b (.begin_ :: K) h1 h2 (fun h => by simp [h3 h])
    refine ⟨?_, fun N h => ?_⟩
    · rw [Stmt.items, List.cons_append, openItems_cons _ _ rfl, openItems_then a1, openItems_cons _ _ rfl]; rfl
    · rw [Stmt.items, List.cons_append] at h
      have e1 := a2 N (h.first rfl).head
      simp only [Stmt.height, List.length_cons] at e1 ⊢; omega
  | .againLoop p, b, K, h1, h2, h3 => by
    obtain ⟨a1, a2⟩ := open_stmt hx p b (.begin_ :: K) h1 h2 (fun h => by simp [h3 h])
    refine ⟨?_, fun N h => ?_⟩
    · rw [Stmt.items, List.cons_append, openItems_cons _ _ rfl, openItems_then a1, openItems_cons _ _ rfl]; rfl
    · rw [Stmt.items, List.cons_append] at h
      have e1 := a2 N (h.first rfl).head
      simp only [Stmt.height, List.length_cons] at e1 ⊢; omega
  | .whileLoop p q, b, K, h1, h2, h3 => by
    simp only [Stmt.leavesOk, Bool.and_eq_true] at h1
    simp only [Stmt.calls, List.mem_append, not_or] at h2
    obtain ⟨a1, a2⟩ := open_stmt hx p b (.begin_ :: K) h1.1 h2.1 (fun h => by simp [h3 h])
    obtain ⟨b1, b2⟩ := open_stmt hx q b (.while_ :: .begin_ :: K) h1.2 h2.2 (fun h => by simp [h3 h])
    have e : Stmt.items R lv (.whileLoop p q) =
        .imm .immBegin :: (p.items R lv ++ (.imm .immWhile :: (q.items R lv ++ [.imm .immRepeat]))) := by simp [Stmt.items]
    rw [e]
    refine ⟨?_, fun N h => ?_⟩
    · rw [openItems_cons _ _ rfl, openItems_then a1, openItems_cons _ _ rfl, openItems_then b1, openItems_cons _ _ rfl]; rfl
    · have e1 := a2 N (h.first rfl).head
      have e2 := b2 N (((h.first rfl).tail a1).first rfl).head
      simp only [Stmt.height, List.length_cons] at e1 e2 ⊢; omega
  | .loop ask plus n p, b, K, h1, h2, h3 => by
    obtain ⟨a1, a2⟩ := open_stmt hx p true (.do_ :: K) h1 h2 (fun h => by simp)
    have e1 : openItem lv (.imm (if ask then .immQdo else .immDo)) K = some (.do_ :: K) := by cases ask <;> rfl
    have e2 : openItem lv (.imm (if plus then .immPlusLoop else .immLoop)) (.do_ :: K) = some K := by cases plus <;> rfl
    refine ⟨?_, fun N h => ?_⟩
    · rw [Stmt.items, List.cons_append, openItems_cons _ _ e1, openItems_then a1, openItems_cons _ _ e2]; rfl
    · rw [Stmt.items, List.cons_append] at h
      have e1 := a2 N (h.first e1).head
      simp only [Stmt.height, List.length_cons] at e1 ⊢; omega
  | .case r, b, K, h1, h2, h3 => by
    obtain ⟨a1, a2⟩ := open_arms hx r b K (.case_ :: K) rfl h1 h2 h3
    refine ⟨by rw [Stmt.items, openItems_cons _ _ rfl, a1], fun N h => ?_⟩
    have e1 := a2 N (Bounded.first (K' := .case_ :: K) h rfl)
    simp only [Stmt.height, List.length_cons] at e1 ⊢; omega

theorem open_arms (hx : R.exit ≠ lv) : ∀ (r : Arms) (b : Bool) (K J : List Mark), closeCase J = some K →
    r.leavesOk b = true → lv ∉ r.calls → (b = true → .do_ ∈ K) → openItems lv (r.items R lv) J = some K ∧
      ∀ N, Bounded lv N (r.items R lv) J → J.length + r.height ≤ N
  | .default p, b, K, J, hJ, h1, h2, h3 => by
    obtain ⟨a1, a2⟩ := open_stmt hx p b J h1 h2 (fun h => closeCase_mem hJ (h3 h))
    have ho : openItem lv (.imm .immEndcase) J = some K := hJ
    exact ⟨by rw [Arms.items, openItems_then a1, openItems_cons _ _ ho]; rfl, fun N h => a2 N h.head⟩
  | .arm t q r, b, K, J, hJ, h1, h2, h3 => by
    simp only [Arms.leavesOk, Bool.and_eq_true] at h1
    simp only [Arms.calls, List.mem_append, not_or] at h2
    have hd : b = true → Mark.do_ ∈ J := fun h => closeCase_mem hJ (h3 h)
    obtain ⟨a1, a2⟩ := open_stmt hx t b J h1.1.1 h2.1.1 hd
    obtain ⟨b1, b2⟩ := open_stmt hx q b (.of_ :: J) h1.1.2 h2.1.2 (fun h => by simp [hd h])
    obtain ⟨c1, c2⟩ := open_arms hx r b K (.endof :: J) hJ h1.2 h2.2 h3
    have e : Arms.items R lv (.arm t q r) =
        t.items R lv ++ (.imm .immOf :: (q.items R lv ++ (.imm .immEndof :: r.items R lv))) := by simp [Arms.items]
    have ho : openItem lv (.imm .immOf) J = some (.of_ :: J) := closeCase_of hJ
    rw [e]
    refine ⟨?_, fun N h => ?_⟩
    · rw [openItems_then a1, openItems_cons _ _ ho, openItems_then b1, openItems_cons _ _ rfl, c1]
    · have e1 := a2 N h.head
      have e2 := b2 N ((h.tail a1).first ho).head
      have e3 := c2 N (Bounded.first (K' := .endof :: J) (((h.tail a1).first ho).tail b1) rfl)
      simp only [Arms.height, List.length_cons] at e1 e2 e3 ⊢; omega
end

theorem itemsRoom_cons (i : Item) (l : List Item) : itemsRoom (i :: l) = i.room + itemsRoom l := by simp [itemsRoom]
theorem itemsRoom_append (l m : List Item) : itemsRoom (l ++ m) = itemsRoom l + itemsRoom m := by simp [itemsRoom]

mutual
theorem next_room : ∀ (p : Stmt) (a : Nat), p.next a ≤ a + itemsRoom (p.items R lv)
  | .skip, a => by simp [Stmt.next]
  | .seq p q, a => by
    have h1 := next_room p a
    have h2 := next_room q (p.next a)
    simp only [Stmt.next, Stmt.items, itemsRoom_append]; omega
  | .word i, a => by simp [Stmt.next, Stmt.items, itemsRoom, Item.room]
  | .lit v, a => by simp [Stmt.next, Stmt.items, itemsRoom, Item.room]
  | .flt v, a => by
    have := roundUp8_le (a + 8)
    simp [Stmt.next, Stmt.items, itemsRoom, Item.room]; omega
  | .str n v, a => by
    have := roundUp8_le (a + 16 + v.length)
    simp [Stmt.next, Stmt.items, itemsRoom, Item.room]; omega
  | .exit, a => by simp [Stmt.next, Stmt.items, itemsRoom, Item.room]
  | .leave, a => by simp [Stmt.next, Stmt.items, itemsRoom, Item.room]
  | .ifThen p, a => by
    have h1 := next_room p (a + 16)
    simp only [Stmt.next, Stmt.items, List.cons_append, itemsRoom_append, itemsRoom_cons, Item.room]; omega
  | .ifElse p q, a => by
    have h1 := next_room p (a + 16)
    have h2 := next_room q (p.next (a + 16) + 16)
    simp only [Stmt.next, Stmt.items, List.cons_append, itemsRoom_append, itemsRoom_cons, Item.room]; omega
  | .untilLoop p, a => by
    have h1 := next_room p a
    simp only [Stmt.next, Stmt.items, List.cons_append, itemsRoom_append, itemsRoom_cons, Item.room]; omega
  | .againLoop p, a => by
    have h1 := next_room p a
    simp only [Stmt.next, Stmt.items, List.cons_append, itemsRoom_append, itemsRoom_cons, Item.room]; omega
  | .whileLoop p q, a => by
    have h1 := next_room p a
    have h2 := next_room q (p.next a + 16)
    simp only [Stmt.next, Stmt.items, List.cons_append, itemsRoom_append, itemsRoom_cons, Item.room]; omega
  | .loop ask plus n p, a => by
    have h1 := next_room p (a + 16)
    simp only [Stmt.next, Stmt.items, List.cons_append, itemsRoom_append, itemsRoom_cons, Item.room]; omega
  | .case r, a => by
    have h1 := arms_room r a
    simp only [Stmt.next, Stmt.items, itemsRoom_cons, Item.room]; omega

theorem arms_room : ∀ (r : Arms) (a : Nat), r.next a ≤ a + itemsRoom (r.items R lv)
  | .default p, a => by
    have h1 := next_room p a
    simp only [Arms.next, Arms.items, itemsRoom_append, itemsRoom_cons, Item.room]; omega
  | .arm t q r, a => by
    have h1 := next_room t a
    have h2 := next_room q (t.next a + 40)
    have h3 := arms_room r (q.next (t.next a + 40) + 16)
    simp only [Arms.next, Arms.items, List.cons_append, itemsRoom_append, itemsRoom_cons, Item.room]; omega
end

mutual
theorem calls_mem : ∀ (p : Stmt) {i : Nat}, i ∈ p.calls → .word i ∈ p.items R lv
  | .seq p q, i, h => by
    simp only [Stmt.calls, Stmt.items, List.mem_append] at h ⊢
    exact h.imp (calls_mem p) (calls_mem q)
  | .word j, i, h => by simpa [Stmt.calls, Stmt.items] using h
  | .ifThen p, i, h => by simp [Stmt.items, calls_mem p h]
  | .ifElse p q, i, h => by
    simp only [Stmt.calls, List.mem_append] at h
    rcases h with h | h
    · simp [Stmt.items, calls_mem p h]
    · simp [Stmt.items, calls_mem q h]
  | .untilLoop p, i, h => by simp [Stmt.items, calls_mem p h]
  | .againLoop p, i, h => by simp [Stmt.items, calls_mem p h]
  | .whileLoop p q, i, h => by
    simp only [Stmt.calls, List.mem_append] at h
    rcases h with h | h
    · simp [Stmt.items, calls_mem p h]
    · simp [Stmt.items, calls_mem q h]
  | .loop ask plus n p, i, h => by simp [Stmt.items, calls_mem p h]
  | .case r, i, h => by simp [Stmt.items, arms_calls_mem r h]

theorem arms_calls_mem : ∀ (r : Arms) {i : Nat}, i ∈ r.calls → .word i ∈ r.items R lv
  | .default p, i, h => by simp [Arms.items, calls_mem p h]
  | .arm t q r, i, h => by
    simp only [Arms.calls, List.mem_append] at h
    rcases h with (h | h) | h
    · simp [Arms.items, calls_mem t h]
    · simp [Arms.items, calls_mem q h]
    · simp [Arms.items, arms_calls_mem r h]
end

end

/-- A properly nested text that is not nested too deeply and for which there is room can be compiled. -/
theorem nested_compilable {s : VM} {lv dfa : Nat} {items : List Item} (hC : Compiler s.refs lv s.wl)
    (hord : ∀ it ∈ items, it.Ordinary s.wl lv) (hsh : Shallow lv items) (room : dfa + itemsRoom items + 8 ≤ s.ds.limit)
    (h : Nested s.refs lv items) : ∃ p : Stmt, p.items s.refs lv = items ∧ Compilable s p dfa := by
  obtain ⟨p, rfl, h1, h2⟩ := h
  have hx : s.refs.exit ≠ lv := by
    intro e
    obtain ⟨w, e1, e2⟩ := hC.exit
    obtain ⟨w', e3, e4⟩ := hC.leave
    rw [e, e3] at e1
    cases e1
    rw [e2] at e4
    cases e4
  obtain ⟨-, h3⟩ := open_stmt hx p false [] h1 h2 (fun h => by cases h)
  have h4 := h3 64 hsh
  have h5 := next_room (R := s.refs) (lv := lv) p dfa
  refine ⟨p, rfl, fun i hi => ?_, h1, by simpa using h4, by omega⟩
  rcases hord _ (calls_mem (R := s.refs) (lv := lv) p hi) with h | h
  · subst h; exact absurd hi h2
  · exact h

/-- Nested properly and leaving nothing open is the same. -/
theorem nested_iff_open {R : Refs} {wl : Wordlist} {lv : Nat} {items : List Item} (hx : R.exit ≠ lv)
    (hord : ∀ it ∈ items, it.Ordinary wl lv) : Nested R lv items ↔ openItems lv items [] = some [] := by
  constructor
  · rintro ⟨p, rfl, h1, h2⟩
    exact (open_stmt hx p false [] h1 h2 (fun h => by cases h)).1
  · exact nested_of_open hord

end Verif
