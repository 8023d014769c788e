import Verif.Model.Words
import Verif.Spec.Stack

/-!
# The ring buffer represents a list

`Stack.items` is the content as a list, top first.
-/

namespace Verif
namespace Stack
variable {α : Type}

/-- Indexed form of `items st = xs`. -/
def Rep (st : Stack α) (xs : List α) : Prop :=
  st.len.toNat = xs.length ∧
    ∀ k (h : k < xs.length), st.inner (BitVec.ofNat 8 (st.len.toNat - 1 - k)) = xs[k]

theorem items_length (st : Stack α) : st.items.length = st.len.toNat := by
  simp [items, asList]

theorem items_length_lt (st : Stack α) : st.items.length < 256 := by
  rw [items_length]; exact st.len.isLt

theorem items_getElem (st : Stack α) (k : Nat) (h : k < st.items.length) :
    st.items[k] = st.inner (BitVec.ofNat 8 (st.len.toNat - 1 - k)) := by
  simp [items, asList]

theorem rep_items (st : Stack α) : Rep st st.items :=
  ⟨(items_length st).symm, fun k h => (items_getElem st k h).symm⟩

theorem Rep.items_eq {st : Stack α} {xs : List α} (h : Rep st xs) : st.items = xs := by
  apply List.ext_getElem
  · rw [items_length, h.1]
  · intro k h1 h2
    rw [items_getElem, h.2 k h2]

theorem items_eq_iff {st : Stack α} {xs : List α} : st.items = xs ↔ Rep st xs :=
  ⟨fun h => h ▸ rep_items st, Rep.items_eq⟩

theorem Rep.len {st : Stack α} {xs : List α} (h : Rep st xs) :
    st.len = BitVec.ofNat 8 xs.length := by
  rw [← h.1]; simp

theorem Rep.read {st : Stack α} {xs : List α} (h : Rep st xs) {k : Nat} (hk : k < xs.length)
    {i : BitVec 8} (hi : i.toNat + 1 + k = st.len.toNat) : st.inner i = xs[k] := by
  have := h.2 k hk
  have e : BitVec.ofNat 8 (st.len.toNat - 1 - k) = i := by bv_omega
  rw [e] at this; exact this

/-- To show `Rep`, give the slot of every element by a side condition on numbers. -/
theorem Rep.intro {st : Stack α} {xs : List α} (h1 : st.len.toNat = xs.length)
    (h2 : ∀ k (h : k < xs.length) (i : BitVec 8), i.toNat + 1 + k = st.len.toNat →
      st.inner i = xs[k]) : Rep st xs :=
  ⟨h1, fun k h => h2 k h _ (by
    have := st.len.isLt
    simp only [BitVec.toNat_ofNat]; omega)⟩

/-- Close a `Rep` goal for an operation that writes a few slots near the top. `h` is the `Rep` of the
old stack. -/
local macro "rep_tac" h:term "," d:ident : tactic => `(tactic| (
  have h1 := ($h).1
  try simp only [List.length_cons] at h1
  refine Rep.intro ?_ ?_
  · simp only [$d:ident, setSlot, List.length_cons]; bv_omega
  · intro k hk i hi
    simp only [$d:ident, setSlot] at hi ⊢
    rcases k with _ | _ | _ | _ | _ | _ | k <;>
      simp only [List.getElem_cons_zero, List.getElem_cons_succ, List.length_cons] at hk ⊢
    all_goals (repeat' split)
    all_goals first
      | rfl
      | (exfalso; bv_omega)
      | exact ($h).read (k := 0) (by (try simp only [List.length_cons]); omega) (by bv_omega)
      | exact ($h).read (k := 1) (by (try simp only [List.length_cons]); omega) (by bv_omega)
      | exact ($h).read (k := 2) (by (try simp only [List.length_cons]); omega) (by bv_omega)
      | exact ($h).read (k := 3) (by (try simp only [List.length_cons]); omega) (by bv_omega)
      | exact ($h).read (k := 4) (by (try simp only [List.length_cons]); omega) (by bv_omega)
      | exact ($h).read (k := 5) (by (try simp only [List.length_cons]); omega) (by bv_omega)
      | exact ($h).read (k := 6) (by (try simp only [List.length_cons]); omega) (by bv_omega)
      | exact ($h).read (k := 7) (by (try simp only [List.length_cons]); omega) (by bv_omega)
      | exact ($h).read (k := k + 2) (by (try simp only [List.length_cons]); omega) (by bv_omega)
      | exact ($h).read (k := k + 3) (by (try simp only [List.length_cons]); omega) (by bv_omega)
      | exact ($h).read (k := k + 4) (by (try simp only [List.length_cons]); omega) (by bv_omega)
      | exact ($h).read (k := k + 5) (by (try simp only [List.length_cons]); omega) (by bv_omega)
      | exact ($h).read (k := k + 6) (by (try simp only [List.length_cons]); omega) (by bv_omega)
      | exact ($h).read (k := k + 7) (by (try simp only [List.length_cons]); omega) (by bv_omega)
      | exact ($h).read (k := k + 8) (by (try simp only [List.length_cons]); omega) (by bv_omega)
      | exact ($h).read (k := k + 9) (by (try simp only [List.length_cons]); omega) (by bv_omega)))

theorem rep_new (c : α) : Rep (Stack.new c) ([] : List α) :=
  ⟨rfl, fun k h => absurd h (by simp)⟩

theorem rep_reset (st : Stack α) : Rep st.reset ([] : List α) :=
  ⟨rfl, fun k h => absurd h (by simp)⟩

variable {st : Stack α} {xs : List α} {a b c d e : α}

theorem Rep.push (h : Rep st xs) (hl : xs.length < 255) (v : α) : Rep (st.push v) (v :: xs) := by
  rep_tac h, Stack.push

theorem Rep.push2 (h : Rep st xs) (hl : xs.length < 254) (v w : α) :
    Rep (st.push2 v w) (w :: v :: xs) := by
  rep_tac h, Stack.push2

theorem Rep.push3 (h : Rep st xs) (hl : xs.length < 253) (u v w : α) :
    Rep (st.push3 u v w) (w :: v :: u :: xs) := by
  rep_tac h, Stack.push3

theorem Rep.top (h : Rep st (a :: xs)) : st.inner (st.len - 1) = a :=
  h.read (k := 0) (by simp) (by have := h.1; simp only [List.length_cons] at this; bv_omega)

theorem Rep.snd (h : Rep st (b :: a :: xs)) : st.inner (st.len - 2) = a :=
  h.read (k := 1) (by simp) (by have := h.1; simp only [List.length_cons] at this; bv_omega)

theorem Rep.thd (h : Rep st (c :: b :: a :: xs)) : st.inner (st.len - 3) = a :=
  h.read (k := 2) (by simp) (by have := h.1; simp only [List.length_cons] at this; bv_omega)

theorem Rep.frt (h : Rep st (d :: c :: b :: a :: xs)) : st.inner (st.len - 4) = a :=
  h.read (k := 3) (by simp) (by have := h.1; simp only [List.length_cons] at this; bv_omega)

theorem Rep.drop (h : Rep st (a :: xs)) : Rep { st with len := st.len - 1 } xs := by
  have h1 := h.1
  simp only [List.length_cons] at h1
  refine Rep.intro (by simp only []; bv_omega) ?_
  intro k hk i hi
  exact h.read (k := k + 1) (by simp; omega) (by simp only [] at hi; bv_omega)

theorem Rep.drop2 (h : Rep st (b :: a :: xs)) : Rep { st with len := st.len - 2 } xs := by
  have h1 := h.1
  simp only [List.length_cons] at h1
  refine Rep.intro (by simp only []; bv_omega) ?_
  intro k hk i hi
  exact h.read (k := k + 2) (by simp; omega) (by simp only [] at hi; bv_omega)

theorem Rep.drop3 (h : Rep st (c :: b :: a :: xs)) : Rep { st with len := st.len - 3 } xs := by
  have h1 := h.1
  simp only [List.length_cons] at h1
  refine Rep.intro (by simp only []; bv_omega) ?_
  intro k hk i hi
  exact h.read (k := k + 3) (by simp; omega) (by simp only [] at hi; bv_omega)

theorem Rep.pop_fst (h : Rep st (a :: xs)) : st.pop.1 = a := h.top
theorem Rep.pop_snd (h : Rep st (a :: xs)) : Rep st.pop.2 xs := h.drop
theorem Rep.pop2_fst (h : Rep st (b :: a :: xs)) : st.pop2.1 = (a, b) := by
  simp only [Stack.pop2, h.top, h.snd]
theorem Rep.pop2_snd (h : Rep st (b :: a :: xs)) : Rep st.pop2.2 xs := h.drop2
theorem Rep.pop3_fst (h : Rep st (c :: b :: a :: xs)) : st.pop3.1 = (a, b, c) := by
  simp only [Stack.pop3, h.top, h.snd, h.thd]
theorem Rep.pop3_snd (h : Rep st (c :: b :: a :: xs)) : Rep st.pop3.2 xs := h.drop3

theorem Rep.last (h : Rep st (a :: xs)) : st.last = a := h.top

theorem Rep.swap (h : Rep st (b :: a :: xs)) : Rep st.swap (a :: b :: xs) := by
  rep_tac h, Stack.swap

theorem Rep.dup (h : Rep st (a :: xs)) (hl : xs.length < 254) : Rep st.dup (a :: a :: xs) := by
  rep_tac h, Stack.dup

theorem Rep.dropOp (h : Rep st (a :: xs)) : Rep st.drop xs := h.drop

theorem Rep.nip (h : Rep st (b :: a :: xs)) : Rep st.nip (b :: xs) := by
  rep_tac h, Stack.nip

theorem Rep.over (h : Rep st (b :: a :: xs)) (hl : xs.length < 253) :
    Rep st.over (a :: b :: a :: xs) := by
  rep_tac h, Stack.over

theorem Rep.rot (h : Rep st (c :: b :: a :: xs)) : Rep st.rot (a :: c :: b :: xs) := by
  rep_tac h, Stack.rot

theorem Rep.minusRot (h : Rep st (c :: b :: a :: xs)) : Rep st.minusRot (b :: a :: c :: xs) := by
  rep_tac h, Stack.minusRot

theorem Rep.twoDrop (h : Rep st (b :: a :: xs)) : Rep st.twoDrop xs := h.drop2

theorem Rep.twoDup (h : Rep st (b :: a :: xs)) (hl : xs.length < 252) :
    Rep st.twoDup (b :: a :: b :: a :: xs) := by
  rep_tac h, Stack.twoDup

theorem Rep.twoSwap (h : Rep st (d :: c :: b :: a :: xs)) :
    Rep st.twoSwap (b :: a :: d :: c :: xs) := by
  rep_tac h, Stack.twoSwap

theorem Rep.twoOver (h : Rep st (d :: c :: b :: a :: xs)) (hl : xs.length < 250) :
    Rep st.twoOver (b :: a :: d :: c :: b :: a :: xs) := by
  rep_tac h, Stack.twoOver

theorem Rep.slashMod {st' : Stack α} (h : Rep st (b :: a :: xs)) (u v : α)
    (e : st' = (st.setSlot (st.len - 2) u).setSlot (st.len - 1) v) : Rep st' (v :: u :: xs) := by
  subst e
  have h0 := h.1
  rep_tac h, Stack.setSlot

theorem Rep.binop (h : Rep st (b :: a :: xs)) (f : α → α → α) : Rep (st.binop f) (f a b :: xs) := by
  have e : st.binop f = { st.setSlot (st.len - 2) (f a b) with len := st.len - 1 } := by
    simp only [Stack.binop, h.top, h.snd]
  rw [e]
  rep_tac h, Stack.setSlot

theorem Rep.unop (h : Rep st (a :: xs)) (f : α → α) : Rep (st.unop f) (f a :: xs) := by
  have e : st.unop f = st.setSlot (st.len - 1) (f a) := by
    simp only [Stack.unop, h.top]
  rw [e]
  rep_tac h, Stack.setSlot

theorem Rep.get (h : Rep st xs) {i : Nat} {v : α} (hv : xs.reverse[i]? = some v) :
    st.get (BitVec.ofNat 8 i) = v := by
  have h1 := h.1
  have hi : i < xs.reverse.length := by
    rcases Nat.lt_or_ge i xs.reverse.length with h' | h'
    · exact h'
    · simp [List.getElem?_eq_none h'] at hv
  rw [List.getElem?_eq_getElem hi, Option.some.injEq] at hv
  simp only [List.length_reverse] at hi
  rw [← hv, List.getElem_reverse]
  have := st.len.isLt
  exact h.read (by omega) (by simp only [BitVec.toNat_ofNat]; omega)

theorem Rep.pick {st : Stack Cell} {n : Cell} {xs : List Cell} {v : Cell} (h : Rep st (n :: xs))
    (hv : xs[n.toNat]? = some v) : Rep st.pick (v :: xs) := by
  have h1 := h.1
  simp only [List.length_cons] at h1
  have hl := st.len.isLt
  have hn : n.toNat < xs.length := by
    rcases Nat.lt_or_ge n.toNat xs.length with h' | h'
    · exact h'
    · simp [List.getElem?_eq_none h'] at hv
  have e : st.pick = st.setSlot (st.len - 1) v := by
    simp only [Stack.pick, h.top]
    congr 1
    rw [List.getElem?_eq_getElem hn, Option.some.injEq] at hv
    rw [← hv]
    have := h.read (k := n.toNat + 1) (i := st.len - (BitVec.setWidth 8 n + 2))
      (by simp; omega) (by
        have e1 : (BitVec.setWidth 8 n).toNat = n.toNat := by
          simp only [BitVec.toNat_setWidth]; omega
        bv_omega)
    simpa using this
  rw [e]
  rep_tac h, Stack.setSlot

/-- `st'` holds `ys`, has the same guard value, and no slot at or above both depths was written. -/
structure To (st : Stack α) (xs : List α) (st' : Stack α) (ys : List α) : Prop where
  rep : Rep st' ys
  canary : st'.canary = st.canary
  quiet : ∀ i : BitVec 8, xs.length ≤ i.toNat → ys.length ≤ i.toNat → st'.inner i = st.inner i

theorem To.refl (h : Rep st xs) : To st xs st xs := ⟨h, rfl, fun _ _ _ => rfl⟩

local macro "to_tac" h:term "," r:term "," d:ident : tactic => `(tactic| (
  refine ⟨$r, rfl, ?_⟩
  intro i h1 h2
  have h0 := ($h).1
  simp only [List.length_cons] at h0 h1 h2
  simp only [$d:ident, setSlot]
  (repeat' split) <;> first | rfl | (exfalso; bv_omega)))

local macro "to_tac'" h:term "," r:term "," d:ident : tactic => `(tactic| (
  refine ⟨$r, rfl, ?_⟩
  intro i h1 h2
  have h0 := ($h).1
  simp only [List.length_cons] at h2
  simp only [$d:ident, setSlot]
  (repeat' split) <;> first | rfl | (exfalso; bv_omega)))

theorem Rep.toPush (h : Rep st xs) (hl : xs.length < 255) (v : α) :
    To st xs (st.push v) (v :: xs) := by to_tac' h, (h.push hl v), Stack.push
theorem Rep.toPush2 (h : Rep st xs) (hl : xs.length < 254) (v w : α) :
    To st xs (st.push2 v w) (w :: v :: xs) := by to_tac' h, (h.push2 hl v w), Stack.push2
theorem Rep.toPush3 (h : Rep st xs) (hl : xs.length < 253) (u v w : α) :
    To st xs (st.push3 u v w) (w :: v :: u :: xs) := by to_tac' h, (h.push3 hl u v w), Stack.push3
theorem Rep.toPop (h : Rep st (a :: xs)) : To st (a :: xs) st.pop.2 xs :=
  ⟨h.pop_snd, rfl, fun _ _ _ => rfl⟩
theorem Rep.toPop2 (h : Rep st (b :: a :: xs)) : To st (b :: a :: xs) st.pop2.2 xs :=
  ⟨h.pop2_snd, rfl, fun _ _ _ => rfl⟩
theorem Rep.toPop3 (h : Rep st (c :: b :: a :: xs)) : To st (c :: b :: a :: xs) st.pop3.2 xs :=
  ⟨h.pop3_snd, rfl, fun _ _ _ => rfl⟩
theorem Rep.toSwap (h : Rep st (b :: a :: xs)) : To st (b :: a :: xs) st.swap (a :: b :: xs) := by
  to_tac h, h.swap, Stack.swap
theorem Rep.toDup (h : Rep st (a :: xs)) (hl : xs.length < 254) :
    To st (a :: xs) st.dup (a :: a :: xs) := by to_tac h, (h.dup hl), Stack.dup
theorem Rep.toDrop (h : Rep st (a :: xs)) : To st (a :: xs) st.drop xs :=
  ⟨h.drop, rfl, fun _ _ _ => rfl⟩
theorem Rep.toNip (h : Rep st (b :: a :: xs)) : To st (b :: a :: xs) st.nip (b :: xs) := by
  to_tac h, h.nip, Stack.nip
theorem Rep.toOver (h : Rep st (b :: a :: xs)) (hl : xs.length < 253) :
    To st (b :: a :: xs) st.over (a :: b :: a :: xs) := by to_tac h, (h.over hl), Stack.over
theorem Rep.toRot (h : Rep st (c :: b :: a :: xs)) :
    To st (c :: b :: a :: xs) st.rot (a :: c :: b :: xs) := by to_tac h, h.rot, Stack.rot
theorem Rep.toMinusRot (h : Rep st (c :: b :: a :: xs)) :
    To st (c :: b :: a :: xs) st.minusRot (b :: a :: c :: xs) := by
  to_tac h, h.minusRot, Stack.minusRot
theorem Rep.toTwoDrop (h : Rep st (b :: a :: xs)) : To st (b :: a :: xs) st.twoDrop xs :=
  ⟨h.twoDrop, rfl, fun _ _ _ => rfl⟩
theorem Rep.toTwoDup (h : Rep st (b :: a :: xs)) (hl : xs.length < 252) :
    To st (b :: a :: xs) st.twoDup (b :: a :: b :: a :: xs) := by
  to_tac h, (h.twoDup hl), Stack.twoDup
theorem Rep.toTwoSwap (h : Rep st (d :: c :: b :: a :: xs)) :
    To st (d :: c :: b :: a :: xs) st.twoSwap (b :: a :: d :: c :: xs) := by
  to_tac h, h.twoSwap, Stack.twoSwap
theorem Rep.toTwoOver (h : Rep st (d :: c :: b :: a :: xs)) (hl : xs.length < 250) :
    To st (d :: c :: b :: a :: xs) st.twoOver (b :: a :: d :: c :: b :: a :: xs) := by
  to_tac h, (h.twoOver hl), Stack.twoOver
theorem Rep.toBinop (h : Rep st (b :: a :: xs)) (f : α → α → α) :
    To st (b :: a :: xs) (st.binop f) (f a b :: xs) := by
  to_tac h, (h.binop f), Stack.binop
theorem Rep.toUnop (h : Rep st (a :: xs)) (f : α → α) :
    To st (a :: xs) (st.unop f) (f a :: xs) := by
  to_tac h, (h.unop f), Stack.unop
theorem Rep.toPick {st : Stack Cell} {n : Cell} {xs : List Cell} {v : Cell} (h : Rep st (n :: xs))
    (hv : xs[n.toNat]? = some v) : To st (n :: xs) st.pick (v :: xs) := by
  to_tac h, (h.pick hv), Stack.pick

/-- pop then push -/
theorem Rep.toPopPush (h : Rep st (a :: xs)) (v : α) :
    To st (a :: xs) (st.pop.2.push v) (v :: xs) := by
  have hl : xs.length < 255 := by have := h.1; have := st.len.isLt; simp at *; omega
  refine ⟨h.pop_snd.push hl v, rfl, ?_⟩
  intro i h1 h2
  exact (h.pop_snd.toPush hl v).quiet i (by simp at *; omega) h2

theorem Rep.toPop2Push (h : Rep st (b :: a :: xs)) (v : α) :
    To st (b :: a :: xs) (st.pop2.2.push v) (v :: xs) := by
  have hl : xs.length < 255 := by have := h.1; have := st.len.isLt; simp at *; omega
  refine ⟨h.pop2_snd.push hl v, rfl, ?_⟩
  intro i h1 h2
  exact (h.pop2_snd.toPush hl v).quiet i (by simp at *; omega) h2

theorem Rep.toPop3Push (h : Rep st (c :: b :: a :: xs)) (v : α) :
    To st (c :: b :: a :: xs) (st.pop3.2.push v) (v :: xs) := by
  have hl : xs.length < 255 := by have := h.1; have := st.len.isLt; simp at *; omega
  refine ⟨h.pop3_snd.push hl v, rfl, ?_⟩
  intro i h1 h2
  exact (h.pop3_snd.toPush hl v).quiet i (by simp at *; omega) h2

end Stack
end Verif
